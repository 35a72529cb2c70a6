import Verif.Circuits

/-!
# A cheating prover, executable

`Circ.forge` runs a circuit with some hint wires replaced. Success is a satisfying assignment, so that concrete attacks are
checked by evaluation.
-/

namespace ZkLoc

variable {p : ℕ} {α : Type}

/-- Run the circuit; the `i`-th hint wire gets the `i`-th element of the list if that is `some`, else its honest value. -/
def Circ.forge (b : ℕ) : Circ p α → List (Option (ZMod p)) → Option α
  | .pure a, _ => some a
  | .hint _ k, some v :: vs => forge b (k v) vs
  | .hint none _, _ => none
  | .hint (some v) k, vs => forge b (k v) vs.tail
  | .assert c k, vs => if c then forge b k vs else none
  | .soft c k, vs => if c then forge b k vs else none
  | .check v n m k, vs => if checkRun b v n m then forge b k vs else none
  | .query s v k, vs => if pow2Query s v then forge b k vs else none

theorem Circ.sat_of_forge {b : ℕ} {st : Bool} {c : Circ p α} {vs : List (Option (ZMod p))} {r : α} (h : c.forge b vs = some r) :
    c.Sat b st r := by
  induction c generalizing vs with
  | pure a => simp only [forge, Option.some.injEq] at h; exact h.symm
  | hint hh k ih =>
    rcases vs with _ | ⟨_ | v, vs⟩
    · cases hh with
      | none => simp [forge] at h
      | some v => exact ⟨v, ih v (by simpa [forge] using h)⟩
    · cases hh with
      | none => simp [forge] at h
      | some v => exact ⟨v, ih v (by simpa [forge] using h)⟩
    · exact ⟨v, ih v (by simpa [forge] using h)⟩
  | assert c k ih => simp only [forge] at h; split at h <;> [exact ⟨by assumption, ih h⟩; cases h]
  | soft c k ih => simp only [forge] at h; split at h <;> [exact ⟨fun _ => by assumption, ih h⟩; cases h]
  | check v n m k ih =>
    simp only [forge] at h
    split at h
    · rename_i hc
      exact ⟨⟨_, honestLimbs_length _ _ _ _, hc⟩, ih h⟩
    · cases h
  | query s v k ih => simp only [forge] at h; split at h <;> [exact ⟨by assumption, ih h⟩; cases h]

end ZkLoc
