import Verif.Float
import Mathlib.Tactic.Ring
import Mathlib.Tactic.Linarith
import Mathlib.Data.Nat.Prime.Basic
import Mathlib.Tactic.NormNum

/-!
# Basic laws of the two circuit semantics, and the combined specification predicate `Spec`
-/

namespace ZkLoc

namespace Circ
variable {p : ℕ} {α β γ : Type} {b : ℕ} {st : Bool}

@[simp] theorem pure_eq (a : α) : (Pure.pure a : Circ p α) = Circ.pure a := rfl
@[simp] theorem bind_eq (c : Circ p α) (f : α → Circ p β) : (c >>= f) = Circ.bind c f := rfl

theorem bind_assoc (c : Circ p α) (f : α → Circ p β) (g : β → Circ p γ) :
    Circ.bind (Circ.bind c f) g = Circ.bind c (fun a => Circ.bind (f a) g) := by
  induction c with
  | pure a => rfl
  | hint h k ih => simp [Circ.bind, ih]
  | assert c k ih => simp [Circ.bind, ih]
  | soft c k ih => simp [Circ.bind, ih]
  | check v n m k ih => simp [Circ.bind, ih]
  | query s v k ih => simp [Circ.bind, ih]

theorem bind_pure (c : Circ p α) : Circ.bind c Circ.pure = c := by
  induction c with
  | pure a => rfl
  | hint h k ih => simp [Circ.bind, ih]
  | assert c k ih => simp [Circ.bind, ih]
  | soft c k ih => simp [Circ.bind, ih]
  | check v n m k ih => simp [Circ.bind, ih]
  | query s v k ih => simp [Circ.bind, ih]

theorem run_bind (c : Circ p α) (f : α → Circ p β) :
    (Circ.bind c f).run b = (c.run b).bind (fun a => (f a).run b) := by
  induction c with
  | pure a => rfl
  | hint h k ih => cases h <;> simp [Circ.bind, run, ih]
  | assert c k ih => simp only [Circ.bind, run]; split <;> simp [ih]
  | soft c k ih => simp only [Circ.bind, run]; split <;> simp [ih]
  | check v n m k ih => simp only [Circ.bind, run]; split <;> simp [ih]
  | query s v k ih => simp only [Circ.bind, run]; split <;> simp [ih]

theorem sat_bind (c : Circ p α) (f : α → Circ p β) (r : β) :
    (Circ.bind c f).Sat b st r ↔ ∃ a, c.Sat b st a ∧ (f a).Sat b st r := by
  induction c with
  | pure a => simp [Circ.bind, Sat]
  | hint h k ih =>
    simp only [Circ.bind, Sat, ih]
    constructor
    · rintro ⟨v, a, h1, h2⟩; exact ⟨a, ⟨v, h1⟩, h2⟩
    · rintro ⟨a, ⟨v, h1⟩, h2⟩; exact ⟨v, a, h1, h2⟩
  | assert c k ih => simp only [Circ.bind, Sat, ih, and_assoc, exists_and_left]
  | soft c k ih => simp only [Circ.bind, Sat, ih, and_assoc, exists_and_left]
  | check v n m k ih => simp only [Circ.bind, Sat, ih, and_assoc, exists_and_left]
  | query s v k ih => simp only [Circ.bind, Sat, ih, and_assoc, exists_and_left]

/-- Enforcing the elidable boolean constraints only removes solutions. -/
theorem sat_mono (c : Circ p α) (r : α) (h : c.Sat b true r) : c.Sat b false r := by
  induction c with
  | pure a => exact h
  | hint hh k ih => obtain ⟨v, hv⟩ := h; exact ⟨v, ih v hv⟩
  | assert c k ih => exact ⟨h.1, ih h.2⟩
  | soft c k ih => exact ⟨by simp, ih h.2⟩
  | check v n m k ih => exact ⟨h.1, ih h.2⟩
  | query s v k ih => exact ⟨h.1, ih h.2⟩

theorem length_decomposeHint (l n t : ℕ) : (decomposeHint l n t).length = n := by
  induction n generalizing t with
  | zero => rfl
  | succ n ih => simp [decomposeHint, ih]

theorem checkSat_of_checkRun {v : ZMod p} {n : ℕ} {m : Mode} (h : checkRun b v n m = true) :
    CheckSat b v n m :=
  ⟨honestLimbs b v n m, by simp [honestLimbs, length_decomposeHint], h⟩

/-- The honest prover's run is a satisfying assignment. -/
theorem sat_of_run (c : Circ p α) (r : α) (h : c.run b = some r) : c.Sat b st r := by
  induction c with
  | pure a => simpa [run, Sat, eq_comm] using h
  | hint hh k ih =>
    cases hh with
    | none => simp [run] at h
    | some v => exact ⟨v, ih v h⟩
  | assert c k ih =>
    simp only [run] at h; split at h
    · exact ⟨by assumption, ih h⟩
    · simp at h
  | soft c k ih =>
    simp only [run] at h; split at h
    · exact ⟨fun _ => by assumption, ih h⟩
    · simp at h
  | check v n m k ih =>
    simp only [run] at h; split at h
    · exact ⟨checkSat_of_checkRun (by assumption), ih h⟩
    · simp at h
  | query s v k ih =>
    simp only [run] at h; split at h
    · exact ⟨by assumption, ih h⟩
    · simp at h

end Circ

/-- Combined specification of a circuit `c` over table width `b`:
* the honest prover succeeds with output `v`;
* if `H` holds, the set of outputs that *some* prover can produce is exactly `S`
  (whether or not the elidable boolean constraints are enforced). -/
structure Spec {p : ℕ} {α : Type} (b : ℕ) (H : Prop) (c : Circ p α) (v : α) (S : α → Prop) : Prop where
  run : c.run b = some v
  sat : H → ∀ st r, c.Sat b st r ↔ S r

/-- `Spec` of a deterministic circuit: every prover obtains the honest output. -/
abbrev Det {p : ℕ} {α : Type} (b : ℕ) (H : Prop) (c : Circ p α) (v : α) : Prop :=
  Spec b H c v (fun r => r = v)

namespace Spec
variable {p : ℕ} {α β : Type} {b : ℕ} {H : Prop}

theorem pure (v : α) : Det b H (Circ.pure v : Circ p α) v :=
  ⟨rfl, fun _ _ _ => Iff.rfl⟩

theorem bind {c : Circ p α} {f : α → Circ p β} {v : α} {S : α → Prop} {w : α → β}
    {T : α → β → Prop} (hc : Spec b H c v S) (hv : S v)
    (hf : ∀ a, S a → Spec b H (f a) (w a) (T a)) :
    Spec b H (Circ.bind c f) (w v) (fun r => ∃ a, S a ∧ T a r) := by
  refine ⟨?_, fun hH st r => ?_⟩
  · rw [Circ.run_bind, hc.run]; exact (hf v hv).run
  · rw [Circ.sat_bind]
    constructor
    · rintro ⟨a, h1, h2⟩
      have := (hc.sat hH st a).1 h1
      exact ⟨a, this, ((hf a this).sat hH st r).1 h2⟩
    · rintro ⟨a, h1, h2⟩
      exact ⟨a, (hc.sat hH st a).2 h1, ((hf a h1).sat hH st r).2 h2⟩

/-- Sequencing after a deterministic circuit. -/
theorem det_bind {c : Circ p α} {f : α → Circ p β} {v : α} {w : β} {T : β → Prop}
    (hc : Det b H c v) (hf : Spec b H (f v) w T) : Spec b H (Circ.bind c f) w T := by
  refine ⟨?_, fun hH st r => ?_⟩
  · rw [Circ.run_bind, hc.run]; exact hf.run
  · rw [Circ.sat_bind]
    constructor
    · rintro ⟨a, h1, h2⟩
      obtain rfl := (hc.sat hH st a).1 h1
      exact (hf.sat hH st r).1 h2
    · intro h
      exact ⟨v, (hc.sat hH st v).2 rfl, (hf.sat hH st r).2 h⟩

theorem congr {c : Circ p α} {v v' : α} {S S' : α → Prop} (h : Spec b H c v S) (hv : v = v')
    (hS : ∀ r, S r ↔ S' r) : Spec b H c v' S' :=
  ⟨hv ▸ h.run, fun hH st r => (h.sat hH st r).trans (hS r)⟩

theorem weaken {H' : Prop} {c : Circ p α} {v : α} {S : α → Prop} (h : Spec b H c v S) (hH : H' → H) :
    Spec b H' c v S := ⟨h.run, fun h' => h.sat (hH h')⟩

/-- To establish `Det` it suffices to show that the honest run succeeds and that every solution
(even with the elidable constraints dropped) has the honest output. -/
theorem det_of {c : Circ p α} {v : α} (hrun : c.run b = some v)
    (hs : H → ∀ r, c.Sat b false r → r = v) : Det b H c v := by
  refine ⟨hrun, fun hH st r => ⟨fun h => hs hH r ?_, ?_⟩⟩
  · cases st
    · exact h
    · exact Circ.sat_mono c r h
  · rintro rfl; exact Circ.sat_of_run c _ hrun

/-- A nondeterministic first part whose choice does not matter afterwards. -/
theorem bind_irrel {c : Circ p α} {f : α → Circ p β} {v : α} {S : α → Prop} {w : β}
    {T : β → Prop} (hc : Spec b H c v S) (hv : S v)
    (hf : ∀ a, S a → Spec b H (f a) w T) : Spec b H (Circ.bind c f) w T :=
  (bind hc hv hf).congr rfl (fun _ => ⟨fun ⟨_, _, h⟩ => h, fun h => ⟨v, hv, h⟩⟩)

end Spec

/-! ## Booleans as field elements -/

section Bool
variable {p : ℕ} {α : Type} {b : ℕ} {H : Prop} {v : α} {S : α → Prop}

/-- A boolean as a field element. -/
def B (c : Bool) : ZMod p := if c then 1 else 0

@[simp] theorem B_true : (B true : ZMod p) = 1 := rfl
@[simp] theorem B_false : (B false : ZMod p) = 0 := rfl

theorem isBool_B (c : Bool) : isBool (B c : ZMod p) = true := by cases c <;> simp [isBool]

theorem isBool_iff (v : ZMod p) : isBool v = true ↔ ∃ c : Bool, v = B c := by
  simp only [isBool, Bool.or_eq_true, decide_eq_true_eq]
  constructor
  · rintro (h | h)
    · exact ⟨false, h⟩
    · exact ⟨true, h⟩
  · rintro ⟨c, rfl⟩; cases c <;> simp

theorem sel_B (c : Bool) (x y : ZMod p) : sel (B c) x y = if c then x else y := by
  cases c <;> simp [sel]

theorem and_B (a c : Bool) : (B a * B c : ZMod p) = B (a && c) := by cases a <;> cases c <;> simp
theorem or_B (a c : Bool) : (B a + B c - B a * B c : ZMod p) = B (a || c) := by
  cases a <;> cases c <;> simp
theorem xor_B (a c : Bool) : (B a + B c - 2 * B a * B c : ZMod p) = B (xor a c) := by
  cases a <;> cases c <;> simp; norm_num
theorem not_B (a : Bool) : (1 - B a : ZMod p) = B (!a) := by cases a <;> simp
theorem isZero_eq (v : ZMod p) : isZero v = B (decide (v = 0)) := by
  unfold isZero; split <;> simp [*]
theorem B_inj [Fact p.Prime] {a c : Bool} : (B a : ZMod p) = B c ↔ a = c := by
  cases a <;> cases c <;> simp
theorem gIsEq_eq (x y : ZMod p) : gIsEq x y = B (decide (x = y)) := by
  rw [gIsEq, isZero_eq]; congr 1; simp [sub_eq_zero]
theorem gIsEq_B [Fact p.Prime] (a c : Bool) : gIsEq (B a : ZMod p) (B c) = B (a == c) := by
  rw [gIsEq_eq]; cases a <;> cases c <;> simp

theorem B_int (c : Bool) : (B c : ZMod p) = ((if c then 1 else 0 : ℤ) : ZMod p) := by cases c <;> simp

variable {f : ZMod p → Circ p α}

theorem select_spec (c : Bool) (x y : ZMod p) :
    Det b H (select (B c) x y) (if c then x else y) := by
  refine ⟨?_, fun _ st r => ?_⟩
  · simp [select, softBool, Circ.bind, Circ.run, isBool_B, sel_B]
  · simp [select, softBool, Circ.bind, Circ.Sat, isBool_B, sel_B]

theorem and_spec (a c : Bool) : Det b H (and' (B a : ZMod p) (B c)) (B (a && c)) := by
  refine ⟨?_, fun _ st r => ?_⟩
  · simp [and', softBool, Circ.bind, Circ.run, isBool_B, and_B]
  · simp [and', softBool, Circ.bind, Circ.Sat, isBool_B, and_B]

theorem or_spec (a c : Bool) : Det b H (or' (B a : ZMod p) (B c)) (B (a || c)) := by
  refine ⟨?_, fun _ st r => ?_⟩
  · simp [or', softBool, Circ.bind, Circ.run, isBool_B, or_B]
  · simp [or', softBool, Circ.bind, Circ.Sat, isBool_B, or_B]

theorem xor_spec (a c : Bool) : Det b H (xor' (B a : ZMod p) (B c)) (B (xor a c)) := by
  refine ⟨?_, fun _ st r => ?_⟩
  · simp [xor', softBool, Circ.bind, Circ.run, isBool_B, xor_B]
  · simp [xor', softBool, Circ.bind, Circ.Sat, isBool_B, xor_B]

theorem assertIsEqual_spec {x y : ZMod p} (h : x = y) : Det b H (assertIsEqual x y) () := by
  refine ⟨?_, fun _ st r => ?_⟩
  · simp [assertIsEqual, Circ.run, h]
  · simp [assertIsEqual, Circ.Sat, h]

theorem inverse_spec {x : ZMod p} (h : x ≠ 0) : Det b H (inverse x) x⁻¹ := by
  refine ⟨?_, fun _ st r => ?_⟩
  · simp [inverse, Circ.run, h]
  · simp [inverse, Circ.Sat, h]

end Bool

/-! ## Small integers as field elements -/

section Cast
variable {p : ℕ} [Fact p.Prime]

theorem intCast_inj {a c : ℤ} (h : |a - c| < p) : ((a : ZMod p) = (c : ZMod p)) ↔ a = c := by
  constructor
  · intro hac
    have h0 : ((a - c : ℤ) : ZMod p) = 0 := by push_cast; rw [hac, sub_self]
    rw [ZMod.intCast_zmod_eq_zero_iff_dvd] at h0
    have := Int.eq_zero_of_abs_lt_dvd h0 h
    omega
  · rintro rfl; rfl

theorem natCast_inj {a c : ℕ} (ha : a < p) (hc : c < p) : ((a : ZMod p) = (c : ZMod p)) ↔ a = c := by
  constructor
  · intro h
    have := congrArg ZMod.val h
    rwa [ZMod.val_natCast_of_lt ha, ZMod.val_natCast_of_lt hc] at this
  · rintro rfl; rfl

theorem val_natCast_le (n : ℕ) : (n : ZMod p).val ≤ n := by
  rw [ZMod.val_natCast]; exact Nat.mod_le _ _

/-- `val` of a cast non-negative integer. -/
theorem val_intCast_nonneg {z : ℤ} (h0 : 0 ≤ z) (h : z < p) : ((z : ZMod p).val : ℤ) = z := by
  lift z to ℕ using h0
  have : z < p := by exact_mod_cast h
  rw [Int.cast_natCast, ZMod.val_natCast_of_lt this]

theorem val_intCast_neg {z : ℤ} (h0 : z < 0) (h : -z < p) : ((z : ZMod p).val : ℤ) = p + z := by
  have h1 : ((z : ZMod p)) = ((p + z : ℤ) : ZMod p) := by push_cast; simp
  rw [h1]; exact val_intCast_nonneg (by omega) (by omega)

end Cast

end ZkLoc
