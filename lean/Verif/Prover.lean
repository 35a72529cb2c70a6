import Verif.RealOps
import Verif.HexSpec
import Verif.Consts

/-!
# Helper calculus: what a prover obtains

`Ok m b c Q` treats the honest prover (the circuit can be satisfied, with a result in `Q`, any table width) and an arbitrary prover (every result is
in `Q`) in the same proofs.
-/

namespace ZkLoc

open Ieee (Datum)

/-- The honest prover, or an arbitrary one (with or without the circuits' soft assertions). -/
inductive Prover
  | honest
  | any (st : Bool)

/-- The prover obtains a result in `Q`. -/
def Ok {p : ℕ} {α : Type} (m : Prover) (b : ℕ) (c : Circ p α) (Q : α → Prop) : Prop :=
  match m with
  | .honest => ∃ r, c.run b = some r ∧ Q r
  | .any st => ∀ r, c.Sat b st r → Q r

/-- For arbitrary provers the table width has to divide the size of the lookup. -/
def Prover.Fits (m : Prover) (b : ℕ) (f : Fmt) : Prop := m = .honest ∨ b ∣ f.pow2Size

variable {p : ℕ} [Fact p.Prime] {b : ℕ} {f : Fmt} {m : Prover} {α β : Type}

omit [Fact p.Prime] in
theorem Ok.pure {r : α} {Q : α → Prop} (h : Q r) : Ok m b (Circ.pure r : Circ p α) Q := by
  cases m with
  | honest => exact ⟨r, rfl, h⟩
  | any st => intro r' h'; simp only [Circ.Sat] at h'; exact h' ▸ h

omit [Fact p.Prime] in
theorem Ok.bind {c : Circ p α} {k : α → Circ p β} {Q : α → Prop} {R : β → Prop} (h : Ok m b c Q) (hk : ∀ a, Q a → Ok m b (k a) R) :
    Ok m b (Circ.bind c k) R := by
  cases m with
  | honest =>
    obtain ⟨a, h1, h2⟩ := h
    obtain ⟨r, h3, h4⟩ := hk a h2
    exact ⟨r, by rw [Circ.run_bind, h1]; exact h3, h4⟩
  | any st =>
    intro r hr
    obtain ⟨a, h1, h2⟩ := (Circ.sat_bind _ _ _).1 hr
    exact hk a (h a h1) r h2

omit [Fact p.Prime] in
theorem Ok.mono {c : Circ p α} {Q R : α → Prop} (h : Ok m b c Q) (hq : ∀ a, Q a → R a) : Ok m b c R := by
  cases m with
  | honest => obtain ⟨a, h1, h2⟩ := h; exact ⟨a, h1, hq a h2⟩
  | any st => exact fun r hr => hq r (h r hr)

/-- Honest results are among those of an arbitrary prover, so a determined result needs one proof. -/
theorem Ok.det {c : Circ p α} {v : α} (h : Det b True c v) : Ok m b c (fun r => r = v) := by
  cases m with
  | honest => exact ⟨v, h.run, rfl⟩
  | any st => exact fun r hr => (h.sat trivial st r).1 hr

theorem Ok.select (c : Bool) (x y : ZMod p) : Ok m b (select (B c) x y) (fun r => r = if c then x else y) := .det (select_spec c x y)

theorem Ok.fSelect (c : Bool) (x y : FloatVar p) : Ok m b (fSelect (B c) x y) (fun r => r = if c then x else y) := by
  have h := C42_select (p := p) (b := b) c x y
  exact .det ⟨h.1, fun _ => h.2⟩

theorem wireOf_B (P : Prop) [Decidable P] : (wireOf P : ZMod p) = B (decide P) := by
  unfold wireOf B; by_cases h : P <;> simp [h]

theorem wireOf_congr {P Q : Prop} (h : P ↔ Q) : (wireOf P : ZMod p) = wireOf Q := by rw [propext h]

/-- Constants of the source. -/
theorem num_const (hE : 2 ≤ f.E) (h64 : 1 + f.E + f.M ≤ 64) {v : ℕ} (hv : v < 2 ^ (1 + f.E + f.M)) (hfin : v / 2 ^ f.M % 2 ^ f.E ≠ 2 ^ f.E - 1) :
    Num f (newConstant f v : FloatVar p) (Ieee.patternVal ⟨f.E, f.M⟩ v) := by
  rw [newConstant_toVar (by omega) h64 hv]
  have h := fltOf_datum (f := f) (by omega) hv
  have hd : ∃ s a, Ieee.decodeBits f.ieee v = .fin s a := by
    change ∃ s a, Ieee.decodeBits ⟨f.E, f.M⟩ v = .fin s a
    unfold Ieee.decodeBits
    simp only
    split_ifs
    all_goals first | exact ⟨_, _, rfl⟩ | exact absurd ‹_› hfin
  obtain ⟨s, a, hd⟩ := hd
  refine ⟨s, a, encodes_iff.2 ⟨_, fltOf_valid hE hv, by rw [h, hd], rfl⟩, ?_⟩
  unfold Ieee.patternVal
  rw [show (⟨f.E, f.M⟩ : Ieee.Format) = f.ieee from rfl, hd]

omit [Fact p.Prime] in
theorem patternVal_exact {E M : ℕ} {neg : Bool} {num den v : ℕ} (h : exactBits E M neg num den v = true) :
    Ieee.patternVal ⟨E, M⟩ v = Ieee.signed neg (num / den) := by
  unfold Ieee.patternVal
  rw [exactBits_decode h]

theorem num_exact {E M : ℕ} (hE : 2 ≤ E) (h64 : 1 + E + M ≤ 64) {neg : Bool} {num den v : ℕ} (hv : v < 2 ^ (1 + E + M))
    (h : exactBits E M neg num den v = true) {x : ℝ} (hx : Ieee.signed neg (num / den) = x) : Num ⟨E, M⟩ (newConstant ⟨E, M⟩ v : FloatVar p) x := by
  rw [← hx, ← patternVal_exact h]
  refine num_const (f := ⟨E, M⟩) hE h64 hv ?_
  unfold exactBits at h
  simp only [Bool.and_eq_true, decide_eq_true_eq] at h
  have := h.1.1.2
  simp only
  omega

section ops
variable (G : Good p b f) (hm : m.Fits b f)
include G hm

theorem ok_add {x y : FloatVar p} {u v : ℝ} (hx : Num f x u) (hy : Num f y v) (hu : |u| < big f) (huv : |u + v| ≤ big f) :
    Ok m b (fAdd f x y) (fun r => ∃ w, Num f r w ∧ Rn f (u + v) w) := by
  cases m with
  | honest => obtain ⟨r, w, h1, h2⟩ := num_add_run (b := b) G hx hy hu huv; exact ⟨r, h1, w, h2⟩
  | any st => exact fun r hr => num_add G (hm.resolve_left (by simp)) hx hy hu huv hr

theorem ok_sub {x y : FloatVar p} {u v : ℝ} (hx : Num f x u) (hy : Num f y v) (hu : |u| < big f) (huv : |u - v| ≤ big f) :
    Ok m b (fSub f x y) (fun r => ∃ w, Num f r w ∧ Rn f (u - v) w) := by
  cases m with
  | honest => obtain ⟨r, w, h1, h2⟩ := num_sub_run (b := b) G hx hy hu huv; exact ⟨r, h1, w, h2⟩
  | any st => exact fun r hr => num_sub G (hm.resolve_left (by simp)) hx hy hu huv hr

theorem ok_mul {x y : FloatVar p} {u v : ℝ} (hx : Num f x u) (hy : Num f y v) (huv : |u * v| ≤ big f) :
    Ok m b (fMul f x y) (fun r => ∃ w, Num f r w ∧ Rn f (u * v) w) := by
  cases m with
  | honest => obtain ⟨r, w, h1, h2⟩ := num_mul_run (b := b) G hx hy huv; exact ⟨r, h1, w, h2⟩
  | any st => exact fun r hr => num_mul G (hm.resolve_left (by simp)) hx hy huv hr

theorem ok_div {x y : FloatVar p} {u v : ℝ} (hx : Num f x u) (hy : Num f y v) (hv : v ≠ 0) (huv : |u / v| ≤ big f) :
    Ok m b (fDiv f x y) (fun r => ∃ w, Num f r w ∧ Rn f (u / v) w) := by
  cases m with
  | honest => obtain ⟨r, w, h1, h2⟩ := num_div_run (b := b) G hx hy hv huv; exact ⟨r, h1, w, h2⟩
  | any st => exact fun r hr => num_div G (hm.resolve_left (by simp)) hx hy hv huv hr

theorem ok_sqrt {x : FloatVar p} {u : ℝ} (hx : Num f x u) (hu0 : 0 ≤ u) (hu : u ≤ big f) :
    Ok m b (fSqrt f x) (fun r => ∃ w, Num f r w ∧ Rn f (Real.sqrt u) w) := by
  cases m with
  | honest => obtain ⟨r, w, h1, h2⟩ := num_sqrt_run (b := b) G hx hu0 hu; exact ⟨r, h1, w, h2⟩
  | any st => exact fun r hr => num_sqrt G (hm.resolve_left (by simp)) hx hu0 hu hr

theorem ok_floor {x : FloatVar p} {u : ℝ} (hx : Num f x u) (hu0 : 0 ≤ u) :
    Ok m b (fFloor f x) (fun r => ∃ n : ℕ, Num f r n ∧ (n = ⌊u⌋₊ ∨ (m ≠ .honest ∧ 1 ≤ u ∧ u < 2 ∧ n = 0))) := by
  cases m with
  | honest => obtain ⟨r, h1, h2⟩ := num_floor_run (b := b) G hx hu0; exact ⟨r, h1, _, h2, .inl rfl⟩
  | any st =>
    intro r hr
    obtain ⟨n, h1, h2⟩ := num_floor G (hm.resolve_left (by simp)) hx hu0 hr
    exact ⟨n, h1, h2.imp id fun h => ⟨by simp, h⟩⟩

theorem ok_toInt {x : FloatVar p} {n : ℕ} (hx : Num f x n) (hn : n < 2 ^ f.pow2Size) :
    Ok m b (fToInt f x) (fun r => r = (n : ZMod p)) := by
  cases m with
  | honest => exact ⟨_, num_toInt_run G hx hn, rfl⟩
  | any st => exact fun r hr => num_toInt G (hm.resolve_left (by simp)) hx hn hr

omit hm

open Classical in
theorem ok_lt {x y : FloatVar p} {u v : ℝ} (hx : Num f x u) (hy : Num f y v) :
    Ok m b (fIsLt f x y) (fun r => r = B (decide (u < v))) := by
  cases m with
  | honest => exact ⟨_, num_lt_run G hx hy, wireOf_B _⟩
  | any st => exact fun r hr => by rw [num_lt G hx hy hr]; exact wireOf_B _

open Classical in
theorem ok_gt {x y : FloatVar p} {u v : ℝ} (hx : Num f x u) (hy : Num f y v) :
    Ok m b (fIsGt f x y) (fun r => r = B (decide (v < u))) := ok_lt G hy hx

open Classical in
theorem ok_le {x y : FloatVar p} {u v : ℝ} (hx : Num f x u) (hy : Num f y v) :
    Ok m b (fIsLe f x y) (fun r => r = B (decide (u ≤ v))) := by
  cases m with
  | honest => exact ⟨_, num_le_run G hx hy, wireOf_B _⟩
  | any st => exact fun r hr => by rw [num_le G hx hy hr]; exact wireOf_B _

end ops

end ZkLoc
