import Verif.Spec.Real
import Verif.Props.Expr

/-!
# Helper lemmas: the operations on floats as rounded operations on real numbers

For every prover, when the table width divides the size of the power-of-two lookup; the prover's freedom in the sign of zeros does not matter here.
-/

namespace Ieee

variable {F : Format}

theorem Rounds.zero : Rounds F 0 0 := ⟨by
  rw [abs_zero]
  exact Representable.isRNE ⟨0, F.qmin, by positivity, le_rfl, by simp⟩, fun _ => le_rfl, fun _ => le_rfl⟩

theorem Rounds.unique {e w w' : ℝ} (h : Rounds F e w) (h' : Rounds F e w') : w = w' := by
  have h1 := h.rne.unique h'.rne
  rcases le_total 0 e with he | he
  · rwa [abs_of_nonneg (h.pos he), abs_of_nonneg (h'.pos he)] at h1
  · rw [abs_of_nonpos (h.neg he), abs_of_nonpos (h'.neg he)] at h1; linarith

theorem Rounds.neg' {e w : ℝ} (h : Rounds F e w) : Rounds F (-e) (-w) :=
  ⟨by rw [abs_neg, abs_neg]; exact h.rne, fun he => by have := h.neg (by linarith); linarith, fun he => by have := h.pos (by linarith); linarith⟩

/-- A representable number is not changed by rounding. -/
theorem Rounds.exact {e : ℝ} (h : Representable F |e|) : Rounds F e e := ⟨h.isRNE, id, id⟩

theorem IsRNE.le_of_le {v r q : ℝ} (h : IsRNE F v r) (hq : Representable F q) (hv : v ≤ q) : r ≤ q := by
  by_contra hlt
  push Not at hlt
  have := h.nearest q hq
  rw [abs_of_nonpos (by linarith), abs_of_nonpos (by linarith)] at this
  linarith

theorem IsRNE.ge_of_ge {v r q : ℝ} (h : IsRNE F v r) (hq : Representable F q) (hv : q ≤ v) : q ≤ r := by
  by_contra hlt
  push Not at hlt
  have := h.nearest q hq
  rw [abs_of_nonneg (by linarith), abs_of_nonneg (by linarith)] at this
  linarith

theorem signed_abs (s : Bool) {a : ℝ} (ha : 0 ≤ a) : |signed s a| = a := by
  cases s <;> simp [signed, abs_of_nonneg ha]

theorem signed_mul (s t : Bool) (a c : ℝ) : signed s a * signed t c = signed (xor s t) (a * c) := by
  cases s <;> cases t <;> simp [signed]

theorem signed_div (s t : Bool) (a c : ℝ) : signed s a / signed t c = signed (xor s t) (a / c) := by
  cases s <;> cases t <;> simp [signed, neg_div, div_neg]

theorem abs_signed (s : Bool) (a : ℝ) : |signed s a| = |a| := by cases s <;> simp [signed]

/-- Rounding the magnitude with the sign `s` of `e`. -/
theorem Rounds.of_signed {s : Bool} {v r : ℝ} (hv : 0 ≤ v) (h : IsRNE F v r) : Rounds F (signed s v) (signed s r) := by
  have hr := h.repr.nonneg
  refine ⟨by rwa [signed_abs s hv, signed_abs s hr], ?_, ?_⟩
  · intro h0
    cases s
    · exact hr
    · simp only [signed, if_true] at h0 ⊢
      have : v = 0 := by linarith
      subst this
      have := h.le_of_le (q := 0) ⟨0, F.qmin, by positivity, le_rfl, by simp⟩ le_rfl
      linarith
  · intro h0
    cases s
    · simp only [signed, Bool.false_eq_true, if_false] at h0 ⊢
      exact h.le_of_le (q := 0) ⟨0, F.qmin, by positivity, le_rfl, by simp⟩ h0
    · simp only [signed, if_true]; linarith

theorem signed_decide (e : ℝ) : signed (decide (e < 0)) |e| = e := by
  unfold signed
  rcases lt_or_ge e 0 with h | h
  · simp [h, abs_of_neg h]
  · simp [not_lt.2 h, abs_of_nonneg h]

end Ieee

namespace ZkLoc

open Ieee (Datum)

variable {p : ℕ} [Fact p.Prime] {b : ℕ} {f : Fmt} {st : Bool}

theorem big_representable (G : Good p b f) : Ieee.Representable ⟨f.E, f.M⟩ (big f) := by
  refine ⟨1, Ieee.Format.bias ⟨f.E, f.M⟩, Nat.one_lt_two_pow (by simp), ?_, by simp [big]⟩
  unfold Ieee.Format.qmin Ieee.Format.emin Ieee.Format.bias
  have h1 : (2:ℤ) ^ 3 ≤ 2 ^ (f.E - 1) := pow_le_pow_right₀ (by norm_num) (by have := G.hE; omega)
  simp only
  omega

theorem big_lt : big f < 2 ^ (Ieee.Format.bias ⟨f.E, f.M⟩ + 1) := by
  unfold big
  exact zpow_lt_zpow_right₀ (by norm_num) (by omega)

theorem big_pos : 0 < big f := by unfold big; positivity

/-- Results not beyond `big` are delivered as numbers. -/
theorem roundsTo_fin (G : Good p b f) {s : Bool} {v : ℝ} (hv : v ≤ big f) {d : Datum} (h : Ieee.RoundsTo ⟨f.E, f.M⟩ s v d) :
    ∃ r, Ieee.IsRNE ⟨f.E, f.M⟩ v r ∧ d = .fin s r := by
  obtain ⟨r, h1, h2, _⟩ := h
  exact ⟨r, h1, h2 (lt_of_le_of_lt (h1.le_of_le (big_representable G) hv) big_lt)⟩

theorem not_overflowed (G : Good p b f) {s : Bool} {v : ℝ} {r : FloatVar p} (hv : v ≤ big f) : ¬ Overflowed f s v r := by
  rintro ⟨n, h1, _, h3, _⟩
  have h4 := h3.le_of_le (big_representable G) hv
  have h5 : (2:ℝ) ^ (Ieee.Format.bias ⟨f.E, f.M⟩ + 1) ≤ n * (2:ℝ) ^ ((2:ℤ) ^ (f.E - 1) - f.M) := by
    have : (Ieee.Format.bias ⟨f.E, f.M⟩) + 1 = f.eMax := by simp [Ieee.Format.bias, Fmt.eMax]
    rw [this]
    exact pow_real_ge (f := f) (e := f.eMax) h1
  have := big_lt (f := f)
  linarith

theorem encodes_nonneg {x : FloatVar p} {s : Bool} {a : ℝ} (h : Encodes f x (.fin s a)) : 0 ≤ a := by
  obtain ⟨x, hx, hd, rfl⟩ := encodes_iff.1 h
  obtain ⟨_, _, rfl⟩ := datum_fin_iff.1 hd
  unfold Flt.mag; positivity

theorem Num.abs_eq {x : FloatVar p} {s : Bool} {a v : ℝ} (h : Encodes f x (.fin s a)) (hv : Ieee.signed s a = v) : |v| = a := by
  rw [← hv, Ieee.signed_abs s (encodes_nonneg h)]

/-- Numbers are representable. -/
theorem Num.repr (G : Good p b f) {x : FloatVar p} {v : ℝ} (h : Num f x v) : Ieee.Representable ⟨f.E, f.M⟩ |v| := by
  obtain ⟨s, a, h1, h2⟩ := h
  rw [Num.abs_eq h1 h2]
  obtain ⟨x, hx, hd, rfl⟩ := encodes_iff.1 h1
  obtain ⟨_, _, rfl⟩ := datum_fin_iff.1 hd
  exact valid_representable G hx ‹_›

/-- The value is determined by the wires. -/
theorem Num.unique (G : Good p b f) {x : FloatVar p} {v w : ℝ} (h : Num f x v) (h' : Num f x w) : v = w := by
  obtain ⟨s, a, h1, rfl⟩ := h
  obtain ⟨t, c, h2, rfl⟩ := h'
  have := encodes_unique G h1 h2
  injection this with e1 e2
  rw [e1, e2]

theorem Num.neg {x : FloatVar p} {v : ℝ} (h : Num f x v) : Num f (fNeg x) (-v) := by
  obtain ⟨s, a, h1, rfl⟩ := h
  exact ⟨!s, a, encodes_neg h1, by cases s <;> simp [Ieee.signed]⟩

theorem Num.abs {x : FloatVar p} {v : ℝ} (h : Num f x v) : Num f (fAbs x) |v| := by
  obtain ⟨s, a, h1, h2⟩ := h
  refine ⟨false, a, encodes_abs h1, ?_⟩
  rw [Num.abs_eq h1 h2]; rfl

theorem topCancel_big {s t : Bool} {a c : ℝ} (h : TopCancel f (.fin s a) (.fin t c)) : big f ≤ a := by
  obtain ⟨_, _, _, h1, _, _, h4⟩ := h
  injection h1 with _ h1
  rw [h1]
  exact h4

section ops
variable (G : Good p b f)
include G

/-- `Add` of numbers: every prover obtains the rounded sum. -/
theorem num_add (hb : b ∣ f.pow2Size) {x y r : FloatVar p} {u v : ℝ} (hx : Num f x u) (hy : Num f y v) (hu : |u| < big f)
    (huv : |u + v| ≤ big f) (h : (fAdd f x y).Sat b st r) : ∃ w, Num f r w ∧ Rn f (u + v) w := by
  obtain ⟨s, a, ex, rfl⟩ := hx
  obtain ⟨t, c, ey, rfl⟩ := hy
  rw [Ieee.signed_abs s (encodes_nonneg ex)] at hu
  rcases C16_add_sound_partial G hb ex ey h with ⟨d, h1, h2⟩ | ⟨s', t', a', h1, h2, h3, h4⟩ | ⟨h1, _⟩ | ⟨s', a', t', c', h1, h2, h3, h4⟩
  · simp only [Ieee.Add] at h2
    by_cases h0 : Ieee.signed s a + Ieee.signed t c = 0
    · rw [h0]
      rw [h2.1 h0] at h1
      exact ⟨0, ⟨_, _, h1, by cases (if s = t then s else false) <;> simp [Ieee.signed]⟩, .zero⟩
    · obtain ⟨r', h5, rfl⟩ := roundsTo_fin G huv (h2.2 h0)
      refine ⟨_, ⟨_, _, h1, rfl⟩, ?_⟩
      have := Ieee.Rounds.of_signed (s := decide (Ieee.signed s a + Ieee.signed t c < 0)) (abs_nonneg _) h5
      rwa [Ieee.signed_decide] at this
  · injection h1 with e1 e2
    injection h2 with e3 e4
    subst e1 e2 e3 e4
    refine ⟨0, ⟨_, _, h4, by simp [Ieee.signed]⟩, ?_⟩
    have : Ieee.signed s c + Ieee.signed t c = 0 := by cases s <;> cases t <;> simp [Ieee.signed] at h3 ⊢
    rw [this]; exact .zero
  · have := topCancel_big h1
    linarith
  · injection h1 with e1 e2
    injection h2 with e3 e4
    subst e1 e2 e3 e4
    exact absurd h4 (not_overflowed G huv)

theorem num_sub (hb : b ∣ f.pow2Size) {x y r : FloatVar p} {u v : ℝ} (hx : Num f x u) (hy : Num f y v) (hu : |u| < big f)
    (huv : |u - v| ≤ big f) (h : (fSub f x y).Sat b st r) : ∃ w, Num f r w ∧ Rn f (u - v) w := by
  rw [sub_eq_add_neg] at huv ⊢
  exact num_add G hb hx hy.neg hu huv h

theorem num_mul (hb : b ∣ f.pow2Size) {x y r : FloatVar p} {u v : ℝ} (hx : Num f x u) (hy : Num f y v)
    (huv : |u * v| ≤ big f) (h : (fMul f x y).Sat b st r) : ∃ w, Num f r w ∧ Rn f (u * v) w := by
  obtain ⟨s, a, ex, rfl⟩ := hx
  obtain ⟨t, c, ey, rfl⟩ := hy
  have ha := encodes_nonneg ex
  have hc := encodes_nonneg ey
  rw [Ieee.signed_mul, Ieee.signed_abs _ (mul_nonneg ha hc)] at huv
  rw [Ieee.signed_mul]
  rcases C19_mul_sound_partial G hb ex ey h with ⟨d, h1, h2⟩ | ⟨s', a', t', c', h1, h2, h4⟩
  · simp only [Ieee.Mul] at h2
    obtain ⟨r', h5, rfl⟩ := roundsTo_fin G huv h2
    exact ⟨_, ⟨_, _, h1, rfl⟩, .of_signed (mul_nonneg ha hc) h5⟩
  · injection h1 with e1 e2
    injection h2 with e3 e4
    subst e1 e2 e3 e4
    exact absurd h4 (not_overflowed G huv)

theorem num_div (hb : b ∣ f.pow2Size) {x y r : FloatVar p} {u v : ℝ} (hx : Num f x u) (hy : Num f y v) (hv : v ≠ 0)
    (huv : |u / v| ≤ big f) (h : (fDiv f x y).Sat b st r) : ∃ w, Num f r w ∧ Rn f (u / v) w := by
  obtain ⟨s, a, ex, rfl⟩ := hx
  obtain ⟨t, c, ey, rfl⟩ := hy
  have ha := encodes_nonneg ex
  have hc := encodes_nonneg ey
  have hc0 : c ≠ 0 := by rintro rfl; exact hv (by cases t <;> simp [Ieee.signed])
  rw [Ieee.signed_div, Ieee.signed_abs _ (div_nonneg ha hc)] at huv
  rw [Ieee.signed_div]
  rcases C21_div_sound_partial G hb ex ey h with ⟨d, h1, h2⟩ | ⟨s', a', t', c', h1, h2, h3, h4⟩
  · simp only [Ieee.Div] at h2
    obtain ⟨r', h5, rfl⟩ := roundsTo_fin G huv (h2.2.2 hc0)
    exact ⟨_, ⟨_, _, h1, rfl⟩, .of_signed (div_nonneg ha hc) h5⟩
  · injection h1 with e1 e2
    injection h2 with e3 e4
    subst e1 e2 e3 e4
    exact absurd h4 (not_overflowed G huv)

theorem num_sqrt (hb : b ∣ f.pow2Size) {x r : FloatVar p} {u : ℝ} (hx : Num f x u) (hu0 : 0 ≤ u) (hu : u ≤ big f)
    (h : (fSqrt f x).Sat b st r) : ∃ w, Num f r w ∧ Rn f (Real.sqrt u) w := by
  obtain ⟨s, a, ex, rfl⟩ := hx
  have ha := encodes_nonneg ex
  obtain ⟨d, h1, h2⟩ := C23_sqrt_sound_partial G hb ex h
  simp only [Ieee.Sqrt] at h2
  by_cases h0 : a = 0
  · subst h0
    have e : ∀ s, Ieee.signed s 0 = 0 := by intro s; cases s <;> simp [Ieee.signed]
    rw [h2.1 rfl] at h1
    exact ⟨0, ⟨_, _, h1, e s⟩, by rw [e, Real.sqrt_zero]; exact .zero⟩
  · have hs : s = false := by
      cases s
      · rfl
      · simp only [Ieee.signed, if_true] at hu0
        exact absurd (by linarith) h0
    subst hs
    simp only [Ieee.signed, Bool.false_eq_true, if_false] at hu ⊢
    have hsq : Real.sqrt a ≤ big f := by
      rw [Real.sqrt_le_left big_pos.le]
      have hb1 : 1 ≤ big f := by
        unfold big
        refine one_le_zpow₀ (by norm_num) ?_
        unfold Ieee.Format.bias
        have h1 : (1:ℤ) ≤ 2 ^ (f.E - 1) := one_le_pow₀ (by norm_num)
        simp only
        omega
      nlinarith
    obtain ⟨r', h5, rfl⟩ := roundsTo_fin G hsq (h2.2.2 h0 rfl)
    have := Ieee.Rounds.of_signed (F := ⟨f.E, f.M⟩) (s := false) (Real.sqrt_nonneg a) h5
    exact ⟨_, ⟨_, _, h1, rfl⟩, this⟩

theorem num_lt {x y : FloatVar p} {u v : ℝ} (hx : Num f x u) (hy : Num f y v) {c : ZMod p} (h : (fIsLt f x y).Sat b st c) :
    c = wireOf (u < v) := by
  obtain ⟨s, a, ex, rfl⟩ := hx
  obtain ⟨t, c', ey, rfl⟩ := hy
  rw [((C24_isLt G ex ey).2 st c).1 h]
  congr 1
  simp [Ieee.Lt, Datum.value]

theorem num_le {x y : FloatVar p} {u v : ℝ} (hx : Num f x u) (hy : Num f y v) {c : ZMod p} (h : (fIsLe f x y).Sat b st c) :
    c = wireOf (u ≤ v) := by
  obtain ⟨s, a, ex, rfl⟩ := hx
  obtain ⟨t, c', ey, rfl⟩ := hy
  rw [((C24_isLe G ex ey).2 st c).1 h]
  congr 1
  simp [Ieee.Le, Datum.value]

theorem num_gt {x y : FloatVar p} {u v : ℝ} (hx : Num f x u) (hy : Num f y v) {c : ZMod p} (h : (fIsGt f x y).Sat b st c) :
    c = wireOf (v < u) := num_lt G hy hx h

/-! The honest prover, every table width. -/

theorem num_add_run {x y : FloatVar p} {u v : ℝ} (hx : Num f x u) (hy : Num f y v) (hu : |u| < big f)
    (huv : |u + v| ≤ big f) : ∃ r w, (fAdd f x y).run b = some r ∧ Num f r w ∧ Rn f (u + v) w := by
  obtain ⟨s, a, ex, rfl⟩ := hx
  obtain ⟨t, c, ey, rfl⟩ := hy
  rw [Ieee.signed_abs s (encodes_nonneg ex)] at hu
  obtain ⟨r, h0, h⟩ := C15_add_complete (b := b) G ex ey
  obtain ⟨d, h1, h2⟩ := h (fun h1 => by have := topCancel_big h1; linarith)
  simp only [Ieee.Add] at h2
  by_cases h3 : Ieee.signed s a + Ieee.signed t c = 0
  · rw [h3]
    rw [h2.1 h3] at h1
    exact ⟨r, 0, h0, ⟨_, _, h1, by cases (if s = t then s else false) <;> simp [Ieee.signed]⟩, .zero⟩
  · obtain ⟨r', h5, rfl⟩ := roundsTo_fin G huv (h2.2 h3)
    refine ⟨r, _, h0, ⟨_, _, h1, rfl⟩, ?_⟩
    have := Ieee.Rounds.of_signed (s := decide (Ieee.signed s a + Ieee.signed t c < 0)) (abs_nonneg _) h5
    rwa [Ieee.signed_decide] at this

theorem num_sub_run {x y : FloatVar p} {u v : ℝ} (hx : Num f x u) (hy : Num f y v) (hu : |u| < big f)
    (huv : |u - v| ≤ big f) : ∃ r w, (fSub f x y).run b = some r ∧ Num f r w ∧ Rn f (u - v) w := by
  rw [sub_eq_add_neg] at huv ⊢
  exact num_add_run G hx hy.neg hu huv

theorem num_mul_run {x y : FloatVar p} {u v : ℝ} (hx : Num f x u) (hy : Num f y v)
    (huv : |u * v| ≤ big f) : ∃ r w, (fMul f x y).run b = some r ∧ Num f r w ∧ Rn f (u * v) w := by
  obtain ⟨s, a, ex, rfl⟩ := hx
  obtain ⟨t, c, ey, rfl⟩ := hy
  have ha := encodes_nonneg ex
  have hc := encodes_nonneg ey
  rw [Ieee.signed_mul, Ieee.signed_abs _ (mul_nonneg ha hc)] at huv
  rw [Ieee.signed_mul]
  obtain ⟨r, d, h0, h1, h2⟩ := C18_mul_complete (b := b) G ex ey
  simp only [Ieee.Mul] at h2
  obtain ⟨r', h5, rfl⟩ := roundsTo_fin G huv h2
  exact ⟨_, _, h0, ⟨_, _, h1, rfl⟩, .of_signed (mul_nonneg ha hc) h5⟩

theorem num_div_run {x y : FloatVar p} {u v : ℝ} (hx : Num f x u) (hy : Num f y v) (hv : v ≠ 0)
    (huv : |u / v| ≤ big f) : ∃ r w, (fDiv f x y).run b = some r ∧ Num f r w ∧ Rn f (u / v) w := by
  obtain ⟨s, a, ex, rfl⟩ := hx
  obtain ⟨t, c, ey, rfl⟩ := hy
  have ha := encodes_nonneg ex
  have hc := encodes_nonneg ey
  have hc0 : c ≠ 0 := by rintro rfl; exact hv (by cases t <;> simp [Ieee.signed])
  rw [Ieee.signed_div, Ieee.signed_abs _ (div_nonneg ha hc)] at huv
  rw [Ieee.signed_div]
  obtain ⟨r, d, h0, h1, h2⟩ := C20_div_complete (b := b) G ex ey
  simp only [Ieee.Div] at h2
  obtain ⟨r', h5, rfl⟩ := roundsTo_fin G huv (h2.2.2 hc0)
  exact ⟨_, _, h0, ⟨_, _, h1, rfl⟩, .of_signed (div_nonneg ha hc) h5⟩

theorem integral_num {x r : FloatVar p} {s : Bool} {a : ℝ} (ex : Encodes f x (.fin s a)) (hu0 : 0 ≤ Ieee.signed s a) {d : Datum}
    (h1 : Encodes f r d) (h2 : Ieee.Integral (fun v => ⌊v⌋) (.fin s a) d) : Num f r (⌊Ieee.signed s a⌋₊ : ℝ) := by
  simp only [Ieee.Integral] at h2
  subst h2
  refine ⟨_, _, h1, ?_⟩
  have hf : ((⌊Ieee.signed s a⌋₊ : ℕ) : ℝ) = ((⌊Ieee.signed s a⌋ : ℤ) : ℝ) := natCast_floor_eq_intCast_floor hu0
  rw [hf, abs_of_nonneg (by exact_mod_cast Int.floor_nonneg.2 hu0)]
  cases s
  · rfl
  · have ha := encodes_nonneg ex
    simp only [Ieee.signed, if_true] at hu0 ⊢
    have : a = 0 := by linarith
    subst this
    simp

/-- `Floor` of a non-negative number: every prover obtains its floor, or zero for numbers between one and two. -/
theorem num_floor (hb : b ∣ f.pow2Size) {x r : FloatVar p} {u : ℝ} (hx : Num f x u) (hu0 : 0 ≤ u)
    (h : (fFloor f x).Sat b st r) : ∃ m : ℕ, Num f r m ∧ (m = ⌊u⌋₊ ∨ (1 ≤ u ∧ u < 2 ∧ m = 0)) := by
  obtain ⟨s, a, ex, rfl⟩ := hx
  rcases (C26_floor_exact_partial G hb ex).1 h with h | ⟨t, c, h1, h2, h3, h4⟩
  · obtain ⟨r', d, h0, h1, h2⟩ := C26_floor_complete (b := b) G ex
    rw [h0] at h; cases h
    exact ⟨_, integral_num G ex hu0 h1 h2, .inl rfl⟩
  · injection h1 with e1 e2
    subst e1 e2
    cases s
    · refine ⟨0, ⟨_, _, h4, by simp [Ieee.signed]⟩, .inr ⟨?_, ?_, rfl⟩⟩ <;> simpa [Ieee.signed]
    · simp only [Ieee.signed, if_true] at hu0; linarith

theorem num_floor_run {x : FloatVar p} {u : ℝ} (hx : Num f x u) (hu0 : 0 ≤ u) :
    ∃ r, (fFloor f x).run b = some r ∧ Num f r (⌊u⌋₊ : ℝ) := by
  obtain ⟨s, a, ex, rfl⟩ := hx
  obtain ⟨r, d, h0, h1, h2⟩ := C26_floor_complete (b := b) G ex
  exact ⟨r, h0, integral_num G ex hu0 h1 h2⟩

theorem num_toInt (hb : b ∣ f.pow2Size) {x : FloatVar p} {n : ℕ} (hx : Num f x n) (hn : n < 2 ^ f.pow2Size) {r : ZMod p}
    (h : (fToInt f x).Sat b st r) : r = n := by
  obtain ⟨s, a, ex, ha⟩ := hx
  have h0 := encodes_nonneg ex
  have : a = n := by
    have := Ieee.signed_abs s h0
    rw [ha] at this
    rw [← this, abs_of_nonneg (by positivity)]
  subst this
  rw [(C27_toInt_integral_of_dvd G hb ex hn).1 h]
  cases s
  · simp [signedNat]
  · simp only [Ieee.signed, if_true] at ha
    have : (n:ℝ) = 0 := by linarith
    have : n = 0 := by exact_mod_cast this
    subst this
    simp [signedNat]

theorem num_toInt_run {x : FloatVar p} {n : ℕ} (hx : Num f x n) (hn : n < 2 ^ f.pow2Size) :
    (fToInt f x).run b = some (n : ZMod p) := by
  obtain ⟨s, a, ex, ha⟩ := hx
  have h0 := encodes_nonneg ex
  have : a = n := by
    have := Ieee.signed_abs s h0
    rw [ha] at this
    rw [← this, abs_of_nonneg (by positivity)]
  subst this
  have ha' : (n:ℝ) = 0 ∨ (1 ≤ (n:ℝ) ∧ (n:ℝ) < 2 ^ f.pow2Size) := by
    rcases Nat.eq_zero_or_pos n with h | h
    · left; simp [h]
    · right; exact ⟨by exact_mod_cast h, by exact_mod_cast hn⟩
  obtain ⟨r', h1, h2⟩ := C27_toInt_complete (b := b) G ex ha'
  have h3 := h2 n 0 (by simp)
  rw [pow_zero, mul_one] at h3
  rw [h1, h3]
  congr 1
  cases s
  · simp [signedNat]
  · simp only [Ieee.signed, if_true] at ha
    have : (n:ℝ) = 0 := by linarith
    have : n = 0 := by exact_mod_cast this
    subst this
    simp [signedNat]

theorem num_lt_run {x y : FloatVar p} {u v : ℝ} (hx : Num f x u) (hy : Num f y v) :
    (fIsLt f x y).run b = some (wireOf (u < v)) := by
  obtain ⟨s, a, ex, rfl⟩ := hx
  obtain ⟨t, c', ey, rfl⟩ := hy
  rw [(C24_isLt G ex ey).1]
  simp [Ieee.Lt, Datum.value]

theorem num_le_run {x y : FloatVar p} {u v : ℝ} (hx : Num f x u) (hy : Num f y v) :
    (fIsLe f x y).run b = some (wireOf (u ≤ v)) := by
  obtain ⟨s, a, ex, rfl⟩ := hx
  obtain ⟨t, c', ey, rfl⟩ := hy
  rw [(C24_isLe G ex ey).1]
  simp [Ieee.Le, Datum.value]

theorem num_gt_run {x y : FloatVar p} {u v : ℝ} (hx : Num f x u) (hy : Num f y v) :
    (fIsGt f x y).run b = some (wireOf (v < u)) := num_lt_run G hy hx

theorem num_sqrt_run {x : FloatVar p} {u : ℝ} (hx : Num f x u) (hu0 : 0 ≤ u) (hu : u ≤ big f) :
    ∃ r w, (fSqrt f x).run b = some r ∧ Num f r w ∧ Rn f (Real.sqrt u) w := by
  obtain ⟨s, a, ex, rfl⟩ := hx
  have ha := encodes_nonneg ex
  obtain ⟨r, d, h0', h1, h2⟩ := C22_sqrt_complete (b := b) G ex
  simp only [Ieee.Sqrt] at h2
  by_cases h0 : a = 0
  · subst h0
    have e : ∀ s, Ieee.signed s 0 = 0 := by intro s; cases s <;> simp [Ieee.signed]
    rw [h2.1 rfl] at h1
    exact ⟨r, 0, h0', ⟨_, _, h1, e s⟩, by rw [e, Real.sqrt_zero]; exact .zero⟩
  · have hs : s = false := by
      cases s
      · rfl
      · simp only [Ieee.signed, if_true] at hu0
        exact absurd (by linarith) h0
    subst hs
    simp only [Ieee.signed, Bool.false_eq_true, if_false] at hu ⊢
    have hsq : Real.sqrt a ≤ big f := by
      rw [Real.sqrt_le_left big_pos.le]
      have hb1 : 1 ≤ big f := by
        unfold big
        refine one_le_zpow₀ (by norm_num) ?_
        unfold Ieee.Format.bias
        have h1 : (1:ℤ) ≤ 2 ^ (f.E - 1) := one_le_pow₀ (by norm_num)
        simp only
        omega
      nlinarith
    obtain ⟨r', h5, rfl⟩ := roundsTo_fin G hsq (h2.2.2 h0 rfl)
    have := Ieee.Rounds.of_signed (F := ⟨f.E, f.M⟩) (s := false) (Real.sqrt_nonneg a) h5
    exact ⟨_, _, h0', ⟨_, _, h1, rfl⟩, this⟩

/-- The range of the format suffices for numbers below `2^29`. -/
theorem big_ge : (2:ℝ) ^ 29 ≤ big f := by
  unfold big
  rw [show (2:ℝ) ^ 29 = 2 ^ (29:ℤ) by norm_num]
  refine zpow_le_zpow_right₀ (by norm_num) ?_
  unfold Ieee.Format.bias
  have h1 := G.hM
  have h2 := G.hME
  have h3 := G.hEM
  have h4 : ((2 * f.M + 4 : ℕ) : ℤ) ≤ ((2 ^ (f.E - 1) : ℕ) : ℤ) := by exact_mod_cast h1
  push_cast at h4
  simp only
  omega

end ops

/-- Rounding keeps within representable bounds. -/
theorem Rn.abs_le {e w q : ℝ} (h : Rn f e w) (hq : Ieee.Representable ⟨f.E, f.M⟩ q) (he : |e| ≤ q) : |w| ≤ q := h.rne.le_of_le hq he

theorem natRepr (G : Good p b f) {n : ℕ} (hn : n ≤ 2 ^ (f.M + 1)) : Ieee.Representable ⟨f.E, f.M⟩ (n : ℝ) := by
  have := Ieee.representable_mul (F := ⟨f.E, f.M⟩) (n := n) (k := 0) hn (by
    unfold Ieee.Format.qmin Ieee.Format.emin Ieee.Format.bias
    have h1 : (2:ℤ) ^ 3 ≤ 2 ^ (f.E - 1) := pow_le_pow_right₀ (by norm_num) (by have := G.hE; omega)
    simp only
    omega)
  simpa using this

theorem powRepr (G : Good p b f) (k : ℕ) : Ieee.Representable ⟨f.E, f.M⟩ ((2:ℝ) ^ k) := by
  refine ⟨1, k, Nat.one_lt_two_pow (by simp), ?_, by simp⟩
  unfold Ieee.Format.qmin Ieee.Format.emin Ieee.Format.bias
  have h1 : (2:ℤ) ^ 3 ≤ 2 ^ (f.E - 1) := pow_le_pow_right₀ (by norm_num) (by have := G.hE; omega)
  simp only
  omega

theorem Rn.abs_le_pow (G : Good p b f) {e w : ℝ} (h : Rn f e w) (k : ℕ) (he : |e| ≤ 2 ^ k) : |w| ≤ 2 ^ k := h.abs_le (powRepr G k) he

end ZkLoc
