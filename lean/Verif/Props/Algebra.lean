import Verif.Algebra
import Verif.Props.Expr

/-!
# C43: algebraic laws of circuit arithmetic
-/

namespace ZkLoc

open Ieee (Datum)

variable {p : ℕ} [Fact p.Prime] {b : ℕ} {f : Fmt}

/-- The honest prover succeeds on both circuits and the results encode the same datum. -/
def SameResult (b : ℕ) (f : Fmt) (c₁ c₂ : Circ p (FloatVar p)) : Prop :=
  ∃ r s d, c₁.run b = some r ∧ c₂.run b = some s ∧ Encodes f r d ∧ Encodes f s d

/-- Results that encode the same datum pass `AssertIsEqual`, for every prover. -/
theorem SameResult.assert_equal (G : Good p b f) {c₁ c₂ : Circ p (FloatVar p)} (h : SameResult b f c₁ c₂) :
    ∃ r s, c₁.run b = some r ∧ c₂.run b = some s ∧ (fAssertIsEqual r s).run b = some () := by
  obtain ⟨r, s, d, h1, h2, h3, h4⟩ := h
  exact ⟨r, s, h1, h2, (C28_assertIsEqual G h3 h4).1.2 rfl⟩

theorem run_add_code (G : Good p b f) {x y : FloatVar p} {dx dy : Datum} (ex : Encodes f x dx) (ey : Encodes f y dy) :
    ∃ r d, (fAdd f x y).run b = some r ∧ Encodes f r d ∧ CodeAdd f dx dy d := by
  obtain ⟨x, hx, rfl, rfl⟩ := encodes_iff.1 ex
  obtain ⟨y, hy, rfl, rfl⟩ := encodes_iff.1 ey
  exact ⟨_, _, run_add G hx hy, encodes_iff.2 ⟨_, hx.add G hy, rfl, rfl⟩, code_add G hx hy⟩

theorem run_sub_code (G : Good p b f) {x y : FloatVar p} {dx dy : Datum} (ex : Encodes f x dx) (ey : Encodes f y dy) :
    ∃ r d, (fSub f x y).run b = some r ∧ Encodes f r d ∧ CodeSub f dx dy d := by
  obtain ⟨x, hx, rfl, rfl⟩ := encodes_iff.1 ex
  obtain ⟨y, hy, rfl, rfl⟩ := encodes_iff.1 ey
  exact ⟨_, _, run_sub G hx hy, encodes_iff.2 ⟨_, hx.sub G hy, rfl, rfl⟩, code_sub G hx hy⟩

/-- **C43** `x + y = y + x`. -/
theorem C43_add_comm (G : Good p b f) {x y : FloatVar p} {dx dy : Datum} (ex : Encodes f x dx) (ey : Encodes f y dy) :
    SameResult b f (fAdd f x y) (fAdd f y x) := by
  obtain ⟨r, d, h1, h2, h3⟩ := run_add_code (b := b) G ex ey
  obtain ⟨s, e, k1, k2, k3⟩ := run_add_code (b := b) G ey ex
  obtain rfl := h3.unique (code_add_comm k3)
  exact ⟨r, s, d, h1, k1, h2, k2⟩

/-- **C43** `x * y = y * x`. -/
theorem C43_mul_comm (G : Good p b f) {x y : FloatVar p} {dx dy : Datum} (ex : Encodes f x dx) (ey : Encodes f y dy) :
    SameResult b f (fMul f x y) (fMul f y x) := by
  obtain ⟨r, d, h1, h2, h3⟩ := C18_mul_complete (b := b) G ex ey
  obtain ⟨s, e, k1, k2, k3⟩ := C18_mul_complete (b := b) G ey ex
  obtain rfl := h3.unique (ieee_mul_comm k3)
  exact ⟨r, s, d, h1, k1, h2, k2⟩

theorem mulZ_comm (f : Fmt) (x y : Flt) (c : Bool) : mulZ f x y c = mulZ f y x c := by
  unfold mulZ
  simp only [Nat.mul_comm x.man y.man, add_comm x.exp y.exp, Bool.xor_comm x.sign y.sign, Bool.or_comm x.abn y.abn]

/-- **C43** The products `x * y` and `y * x` can be given the same wires by every prover, honest or not, and no others. -/
theorem C43_mul_comm_every_prover_partial (G : Good p b f) (hb : b ∣ f.pow2Size) {x y : FloatVar p} {dx dy : Datum} (ex : Encodes f x dx)
    (ey : Encodes f y dy) (st : Bool) (r : FloatVar p) : (fMul f x y).Sat b st r ↔ (fMul f y x).Sat b st r := by
  obtain ⟨x, hx, rfl, rfl⟩ := encodes_iff.1 ex
  obtain ⟨y, hy, rfl, rfl⟩ := encodes_iff.1 ey
  rw [(fMul_spec (H := True) G (hx.bdd G) (hy.bdd G) (fun _ => hb)).sat trivial st r,
    (fMul_spec (H := True) G (hy.bdd G) (hx.bdd G) (fun _ => hb)).sat trivial st r]
  simp only [mulZ_comm f x y]

/-- **C43** The same at every table width, in fields large enough for the width. -/
theorem C43_mul_comm_every_width (G : Good p b f) (hpw : 2 ^ (4 * f.M + f.E + 5 + 3 * (b - 1)) ≤ p) {x y : FloatVar p} {dx dy : Datum}
    (ex : Encodes f x dx) (ey : Encodes f y dy) (st : Bool) (r : FloatVar p) : (fMul f x y).Sat b st r ↔ (fMul f y x).Sat b st r := by
  obtain ⟨x, hx, rfl, rfl⟩ := encodes_iff.1 ex
  obtain ⟨y, hy, rfl, rfl⟩ := encodes_iff.1 ey
  rw [(fMul_spec_any (H := True) G (hx.bdd G) (hy.bdd G) hpw).sat trivial st r,
    (fMul_spec_any (H := True) G (hy.bdd G) (hx.bdd G) hpw).sat trivial st r]
  have h1 : MulForge b f x y ↔ MulForge b f y x := by
    unfold MulForge mulShift mulE mulN
    simp only [Nat.mul_comm x.man y.man, add_comm x.exp y.exp]
  have h2 : ∀ m c, mulFin f x y m c = mulFin f y x m c := by
    intro m c
    unfold mulFin mulE
    simp only [Nat.mul_comm x.man y.man, add_comm x.exp y.exp, Bool.xor_comm x.sign y.sign, Bool.or_comm x.abn y.abn]
  simp only [mulZ_comm f x y, h1, h2]

/-- **C43** For numbers, the sums `x + y` and `y + x` can be given the same wires by every prover, and no others. -/
theorem C43_add_comm_every_prover_partial (G : Good p b f) (hb : b ∣ f.pow2Size) {x y : FloatVar p} {s t : Bool} {a c : ℝ}
    (ex : Encodes f x (.fin s a)) (ey : Encodes f y (.fin t c)) (st : Bool) (r : FloatVar p) :
    (fAdd f x y).Sat b st r ↔ (fAdd f y x).Sat b st r := by
  have hrun : (fAdd f x y).run b = (fAdd f y x).run b := by
    obtain ⟨r, q, d, h1, h2, h3, h4⟩ := C43_add_comm (b := b) G ex ey
    rw [h1, h2]
    obtain ⟨r, hr, hd, rfl⟩ := encodes_iff.1 h3
    obtain ⟨q, hq, hd', rfl⟩ := encodes_iff.1 h4
    rw [(datum_inj G hr hq (hd.trans hd'.symm)).2]
    rintro hnan
    obtain ⟨r', d', k1, k2, k3⟩ := run_add_code (b := b) G ex ey
    rw [h1] at k1
    cases k1
    have hdd := encodes_unique G h3 k2
    rw [← hd, hnan] at hdd
    subst hdd
    by_cases ht : TopCancel f (.fin s a) (.fin t c)
    · cases k3.2 ht
    · have := k3.1 ht
      simp only [Ieee.Add] at this
      by_cases h0 : Ieee.signed s a + Ieee.signed t c = 0
      · cases this.1 h0
      · obtain ⟨w, h1, -, -⟩ := rounds_sign (this.2 h0)
        cases h1
  rw [C16_add_exact_partial G hb ex ey, C16_add_exact_partial G hb ey ex, hrun, add_comm (Ieee.signed s a), topCancel_comm,
    eq_comm (a := a), ne_comm (a := s)]

/-- **C43** `x - y = -(y - x)`, unless `x` and `y` are the same number. -/
theorem C43_sub_swap (G : Good p b f) {x y : FloatVar p} {dx dy : Datum} (ex : Encodes f x dx) (ey : Encodes f y dy)
    (hn : ∀ s a, ¬ (dx = .fin s a ∧ dy = .fin s a)) :
    SameResult b f (fSub f x y) (do let r ← fSub f y x; pure (fNeg r)) := by
  obtain ⟨r, d, h1, h2, h3⟩ := run_sub_code (b := b) G ex ey
  obtain ⟨s, e, k1, k2, k3⟩ := run_sub_code (b := b) G ey ex
  have ht : ∀ {x y : Datum}, (∀ s a, ¬ (x = .fin s a ∧ y = .fin s a)) → ¬ TopCancel f x y.neg := by
    rintro x y hn ⟨s, t, a, rfl, h2, h3, -⟩
    refine hn s a ⟨rfl, ?_⟩
    rw [← Datum.neg_neg y, h2]
    have : (!t) = s := by cases s <;> cases t <;> simp at h3 ⊢
    simp [Datum.neg, this]
  have k4 := ieee_sub_swap (encodes_isDatum G ex) (encodes_isDatum G ey) hn (h3.1 (ht hn))
  obtain rfl := (k3.1 (ht fun s a h => hn s a h.symm)).unique k4
  have k5 := encodes_neg k2
  rw [Datum.neg_neg] at k5
  refine ⟨r, fNeg s, d, h1, ?_, h2, k5⟩
  simp only [Circ.bind_eq, Circ.run_bind, k1, Option.bind_some, Circ.pure_eq, Circ.run]

/-- **C43** `x * 1 = x`. -/
theorem C43_mul_one (G : Good p b f) {x one : FloatVar p} {dx : Datum} (ex : Encodes f x dx) (e1 : Encodes f one (.fin false 1)) :
    SameResult b f (fMul f x one) (pure x) := by
  obtain ⟨r, d, h1, h2, h3⟩ := C18_mul_complete (b := b) G ex e1
  obtain rfl := h3.unique (ieee_mul_one (encodes_isDatum G ex))
  exact ⟨r, x, d, h1, rfl, h2, ex⟩

/-- **C43** `x / 1 = x`. -/
theorem C43_div_one (G : Good p b f) {x one : FloatVar p} {dx : Datum} (ex : Encodes f x dx) (e1 : Encodes f one (.fin false 1)) :
    SameResult b f (fDiv f x one) (pure x) := by
  obtain ⟨r, d, h1, h2, h3⟩ := C20_div_complete (b := b) G ex e1
  obtain rfl := h3.unique (ieee_div_one (encodes_isDatum G ex))
  exact ⟨r, x, d, h1, rfl, h2, ex⟩

/-- **C43** `x + 0 = x`, except for `-0 + (+0)`. -/
theorem C43_add_zero (G : Good p b f) {x zero : FloatVar p} {dx : Datum} {t : Bool} (ex : Encodes f x dx) (e0 : Encodes f zero (.fin t 0))
    (h : dx ≠ .fin true 0 ∨ t = true) : SameResult b f (fAdd f x zero) (pure x) := by
  obtain ⟨r, d, h1, h2, h3⟩ := run_add_code (b := b) G ex e0
  have ht : ¬ TopCancel f dx (.fin t 0) := by
    rintro ⟨s, t, a, -, h2, -, h4⟩
    injection h2 with _ h2
    subst h2
    have : (0:ℝ) < 2 ^ ((2:ℤ) ^ (f.E - 1) - 1) := by positivity
    linarith
  obtain rfl := (h3.1 ht).unique (ieee_add_zero (encodes_isDatum G ex) h)
  exact ⟨r, x, d, h1, rfl, h2, ex⟩

/-- **C43** `(-x) * y = -(x * y)`. -/
theorem C43_neg_mul (G : Good p b f) {x y : FloatVar p} {dx dy : Datum} (ex : Encodes f x dx) (ey : Encodes f y dy) :
    SameResult b f (fMul f (fNeg x) y) (do let r ← fMul f x y; pure (fNeg r)) := by
  obtain ⟨r, d, h1, h2, h3⟩ := C18_mul_complete (b := b) G (encodes_neg ex) ey
  obtain ⟨s, e, k1, k2, k3⟩ := C18_mul_complete (b := b) G ex ey
  obtain rfl := h3.unique (ieee_mul_neg k3)
  refine ⟨r, fNeg s, _, h1, ?_, h2, encodes_neg k2⟩
  simp only [Circ.bind_eq, Circ.run_bind, k1, Option.bind_some, Circ.pure_eq, Circ.run]

/-- **C43** `(-x) / y = -(x / y)`. -/
theorem C43_neg_div (G : Good p b f) {x y : FloatVar p} {dx dy : Datum} (ex : Encodes f x dx) (ey : Encodes f y dy) :
    SameResult b f (fDiv f (fNeg x) y) (do let r ← fDiv f x y; pure (fNeg r)) := by
  obtain ⟨r, d, h1, h2, h3⟩ := C20_div_complete (b := b) G (encodes_neg ex) ey
  obtain ⟨s, e, k1, k2, k3⟩ := C20_div_complete (b := b) G ex ey
  obtain rfl := h3.unique (ieee_div_neg k3)
  refine ⟨r, fNeg s, _, h1, ?_, h2, encodes_neg k2⟩
  simp only [Circ.bind_eq, Circ.run_bind, k1, Option.bind_some, Circ.pure_eq, Circ.run]

/-- **C43** `x + x = x * 2`. -/
theorem C43_double (G : Good p b f) {x two : FloatVar p} {dx : Datum} (ex : Encodes f x dx) (e2 : Encodes f two (.fin false 2)) :
    SameResult b f (fAdd f x x) (fMul f x two) := by
  obtain ⟨r, d, h1, h2, h3⟩ := run_add_code (b := b) G ex ex
  obtain ⟨s, e, k1, k2, k3⟩ := C18_mul_complete (b := b) G ex e2
  have ht : ¬ TopCancel f dx dx := by
    rintro ⟨s, t, a, h1, h2, h3, -⟩
    rw [h1] at h2
    injection h2 with h2 _
    exact h3 h2
  obtain rfl := (h3.1 ht).unique (ieee_double (encodes_isDatum G ex) k3)
  exact ⟨r, s, d, h1, k1, h2, k2⟩

/-- **C43** `x / x = 1` for a number other than 0. -/
theorem C43_div_self (G : Good p b f) {x one : FloatVar p} {s : Bool} {a : ℝ} (ex : Encodes f x (.fin s a)) (ha : a ≠ 0)
    (e1 : Encodes f one (.fin false 1)) : SameResult b f (fDiv f x x) (pure one) := by
  obtain ⟨r, d, h1, h2, h3⟩ := C20_div_complete (b := b) G ex ex
  obtain ⟨k1, k2⟩ := encodes_isDatum G e1 false 1 rfl
  obtain rfl := h3.unique (ieee_div_self ha k1 k2)
  exact ⟨r, one, _, h1, rfl, h2, e1⟩

/-- **C43** `x ≤ y` implies `x + z ≤ y + z`, decided by the circuits themselves: if `IsLe` accepts the operands, it accepts the
sums, unless one of them is NaN or operands of the top binade cancel. -/
theorem C43_add_mono (G : Good p b f) {x y z : FloatVar p} {dx dy dz : Datum} (ex : Encodes f x dx) (ey : Encodes f y dy) (ez : Encodes f z dz)
    (hle : (fIsLe f x y).run b = some 1) (h1 : ¬ TopCancel f dx dz) (h2 : ¬ TopCancel f dy dz) :
    ∃ u v du dv, (fAdd f x z).run b = some u ∧ (fAdd f y z).run b = some v ∧ Encodes f u du ∧ Encodes f v dv ∧
      (du ≠ .nan → dv ≠ .nan → (fIsLe f u v).run b = some 1) := by
  obtain ⟨u, du, k1, k2, k3⟩ := run_add_code (b := b) G ex ez
  obtain ⟨v, dv, l1, l2, l3⟩ := run_add_code (b := b) G ey ez
  rw [(C24_isLe G ex ey).1, Option.some.injEq, wireOf_one] at hle
  refine ⟨u, v, du, dv, k1, l1, k2, l2, fun n1 n2 => ?_⟩
  rw [(C24_isLe G k2 l2).1, Option.some.injEq, wireOf_one]
  exact ieee_add_mono hle (k3.1 h1) (l3.1 h2) n1 n2

/-- **C43** `x ≤ y` implies `sqrt x ≤ sqrt y`, unless one of them is NaN. -/
theorem C43_sqrt_mono (G : Good p b f) {x y : FloatVar p} {dx dy : Datum} (ex : Encodes f x dx) (ey : Encodes f y dy)
    (hle : (fIsLe f x y).run b = some 1) :
    ∃ u v du dv, (fSqrt f x).run b = some u ∧ (fSqrt f y).run b = some v ∧ Encodes f u du ∧ Encodes f v dv ∧
      (du ≠ .nan → dv ≠ .nan → (fIsLe f u v).run b = some 1) := by
  obtain ⟨u, du, k1, k2, k3⟩ := C22_sqrt_complete (b := b) G ex
  obtain ⟨v, dv, l1, l2, l3⟩ := C22_sqrt_complete (b := b) G ey
  rw [(C24_isLe G ex ey).1, Option.some.injEq, wireOf_one] at hle
  refine ⟨u, v, du, dv, k1, l1, k2, l2, fun n1 n2 => ?_⟩
  rw [(C24_isLe G k2 l2).1, Option.some.injEq, wireOf_one]
  exact ieee_sqrt_mono (encodes_isDatum G ex) (encodes_isDatum G ey) hle k3 l3 n1 n2

/-! Concrete cases. -/

/-- Both orders of `0.1 + 0.7` and `0.1 * 0.7`, as instances of the laws; the results are the wires of IEEE arithmetic. -/
example : SameResult 8 f32 (fAdd f32 (w32 0x3DCCCCCD) (w32 0x3F333333)) (fAdd f32 (w32 0x3F333333) (w32 0x3DCCCCCD)) :=
  C43_add_comm good8 (w32_encodes (by decide)) (w32_encodes (by decide))
example : (fAdd f32 (w32 0x3F333333) (w32 0x3DCCCCCD)).run 8 = some (w32 0x3F4CCCCD) := by decide +kernel
example : SameResult 8 f32 (fMul f32 (w32 0xC0490FDB) (w32 0x3F800000)) (pure (w32 0xC0490FDB)) :=
  C43_mul_one good8 (w32_encodes (by decide)) toInt32_one_encodes
example : SameResult 8 f32 (fDiv f32 (w32 0x7FC00000) (w32 0x3F800000)) (pure (w32 0x7FC00000)) :=
  C43_div_one good8 (w32_encodes (by decide)) toInt32_one_encodes

/-- **C43, the exceptions are real.** `-0 + (+0)` is `+0`; `x - x = -(x - x)` fails; addition is not associative. -/
theorem C43_exceptions :
    (fAdd f32 (w32 0x80000000) (w32 0)).run 8 = some (w32 0) ∧
    (fSub f32 (w32 0x3F800000) (w32 0x3F800000)).run 8 = some (w32 0) ∧ fNeg (w32 0) = w32 0x80000000 ∧
    (do let s ← fAdd f32 (w32 0x3F800000) (w32 0x33000000); fAdd f32 s (w32 0x33800000)).run 8 = some (w32 0x3F800000) ∧
    (do let s ← fAdd f32 (w32 0x33000000) (w32 0x33800000); fAdd f32 (w32 0x3F800000) s).run 8 = some (w32 0x3F800001) := by
  decide +kernel

/-- `C43_neg_mul`, `C43_neg_div`, `C43_sub_swap`, `C43_mul_comm_every_width`, `C43_add_mono`, `C43_sqrt_mono`: operands 0.1, 0.7, 2 and 3. -/
example : SameResult 9 f32 (fMul f32 (fNeg (w32 0x3DCCCCCD)) (w32 0x3F333333)) (do let r ← fMul f32 (w32 0x3DCCCCCD) (w32 0x3F333333); pure (fNeg r)) ∧
    SameResult 9 f32 (fDiv f32 (fNeg (w32 0x3DCCCCCD)) (w32 0x3F333333)) (do let r ← fDiv f32 (w32 0x3DCCCCCD) (w32 0x3F333333); pure (fNeg r)) :=
  ⟨C43_neg_mul (good_bn254_f32 ⟨by norm_num, by norm_num⟩) (w32_encodes (by norm_num)) (w32_encodes (by norm_num)),
    C43_neg_div (good_bn254_f32 ⟨by norm_num, by norm_num⟩) (w32_encodes (by norm_num)) (w32_encodes (by norm_num))⟩

example (r : FloatVar bn254) : (fMul f32 (w32 0x3f932524) (w32 0x3f99cb36)).Sat 5 true r ↔ (fMul f32 (w32 0x3f99cb36) (w32 0x3f932524)).Sat 5 true r :=
  C43_mul_comm_every_width (good_bn254_f32 ⟨by norm_num, by norm_num⟩) (by decide +kernel) (w32_encodes (by norm_num)) (w32_encodes (by norm_num)) true r

example : ∃ u v du dv, (fSqrt f32 (w32 0x40000000)).run 9 = some u ∧ (fSqrt f32 (w32 0x40400000)).run 9 = some v ∧ Encodes f32 u du ∧ Encodes f32 v dv ∧
    (du ≠ .nan → dv ≠ .nan → (fIsLe f32 u v).run 9 = some 1) :=
  C43_sqrt_mono (good_bn254_f32 ⟨by norm_num, by norm_num⟩) (w32_encodes (by norm_num)) (w32_encodes (by norm_num)) (by decide +kernel)

example : SameResult 9 f32 (fSub f32 (w32 0x40000000) (w32 0x40400000)) (do let r ← fSub f32 (w32 0x40400000) (w32 0x40000000); pure (fNeg r)) := by
  have e1 : Ieee.decodeBits ⟨8, 23⟩ 0x40000000 = .fin false 2 := by unfold Ieee.decodeBits; norm_num [Ieee.Format.bias]; decide
  have e2 : Ieee.decodeBits ⟨8, 23⟩ 0x40400000 = .fin false 3 := by unfold Ieee.decodeBits; norm_num [Ieee.Format.bias]; decide
  have h1 := w32_encodes (v := 0x40000000) (by norm_num)
  have h2 := w32_encodes (v := 0x40400000) (by norm_num)
  rw [e1] at h1
  rw [e2] at h2
  refine C43_sub_swap (good_bn254_f32 ⟨by norm_num, by norm_num⟩) h1 h2 fun s a => ?_
  simp only [Datum.fin.injEq, not_and]
  rintro ⟨-, rfl⟩ -
  norm_num

/-- The exceptional case of `C43_add_mono` needs sums near the largest number; 2 + 0.5 ≤ 3 + 0.5 is far from it. -/
example : ∃ u v du dv, (fAdd f32 (w32 0x40000000) (w32 0x3F000000)).run 9 = some u ∧ (fAdd f32 (w32 0x40400000) (w32 0x3F000000)).run 9 = some v ∧ Encodes f32 u du ∧
    Encodes f32 v dv ∧ (du ≠ .nan → dv ≠ .nan → (fIsLe f32 u v).run 9 = some 1) := by
  have e1 : Ieee.decodeBits ⟨8, 23⟩ 0x40000000 = .fin false 2 := by unfold Ieee.decodeBits; norm_num [Ieee.Format.bias]; decide
  have e2 : Ieee.decodeBits ⟨8, 23⟩ 0x40400000 = .fin false 3 := by unfold Ieee.decodeBits; norm_num [Ieee.Format.bias]; decide
  have e3 : Ieee.decodeBits ⟨8, 23⟩ 0x3F000000 = .fin false (1 / 2) := by unfold Ieee.decodeBits; norm_num [Ieee.Format.bias]; decide
  have h1 := w32_encodes (v := 0x40000000) (by norm_num)
  have h2 := w32_encodes (v := 0x40400000) (by norm_num)
  have h3 := w32_encodes (v := 0x3F000000) (by norm_num)
  rw [e1] at h1
  rw [e2] at h2
  rw [e3] at h3
  refine C43_add_mono (good_bn254_f32 ⟨by norm_num, by norm_num⟩) h1 h2 h3 (by decide +kernel) ?_ ?_
  · rintro ⟨s, t, a, h, h', hne, -⟩
    rw [Datum.fin.injEq] at h h'
    exact hne (h.1.symm.trans h'.1)
  · rintro ⟨s, t, a, h, h', hne, -⟩
    rw [Datum.fin.injEq] at h h'
    exact hne (h.1.symm.trans h'.1)

end ZkLoc
