import Verif.AtanSpecial
import Verif.Props.Wrapper
import Verif.Props.Math
import Verif.Props.Location

/-!
# Property theorems C50 (accuracy of the arc tangent) and C51 (`Atan2`)
-/

namespace ZkLoc

variable {p : ℕ} [Fact p.Prime] {b : ℕ}

/-! ### C50 -/

/-- **C50** On every finite single-precision number the honest prover's `AtanRemez32` succeeds at every table width, and its result is a finite number within `10` half
units (of the last place of `1`) of the arc tangent. -/
theorem C50_atan_accuracy32 (G : Good p b f32) {x : FloatVar p} {v : ℝ} (hx : Num f32 x v) :
    ∃ r w, (atanRemez32 x).run b = some r ∧ Num f32 r w ∧ |w - Real.arctan v| ≤ 10 / 2 ^ 24 := by
  obtain ⟨r, h, w, h1, _, h2⟩ := atanRemez_ok (m := .honest) G (.inl rfl) atanConsts32 hx
  refine ⟨r, w, h, h1, h2.trans ?_⟩
  rw [ulpHalf32]; norm_num

/-- **C50** The same accuracy is enforced on every prover where the table width divides the lookup size. -/
theorem C50_atan_accuracy32_sound (G : Good p b f32) (hb : b ∣ f32.pow2Size) {x r : FloatVar p} {v : ℝ} (hx : Num f32 x v) {st : Bool}
    (hr : (atanRemez32 x).Sat b st r) : ∃ w, Num f32 r w ∧ |w - Real.arctan v| ≤ 10 / 2 ^ 24 := by
  obtain ⟨w, h1, _, h2⟩ := atanRemez_ok (m := .any st) G (.inr hb) atanConsts32 hx r hr
  refine ⟨w, h1, h2.trans ?_⟩
  rw [ulpHalf32]; norm_num

/-- **C50** On every finite double-precision number the honest prover's `AtanRemez64` succeeds at every table width, and its result is a finite number within `25` half
units (of the last place of `1`) of the arc tangent. -/
theorem C50_atan_accuracy64 (G : Good p b f64) {x : FloatVar p} {v : ℝ} (hx : Num f64 x v) :
    ∃ r w, (atanRemez64 x).run b = some r ∧ Num f64 r w ∧ |w - Real.arctan v| ≤ 25 / 2 ^ 53 := by
  obtain ⟨r, h, w, h1, _, h2⟩ := atanRemez_ok (m := .honest) G (.inl rfl) atanConsts64 hx
  refine ⟨r, w, h, h1, h2.trans ?_⟩
  rw [ulpHalf64]; norm_num

/-- **C50** The same accuracy is enforced on every prover where the table width divides the lookup size. -/
theorem C50_atan_accuracy64_sound (G : Good p b f64) (hb : b ∣ f64.pow2Size) {x r : FloatVar p} {v : ℝ} (hx : Num f64 x v) {st : Bool}
    (hr : (atanRemez64 x).Sat b st r) : ∃ w, Num f64 r w ∧ |w - Real.arctan v| ≤ 25 / 2 ^ 53 := by
  obtain ⟨w, h1, _, h2⟩ := atanRemez_ok (m := .any st) G (.inr hb) atanConsts64 hx r hr
  refine ⟨w, h1, h2.trans ?_⟩
  rw [ulpHalf64]; norm_num

/-- `AtanRemez32(1/2)` and `AtanRemez32(-3)`. -/
example : ∃ r w, (atanRemez32 (newConstant f32 0x3F000000 : FloatVar bn254)).run 8 = some r ∧ Num f32 r w ∧ |w - Real.arctan (1 / 2)| ≤ 10 / 2 ^ 24 :=
  C50_atan_accuracy32 good8 (num_exact (E := 8) (M := 23) (neg := false) (num := 1) (den := 2) (by norm_num) (by norm_num) (by decide)
    (by decide +kernel) (by simp [Ieee.signed]))
example : ∃ r w, (atanRemez32 (newConstant f32 0xC0400000 : FloatVar bn254)).run 8 = some r ∧ Num f32 r w ∧ |w - Real.arctan (-3)| ≤ 10 / 2 ^ 24 :=
  C50_atan_accuracy32 good8 (num_exact (E := 8) (M := 23) (neg := true) (num := 3) (den := 1) (by norm_num) (by norm_num) (by decide)
    (by decide +kernel) (by simp [Ieee.signed]))

/-! ### C51 -/

/-- **C51** (missing: `x = 0` and quotients that overflow, on which the code is wrong, see below) For finite `y` and `x ≠ 0` the honest
prover's `Atan2` succeeds at every table width and is within `33` half units (of the last place of `1`) of the angle of the point `(x, y)`; on the negative abscissa axis the sign of
the zero `y` tells the side, as in IEEE-754: `π` from above and `-π` from below. -/
theorem C51_atan2_accuracy_partial (G : Good p b f64) {y x : FloatVar p} {v t : ℝ} (hy : Num f64 y v) (hx : Num f64 x t) (t0 : t ≠ 0)
    (hq : |v / t| ≤ big f64) :
    ∃ r w, (atan2 f64 consts64 y x).run b = some r ∧ Num f64 r w ∧
      (v ≠ 0 ∨ y.sign = 0 ∨ 0 < t → |w - Complex.arg (t + v * Complex.I)| ≤ 33 / 2 ^ 53) ∧
      (v = 0 → y.sign = 1 → t < 0 → |w + Real.pi| ≤ 33 / 2 ^ 53) := by
  obtain ⟨s, hs, hn, hp⟩ := hy.sign
  obtain ⟨r, h, w, h1, h2⟩ := atan2_ok (m := .honest) G (.inl rfl) atanConsts64 hy hx t0 hq hs hn hp
  rw [ulpHalf64] at h2
  have h3 : |w - sideArg s t v| ≤ 33 / 2 ^ 53 := h2.trans (by norm_num)
  exact ⟨r, w, h, h1, sideArg_cases hs hn hp h3⟩

/-- **C51** (missing: as above) The same accuracy is enforced on every prover where the table width divides the lookup size. -/
theorem C51_atan2_accuracy_sound_partial (G : Good p b f64) (hb : b ∣ f64.pow2Size) {y x r : FloatVar p} {v t : ℝ} (hy : Num f64 y v) (hx : Num f64 x t) (t0 : t ≠ 0)
    (hq : |v / t| ≤ big f64) {st : Bool} (hr : (atan2 f64 consts64 y x).Sat b st r) :
    ∃ w, Num f64 r w ∧ (v ≠ 0 ∨ y.sign = 0 ∨ 0 < t → |w - Complex.arg (t + v * Complex.I)| ≤ 33 / 2 ^ 53) ∧
      (v = 0 → y.sign = 1 → t < 0 → |w + Real.pi| ≤ 33 / 2 ^ 53) := by
  obtain ⟨s, hs, hn, hp⟩ := hy.sign
  obtain ⟨w, h1, h2⟩ := atan2_ok (m := .any st) G (.inr hb) atanConsts64 hy hx t0 hq hs hn hp r hr
  rw [ulpHalf64] at h2
  have h3 : |w - sideArg s t v| ≤ 33 / 2 ^ 53 := h2.trans (by norm_num)
  exact ⟨w, h1, sideArg_cases hs hn hp h3⟩

/-- **C51** (violated) On the ordinate axis, `x = +0`, no prover obtains any number, let alone `±π/2`, whatever `y` is. -/
theorem C51_atan2_axis_violated (G : Good p b f64) (hb : b ∣ f64.pow2Size) {y x r : FloatVar p} {dy : Ieee.Datum} (ey : Encodes f64 y dy) (ex : Encodes f64 x (.fin false 0))
    {st : Bool} (hr : (atan2 f64 consts64 y x).Sat b st r) : ∀ d, ¬ Encodes f64 r d := by
  unfold atan2 at hr
  simp only [Circ.bind_eq, Circ.pure_eq] at hr
  obtain ⟨q, h1, h2⟩ := (Circ.sat_bind _ _ _).1 hr
  obtain ⟨a, h3, h4⟩ := (Circ.sat_bind _ _ _).1 h2
  have hq : ∃ d, Encodes f64 q d ∧ ∀ s a, d ≠ .fin s a := by
    rcases C21_div_sound_partial G hb ey ex h1 with ⟨d, h5, h6⟩ | ⟨s, a, t, c, -, h, h7, -⟩
    · refine ⟨d, h5, ?_⟩
      rintro s a rfl
      cases dy with
      | nan => simp [Ieee.Div] at h6
      | inf t => simp [Ieee.Div] at h6
      | fin t c =>
        obtain ⟨k1, k2, -⟩ := h6
        by_cases hc : c = 0
        · exact absurd (k1 rfl hc) (by simp)
        · exact absurd (k2 rfl hc) (by simp)
    · injection h with _ h8; exact absurd h8.symm h7
  obtain ⟨d, h5, h6⟩ := hq
  have ha := atanRemez_special (m := .any st) G (by decide) (Or.inr hb) specialConsts64 h5 h6 a h3
  rw [atan2_tail ex.sign_pos h4, ha]
  exact not_encodes_cleared G _

/-- **C51** (violated) The same where the quotient overflows, for the honest prover and every table width: nothing that encodes a number. -/
theorem C51_atan2_overflow_violated (G : Good p b f64) {y x r : FloatVar p} {dy : Ieee.Datum} {c : ℝ} (ey : Encodes f64 y dy) (ex : Encodes f64 x (.fin false c))
    (ho : ∀ d, Ieee.Div ⟨11, 52⟩ dy (.fin false c) d → ∀ s a, d ≠ .fin s a) (hr : (atan2 f64 consts64 y x).run b = some r) : ∀ d, ¬ Encodes f64 r d := by
  unfold atan2 at hr
  simp only [Circ.bind_eq, Circ.pure_eq] at hr
  obtain ⟨q, d, h1, h2, h3⟩ := C20_div_complete (b := b) G ey ex
  obtain ⟨a, h4, rfl⟩ := atanRemez_special (m := .honest) G (by decide) (Or.inl rfl) specialConsts64 h2 (ho d h3)
  rw [Circ.run_bind, h1, Option.bind_some, Circ.run_bind, h4, Option.bind_some] at hr
  rw [atan2_tail ex.sign_pos (Circ.sat_of_run (st := true) _ _ hr)]
  exact not_encodes_cleared G _

/-- **C51** (violated) To the left of the axis a number is returned, which is no angle: `atan2(2^1023, -2^-1022)` and `atan2(1, -0)` give `π * 2^968`. -/
theorem C51_atan2_left_violated :
    (atan2 f64 consts64 (newConstant f64 0x7FE0000000000000) (newConstant f64 0x8010000000000000 : FloatVar bn254)).run 8 = some (newConstant f64 0x7C8921FB54442D18) ∧
    (atan2 f64 consts64 (newConstant f64 0x3FF0000000000000) (newConstant f64 0x8000000000000000 : FloatVar bn254)).run 8 = some (newConstant f64 0x7C8921FB54442D18) := by
  decide +kernel

/-- The point `(-1, -1)` in the third quadrant. -/
example : ∃ r w, (atan2 f64 consts64 (newConstant f64 0xBFF0000000000000) (newConstant f64 0xBFF0000000000000 : FloatVar bn254)).run 8 = some r ∧ Num f64 r w ∧
    |w - Complex.arg (((-1 : ℝ) : ℂ) + ((-1 : ℝ) : ℂ) * Complex.I)| ≤ 33 / 2 ^ 53 := by
  have h1 : Num f64 (newConstant f64 0xBFF0000000000000 : FloatVar bn254) (-1) := num_exact (E := 11) (M := 52) (neg := true) (num := 1) (den := 1) (by norm_num)
    (by norm_num) (by decide) (by decide +kernel) (by simp [Ieee.signed])
  have hb : (2:ℝ) ^ 29 ≤ big f64 := big_ge (good_bn254_f64 width8)
  obtain ⟨r, w, h2, h3, h4, -⟩ := C51_atan2_accuracy_partial (good_bn254_f64 width8) h1 h1 (by norm_num) (by norm_num at hb ⊢; linarith)
  exact ⟨r, w, h2, h3, h4 (Or.inl (by norm_num))⟩

/-- The point `(-1, -0)`: `-π`, not `π`. -/
example : ∃ r w, (atan2 f64 consts64 (newConstant f64 0x8000000000000000) (newConstant f64 0xBFF0000000000000 : FloatVar bn254)).run 8 = some r ∧ Num f64 r w ∧
    |w + Real.pi| ≤ 33 / 2 ^ 53 := by
  have h1 : Num f64 (newConstant f64 0xBFF0000000000000 : FloatVar bn254) (-1) := num_exact (E := 11) (M := 52) (neg := true) (num := 1) (den := 1) (by norm_num)
    (by norm_num) (by decide) (by decide +kernel) (by simp [Ieee.signed])
  have h0 : Num f64 (newConstant f64 0x8000000000000000 : FloatVar bn254) 0 := by
    have h := newConstant_encodes (p := bn254) (f := f64) (v := 0x8000000000000000) (by decide) (by decide) (by decide)
    refine ⟨true, 0, ?_, by simp [Ieee.signed]⟩
    convert h using 1
    norm_num [Ieee.decodeBits, f64]
    decide
  have hb : (2:ℝ) ^ 29 ≤ big f64 := big_ge (good_bn254_f64 width8)
  obtain ⟨r, w, h2, h3, -, h4⟩ := C51_atan2_accuracy_partial (good_bn254_f64 width8) h0 h1 (by norm_num) (by norm_num at hb ⊢; linarith)
  exact ⟨r, w, h2, h3, h4 rfl (by decide +kernel) (by norm_num)⟩

/-- Hypotheses of `C51_atan2_axis_violated` are met: at `(0, 1)` a prover has something to return. -/
example : ∃ r, (atan2 f64 consts64 (newConstant f64 0x3FF0000000000000) (newConstant f64 0 : FloatVar bn254)).Sat 8 true r ∧ ∀ d, ¬ Encodes f64 r d :=
  ⟨_, Circ.sat_of_run _ _ C34_atan2_axis_violated, C51_atan2_axis_violated (good_bn254_f64 width8) (by decide)
    (newConstant_encodes (by decide) (by decide) (by decide)) (by
      have h := newConstant_encodes (p := bn254) (f := f64) (v := 0) (by decide) (by decide) (by decide)
      convert h using 1
      norm_num [Ieee.decodeBits, f64]) (Circ.sat_of_run (st := true) _ _ C34_atan2_axis_violated)⟩

end ZkLoc
