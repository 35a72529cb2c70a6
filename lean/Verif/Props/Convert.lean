import Verif.Convert
import Verif.RealErr
import Verif.RealExists

/-!
# Property C66: the unit conversions
-/

namespace ZkLoc.Convert
open Ieee

theorem representable_nat {n : ℕ} (h : n ≤ 2 ^ 53) : Representable double n := by
  have := representable_mul (F := double) (n := n) (k := 0) (by simpa [double] using h) (by norm_num [double, Format.qmin, Format.emin, Format.bias])
  simpa using this

/-- An integer of at most 53 bits is converted exactly. -/
theorem convert_exact {n : ℤ} {c : ℝ} (h : |n| ≤ 2 ^ 53) (hc : Rounds double n c) : c = n := by
  have h1 : Representable double |(n : ℝ)| := by
    have := representable_nat (n := n.natAbs) (by zify; exact h)
    rwa [Nat.cast_natAbs, Int.cast_abs] at this
  have h2 := h1.isRNE.unique hc.rne
  rcases le_total 0 (n : ℝ) with h0 | h0
  · rw [abs_of_nonneg h0, abs_of_nonneg (hc.pos h0)] at h2; exact h2.symm
  · rw [abs_of_nonpos h0, abs_of_nonpos (hc.neg h0)] at h2; linarith

theorem emin_double : (2:ℝ) ^ double.emin ≤ 1 / 10 ^ 9 := by
  have : double.emin = -1022 := by norm_num [double, Format.emin, Format.bias]
  rw [this]
  have : (2:ℝ) ^ (-1022 : ℤ) ≤ 2 ^ (-30 : ℤ) := zpow_le_zpow_right₀ (by norm_num) (by norm_num)
  have h : (2:ℝ) ^ (-30 : ℤ) ≤ 1 / 10 ^ 9 := by norm_num
  exact this.trans h

/-- **C66** Scaled integers of at most 53 bits are converted with a relative error of at most half a unit in the last place. -/
theorem C66_scaled_error {n : ℤ} {w : ℝ} (h : |n| ≤ 2 ^ 53) (hw : ScaledIntToFloat64 n w) : |n / 10 ^ 9 - w| ≤ 2 ^ (-53 : ℤ) * |(n : ℝ) / 10 ^ 9| := by
  obtain ⟨c, hc, hw⟩ := hw
  rw [convert_exact h hc] at hw
  by_cases h0 : n = 0
  · subst h0
    have h1 := hw.pos (by simp)
    have h2 := hw.neg (by simp)
    have : w = 0 := le_antisymm h2 h1
    simp [this]
  · refine hw.rel (le_trans emin_double ?_)
    rw [abs_div, abs_of_pos (by norm_num : (0:ℝ) < 10 ^ 9)]
    have : (1:ℝ) ≤ |(n:ℝ)| := by
      rw [← Int.cast_abs]; exact_mod_cast Int.one_le_abs h0
    gcongr

/-- **C66** No information is lost for integers of at most 52 bits (coordinates scaled by 1e9 have 38): rounding the result times 1e9 to the nearest integer gives the integer back. -/
theorem C66_scaled_roundtrip {n : ℤ} {w : ℝ} (h : |n| < 2 ^ 52) (hw : ScaledIntToFloat64 n w) : _root_.round (w * 10 ^ 9) = n := by
  have h1 := C66_scaled_error (by linarith [show (2:ℤ) ^ 52 ≤ 2 ^ 53 by norm_num]) hw
  have h2 : |(n:ℝ)| < 2 ^ 52 := by rw [← Int.cast_abs]; exact_mod_cast h
  rw [abs_div, abs_of_pos (by norm_num : (0:ℝ) < 10 ^ 9)] at h1
  have h3 : |(n:ℝ) - w * 10 ^ 9| < 1 / 2 := by
    have e : (n:ℝ) - w * 10 ^ 9 = (n / 10 ^ 9 - w) * 10 ^ 9 := by ring
    rw [e, abs_mul, abs_of_pos (by norm_num : (0:ℝ) < 10 ^ 9)]
    have h4 : |(n:ℝ) / 10 ^ 9 - w| * 10 ^ 9 ≤ 2 ^ (-53 : ℤ) * (|(n:ℝ)| / 10 ^ 9) * 10 ^ 9 := by gcongr
    have h5 : (2:ℝ) ^ (-53 : ℤ) * (|(n:ℝ)| / 10 ^ 9) * 10 ^ 9 = 2 ^ (-53 : ℤ) * |(n:ℝ)| := by ring
    have h6 : (2:ℝ) ^ (-53 : ℤ) * |(n:ℝ)| < 2 ^ (-53 : ℤ) * 2 ^ 52 := by gcongr
    have h7 : (2:ℝ) ^ (-53 : ℤ) * 2 ^ 52 = 1 / 2 := by norm_num
    linarith
  rw [abs_lt] at h3
  rw [_root_.round_eq, Int.floor_eq_iff]
  constructor <;> linarith [h3.1, h3.2]

/-- **C66** The order is kept. -/
theorem C66_scaled_strictMono {m n : ℤ} {v w : ℝ} (hm : |m| < 2 ^ 52) (hn : |n| < 2 ^ 52) (h : m < n) (hv : ScaledIntToFloat64 m v) (hw : ScaledIntToFloat64 n w) : v < w := by
  by_contra hh
  have h1 := C66_scaled_roundtrip hm hv
  have h2 := C66_scaled_roundtrip hn hw
  have : _root_.round (w * 10 ^ 9) ≤ _root_.round (v * 10 ^ 9) := by
    rw [_root_.round_eq, _root_.round_eq]
    exact Int.floor_mono (by linarith [mul_le_mul_of_nonneg_right (not_lt.1 hh) (by norm_num : (0:ℝ) ≤ 10 ^ 9)])
  omega

/-- **C66** (violated beyond 53 bits) Two different integers have the same conversions. -/
theorem C66_scaled_collision (w : ℝ) : ScaledIntToFloat64 (2 ^ 53) w ↔ ScaledIntToFloat64 (2 ^ 53 + 1) w := by
  have key : ∀ c, Rounds double ((2 ^ 53 : ℤ) : ℝ) c ↔ Rounds double ((2 ^ 53 + 1 : ℤ) : ℝ) c := by
    have h1 : Rounds double ((2 ^ 53 : ℤ) : ℝ) (2 ^ 53) := by
      have := Rounds.exact (F := double) (e := 2 ^ 53) (by
        rw [abs_of_pos (by positivity)]; exact_mod_cast representable_nat (n := 2 ^ 53) le_rfl)
      exact_mod_cast this
    have h2 : Rounds double ((2 ^ 53 + 1 : ℤ) : ℝ) (2 ^ 53) := by
      rw [show ((2 ^ 53 + 1 : ℤ) : ℝ) = 2 ^ 53 + 1 by norm_num]
      refine ⟨?_, fun _ => by positivity, fun h => absurd h (by norm_num)⟩
      rw [abs_of_pos (by positivity), abs_of_pos (by positivity)]
      have := isRNE_of_quantum (F := double) (by norm_num [double]) (v := 2 ^ 53 + 1) (n := 2 ^ 52) (k := 1)
        (by norm_num [double, Format.qmin, Format.emin, Format.bias]) (by norm_num [double]) (by norm_num) (fun _ => by decide +kernel) (by norm_num [double])
      have e : (((2 ^ 52 : ℕ) : ℝ)) * 2 ^ (1 : ℤ) = 2 ^ 53 := by norm_num
      rwa [e] at this
    intro c
    constructor
    · intro h; rw [h.unique h1]; exact h2
    · intro h; rw [h.unique h2]; exact h1
  unfold ScaledIntToFloat64
  simp only [key]

/-- The error of a product with a rounded constant. -/
theorem scale_error {K x w : ℝ} (hK : 1 / 10 ^ 9 ≤ K) (hw : ∃ c, Rounds double K c ∧ Rounds double (x * c) w) :
    |x * K - w| ≤ (2 ^ (-52 : ℤ) + 2 ^ (-106 : ℤ)) * |x * K| + 2 ^ (-1075 : ℤ) := by
  obtain ⟨c, hc, hw⟩ := hw
  have hK0 : 0 < K := lt_of_lt_of_le (by norm_num) hK
  have h1 := hc.rel (le_trans emin_double (by rw [abs_of_pos hK0]; exact hK))
  have h2 := hw.err
  have e1 : (2:ℝ) ^ (-((double.M : ℕ) : ℤ) - 1) = 2 ^ (-53 : ℤ) := by norm_num [double]
  have e2 : double.qmin - 1 = -1075 := by norm_num [double, Format.qmin, Format.emin, Format.bias]
  rw [e1] at h1 h2
  rw [e2] at h2
  have h3 : |x * K - x * c| ≤ 2 ^ (-53 : ℤ) * |x * K| := by
    rw [← mul_sub, abs_mul, abs_mul]
    calc |x| * |K - c| ≤ |x| * (2 ^ (-53 : ℤ) * |K|) := by gcongr
      _ = _ := by ring
  have h4 : |x * c| ≤ |x * K| + 2 ^ (-53 : ℤ) * |x * K| := by
    have := abs_sub_abs_le_abs_sub (x * c) (x * K)
    rw [abs_sub_comm] at this
    linarith
  have h5 : |x * K - w| ≤ |x * K - x * c| + |x * c - w| := abs_sub_le _ _ _
  have h6 : (2:ℝ) ^ (-53 : ℤ) * |x * c| ≤ 2 ^ (-53 : ℤ) * (|x * K| + 2 ^ (-53 : ℤ) * |x * K|) := by gcongr
  have e3 : (2:ℝ) ^ (-52 : ℤ) = 2 ^ (-53 : ℤ) + 2 ^ (-53 : ℤ) := by norm_num
  have e4 : (2:ℝ) ^ (-106 : ℤ) = 2 ^ (-53 : ℤ) * 2 ^ (-53 : ℤ) := by norm_num
  rw [e3, e4]
  nlinarith

/-- **C66** Radians are converted to degrees with a relative error of at most one unit in the last place (and 2^-106, and the smallest subnormal's half). -/
theorem C66_degrees_error {rad w : ℝ} (hw : RadiansToDegrees rad w) :
    |rad * 180 / Real.pi - w| ≤ (2 ^ (-52 : ℤ) + 2 ^ (-106 : ℤ)) * |rad * 180 / Real.pi| + 2 ^ (-1075 : ℤ) := by
  rw [show rad * 180 / Real.pi = rad * (180 / Real.pi) by ring]
  refine scale_error ?_ hw
  rw [div_le_div_iff₀ (by norm_num) Real.pi_pos]
  have := Real.pi_lt_four
  linarith

/-- **C66** Degrees to radians likewise. -/
theorem C66_radians_error {deg w : ℝ} (hw : DegreesToRadians deg w) :
    |deg * Real.pi / 180 - w| ≤ (2 ^ (-52 : ℤ) + 2 ^ (-106 : ℤ)) * |deg * Real.pi / 180| + 2 ^ (-1075 : ℤ) := by
  rw [show deg * Real.pi / 180 = deg * (Real.pi / 180) by ring]
  refine scale_error ?_ hw
  rw [div_le_div_iff₀ (by norm_num) (by norm_num)]
  have := Real.pi_gt_three
  linarith

/-- **C66** Converting to degrees and back changes an angle by less than 2^-50 times its size (and 2^-1073). -/
theorem C66_degrees_roundtrip {rad deg w : ℝ} (h1 : RadiansToDegrees rad deg) (h2 : DegreesToRadians deg w) : |rad - w| ≤ 2 ^ (-50 : ℤ) * |rad| + 2 ^ (-1073 : ℤ) := by
  have h3 := C66_degrees_error h1
  have h4 := C66_radians_error h2
  have hp := Real.pi_pos
  have hp4 := Real.pi_lt_four
  have e1 : rad - deg * Real.pi / 180 = (rad * 180 / Real.pi - deg) * (Real.pi / 180) := by field_simp
  have h5 : |rad - deg * Real.pi / 180| ≤ (2 ^ (-52 : ℤ) + 2 ^ (-106 : ℤ)) * |rad| + 2 ^ (-1075 : ℤ) := by
    rw [e1, abs_mul, abs_of_pos (by positivity : 0 < Real.pi / 180)]
    have e2 : |rad * 180 / Real.pi| * (Real.pi / 180) = |rad| := by
      rw [show rad * 180 / Real.pi = rad * (180 / Real.pi) by ring, abs_mul, abs_of_pos (by positivity : 0 < 180 / Real.pi)]
      field_simp
    have h6 := mul_le_mul_of_nonneg_right h3 (by positivity : 0 ≤ Real.pi / 180)
    have h7 : (2:ℝ) ^ (-1075 : ℤ) * (Real.pi / 180) ≤ 2 ^ (-1075 : ℤ) := by
      have : (0:ℝ) < 2 ^ (-1075 : ℤ) := by positivity
      nlinarith
    calc _ ≤ _ := h6
      _ = (2 ^ (-52 : ℤ) + 2 ^ (-106 : ℤ)) * (|rad * 180 / Real.pi| * (Real.pi / 180)) + 2 ^ (-1075 : ℤ) * (Real.pi / 180) := by ring
      _ ≤ _ := by rw [e2]; linarith
  have h6 : |deg * Real.pi / 180| ≤ |rad| + |rad - deg * Real.pi / 180| := by
    have := abs_sub_abs_le_abs_sub (deg * Real.pi / 180) rad
    rw [abs_sub_comm] at this
    linarith
  have h7 : |rad - w| ≤ |rad - deg * Real.pi / 180| + |deg * Real.pi / 180 - w| := abs_sub_le _ _ _
  have a1 : (2:ℝ) ^ (-52 : ℤ) + 2 ^ (-106 : ℤ) ≤ 2 ^ (-51 : ℤ) * (3 / 4) := by norm_num
  have a2 : (2:ℝ) ^ (-52 : ℤ) + 2 ^ (-106 : ℤ) ≤ 1 / 100 := by norm_num
  have a3 : (0:ℝ) ≤ (2:ℝ) ^ (-52 : ℤ) + 2 ^ (-106 : ℤ) := by positivity
  have e3 : (2:ℝ) ^ (-1073 : ℤ) = 4 * 2 ^ (-1075 : ℤ) := by
    rw [show (-1073 : ℤ) = 2 + -1075 by norm_num, zpow_add₀ (by norm_num)]; norm_num
  have e4 : (2:ℝ) ^ (-50 : ℤ) = 2 * 2 ^ (-51 : ℤ) := by norm_num
  have hz : (0:ℝ) < 2 ^ (-1075 : ℤ) := by positivity
  have hz1 : (0:ℝ) < 2 ^ (-51 : ℤ) := by positivity
  rw [e3, e4]
  generalize (2:ℝ) ^ (-52 : ℤ) + 2 ^ (-106 : ℤ) = u at *
  generalize (2:ℝ) ^ (-1075 : ℤ) = z at *
  generalize (2:ℝ) ^ (-51 : ℤ) = t at *
  have hr := abs_nonneg rad
  have b1 : u * |rad| ≤ t * (3 / 4) * |rad| := by gcongr
  have b2 : u * |deg * Real.pi / 180| ≤ u * (|rad| + (u * |rad| + z)) := mul_le_mul_of_nonneg_left (by linarith) a3
  have b3 : u * (u * |rad| + z) ≤ 1 / 100 * (u * |rad| + z) := mul_le_mul_of_nonneg_right a2 (by positivity)
  nlinarith

/-- **C66** The conversions are functions: every integer and every angle has exactly one result. -/
theorem C66_functions :
    (∀ n, ∃! w, ScaledIntToFloat64 n w) ∧ (∀ x, ∃! w, RadiansToDegrees x w) ∧ (∀ x, ∃! w, DegreesToRadians x w) := by
  have hM : 1 ≤ double.M := by norm_num [double]
  have key : ∀ (a : ℝ) (g : ℝ → ℝ), ∃! w, ∃ c, Rounds double a c ∧ Rounds double (g c) w := by
    intro a g
    obtain ⟨c, hc⟩ := exists_rounds hM a
    obtain ⟨w, hw⟩ := exists_rounds hM (g c)
    refine ⟨w, ⟨c, hc, hw⟩, ?_⟩
    rintro w' ⟨c', hc', hw'⟩
    rw [hc'.unique hc] at hw'
    exact hw'.unique hw
  exact ⟨fun n => key n _, fun x => key _ _, fun x => key _ _⟩

/-- A coordinate, 74.044444 degrees scaled, meets the hypotheses of `C66_scaled_error` and `C66_scaled_roundtrip`. -/
example : ∃ w, ScaledIntToFloat64 74044444000 w ∧ _root_.round (w * 10 ^ 9) = 74044444000 := by
  obtain ⟨w, hw, -⟩ := C66_functions.1 74044444000
  exact ⟨w, hw, C66_scaled_roundtrip (by norm_num) hw⟩

/-- The right angle meets the hypotheses of `C66_degrees_roundtrip`. -/
example : ∃ d w, RadiansToDegrees (Real.pi / 2) d ∧ DegreesToRadians d w ∧ |90 - d| ≤ 1 / 10 ^ 10 := by
  obtain ⟨d, hd, -⟩ := C66_functions.2.1 (Real.pi / 2)
  obtain ⟨w, hw, -⟩ := C66_functions.2.2 d
  refine ⟨d, w, hd, hw, ?_⟩
  have h := C66_degrees_error hd
  have e : Real.pi / 2 * 180 / Real.pi = 90 := by field_simp; norm_num
  rw [e, abs_of_pos (by norm_num : (0:ℝ) < 90)] at h
  refine h.trans ?_
  have : (2:ℝ) ^ (-1075 : ℤ) ≤ 2 ^ (-50 : ℤ) := zpow_le_zpow_right₀ (by norm_num) (by norm_num)
  refine (add_le_add_right this _).trans ?_
  norm_num

end ZkLoc.Convert
