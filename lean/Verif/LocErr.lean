import Verif.FaceTable
import Verif.ScaleSpec
import Verif.GnomonicMath
import Mathlib.Tactic.LinearCombination

/-!
# Helper lemmas: rounding errors of the projection (real numbers only)
-/

namespace ZkLoc

variable {f : Fmt}

/-- Half the smallest subnormal number. -/
noncomputable def eta (f : Fmt) : ℝ := 2 ^ ((Ieee.Format.qmin ⟨f.E, f.M⟩) - 1)

/-- The format is precise enough, and its exponent range large enough, for the error analysis. -/
structure Fine (f : Fmt) : Prop where
  hE : 3 ≤ f.E
  hu : ulpHalf f ≤ 1 / 2 ^ 20
  tiny : 2 ^ 10 * eta f ≤ ulpHalf f ^ 2

theorem fine_of (hE : 3 ≤ f.E) (hM : 19 ≤ f.M) (h : f.M + 14 ≤ 2 ^ (f.E - 1)) : Fine f := by
  refine ⟨hE, ?_, ?_⟩
  · unfold ulpHalf
    calc (2:ℝ) ^ (-(f.M:ℤ) - 1) ≤ 2 ^ (-20:ℤ) := zpow_le_zpow_right₀ (by norm_num) (by omega)
      _ = 1 / 2 ^ 20 := by norm_num
  · unfold ulpHalf eta
    rw [show (2:ℝ) ^ 10 = 2 ^ (10:ℤ) by norm_num, ← zpow_natCast, ← zpow_mul, ← zpow_add₀ (by norm_num)]
    refine zpow_le_zpow_right₀ (by norm_num) ?_
    unfold Ieee.Format.qmin Ieee.Format.emin Ieee.Format.bias
    have h4 : ((2 ^ (f.E - 1) : ℕ) : ℤ) = (2:ℤ) ^ (f.E - 1) := by push_cast; rfl
    simp only
    push_cast
    omega

theorem fine32 : Fine f32 := fine_of (by decide) (by decide) (by decide)
theorem fine64 : Fine f64 := fine_of (by decide) (by decide) (by decide)

theorem eta_pos : 0 < eta f := by unfold eta; positivity

theorem Rn.err2 {e w : ℝ} (h : Rn f e w) : |e - w| ≤ ulpHalf f * |e| + eta f := Ieee.Rounds.err h

theorem Fine.eta_le (H : Fine f) : eta f ≤ 1 / 2 ^ 50 := by
  have h1 := H.tiny
  have h2 := H.hu
  have h0 := ulpHalf_pos (f := f)
  have h3 : ulpHalf f ^ 2 ≤ 1 / 2 ^ 40 := by
    have := pow_le_pow_left₀ h0.le h2 2
    norm_num at this ⊢
    exact this
  norm_num at h1 h3 ⊢
  linarith

theorem Fine.eta_le_u (H : Fine f) : eta f ≤ ulpHalf f / 2 ^ 30 := by
  have h1 := H.tiny
  have h2 := H.hu
  have h0 := ulpHalf_pos (f := f)
  norm_num at h1 h2 ⊢
  nlinarith

/-- Square roots of nearby numbers. -/
theorem sqrt_rel {S d a c : ℝ} (hS : 0 ≤ S) (ha : 0 ≤ a) (ha1 : a ≤ 1) (hc : 0 ≤ c) (h : |S - d| ≤ a * S + c ^ 2) :
    |Real.sqrt S - Real.sqrt d| ≤ a * Real.sqrt S + c := by
  have q := Real.sq_sqrt hS
  have q0 := Real.sqrt_nonneg S
  obtain ⟨h1, h2⟩ := abs_le.1 h
  rw [abs_le]
  constructor
  · have : Real.sqrt d ≤ (1 + a) * Real.sqrt S + c := by
      rw [Real.sqrt_le_iff]
      refine ⟨by positivity, ?_⟩
      have : ((1 + a) * Real.sqrt S + c) ^ 2 = (1 + a) ^ 2 * S + 2 * ((1 + a) * Real.sqrt S * c) + c ^ 2 := by
        linear_combination ((1 + a) ^ 2) * q
      rw [this]
      have : 0 ≤ (1 + a) * Real.sqrt S * c := by positivity
      have : 0 ≤ (a + a ^ 2) * S := by positivity
      nlinarith
    linarith
  · rcases le_total ((1 - a) * Real.sqrt S) c with hle | hle
    · have := Real.sqrt_nonneg d
      linarith
    · have : (1 - a) * Real.sqrt S - c ≤ Real.sqrt d := by
        refine Real.le_sqrt_of_sq_le ?_
        have e : ((1 - a) * Real.sqrt S - c) ^ 2 = (1 - a) ^ 2 * S - 2 * c * ((1 - a) * Real.sqrt S) + c ^ 2 := by
          linear_combination ((1 - a) ^ 2) * q
        rw [e]
        have h3 : c * c ≤ c * ((1 - a) * Real.sqrt S) := mul_le_mul_of_nonneg_left hle hc
        have h4 : (1 - a) ^ 2 * S ≤ (1 - a) * S := by
          have : (1 - a) ^ 2 ≤ (1 - a) := by nlinarith
          exact mul_le_mul_of_nonneg_right this hS
        nlinarith
      linarith

/-- The rounded square of a rounded difference. -/
theorem sq_rel (H : Fine f) {e d s : ℝ} (he : |e| ≤ 9 / 4) (h1 : Rn f e d) (h2 : Rn f (d * d) s) : |e ^ 2 - s| ≤ 4 * ulpHalf f * e ^ 2 + 8 * eta f := by
  have k1 := h1.err2
  have k2 := h2.err2
  have hu := H.hu
  have hη := H.eta_le
  have u0 := ulpHalf_pos (f := f)
  have n0 := eta_pos (f := f)
  generalize ulpHalf f = u at *
  generalize eta f = η at *
  have a0 := abs_nonneg e
  have ea : e ^ 2 = |e| ^ 2 := (sq_abs e).symm
  rw [abs_of_nonneg (mul_self_nonneg d)] at k2
  have hsum : |e + d| ≤ 2 * |e| + (u * |e| + η) := by
    have : e + d = 2 * e - (e - d) := by ring
    rw [this]
    refine (abs_sub _ _).trans ?_
    rw [abs_mul, abs_two]
    linarith
  have h3 : |e ^ 2 - d * d| ≤ 2.01 * u * e ^ 2 + 5 * η := by
    rw [show e ^ 2 - d * d = (e - d) * (e + d) by ring, abs_mul, ea]
    have m1 : |e - d| * |e + d| ≤ (u * |e| + η) * (2 * |e| + (u * |e| + η)) := mul_le_mul k1 hsum (abs_nonneg _) (by positivity)
    refine m1.trans ?_
    generalize |e| = a at *
    norm_num at hu hη he ⊢
    have e1 : u * (u * a ^ 2) ≤ 1 / 100 * (u * a ^ 2) := mul_le_mul_of_nonneg_right (by linarith) (by positivity)
    have e2 : a * η ≤ 9 / 4 * η := mul_le_mul_of_nonneg_right he n0.le
    have e3 : u * (a * η) ≤ 1 / 100 * (a * η) := mul_le_mul_of_nonneg_right (by linarith) (by positivity)
    have e4 : η * η ≤ 1 / 100 * η := mul_le_mul_of_nonneg_right (by linarith) n0.le
    nlinarith
  have h4 : d * d ≤ 1.01 * e ^ 2 + 6 * η := by
    have := (abs_le.1 h3).1
    have e1 : u * e ^ 2 ≤ 1 / 1000 * e ^ 2 := mul_le_mul_of_nonneg_right (by norm_num at hu ⊢; linarith) (sq_nonneg e)
    nlinarith
  have h5 : u * (d * d) ≤ 1.01 * u * e ^ 2 + η := by
    have e1 := mul_le_mul_of_nonneg_left h4 u0.le
    have e2 : u * η ≤ 1 / 100 * η := mul_le_mul_of_nonneg_right (by norm_num at hu ⊢; linarith) n0.le
    nlinarith
  rw [show e ^ 2 - s = (e ^ 2 - d * d) + (d * d - s) by ring]
  have := (abs_add_le (e ^ 2 - d * d) (d * d - s)).trans (add_le_add h3 k2)
  have := mul_nonneg u0.le (sq_nonneg e)
  linarith

/-- A rounded sum of two nonnegative numbers that are themselves inaccurate. -/
theorem add_rel {u η A B s t w a c : ℝ} (u0 : 0 ≤ u) (n0 : 0 ≤ η) (hu : u ≤ 1 / 2 ^ 20) (hA : 0 ≤ A) (hB : 0 ≤ B) (hs : 0 ≤ s + t) (h1 : |A - s| ≤ a * u * A + c * η)
    {c' : ℝ} (h2 : |B - t| ≤ a * u * B + c' * η) (ha : 0 ≤ a) (ha' : a ≤ 100) (hc : 0 ≤ c) (hcc : c ≤ 100) (hc' : 0 ≤ c') (hcc' : c' ≤ 100)
    (h3 : |s + t - w| ≤ u * |s + t| + η) : |A + B - w| ≤ (a + 1.01) * u * (A + B) + (c + c' + 2) * η := by
  rw [abs_of_nonneg hs] at h3
  rw [abs_le] at *
  norm_num at hu
  have e1 : s + t ≤ 1.005 * (A + B) + 200 * η := by
    have : a * u ≤ 0.005 := by nlinarith
    have := mul_le_mul_of_nonneg_right this hA
    have := mul_le_mul_of_nonneg_right ‹a * u ≤ 0.005› hB
    nlinarith
  have e2 : u * (s + t) ≤ 1.01 * u * (A + B) + η := by
    have e3 := mul_le_mul_of_nonneg_left e1 u0
    have e4 : u * (200 * η) ≤ η := by nlinarith
    have : 0 ≤ u * (A + B) := by positivity
    nlinarith
  constructor <;> nlinarith

/-- The computed squared distance is relatively accurate. -/
theorem squareDist_rel (H : Fine f) {a b c x y z d : ℝ} (h : H3.SquareDist (Rn f) a b c x y z d) (hD : sqDistR a b c x y z ≤ 5) :
    |Real.sqrt (sqDistR a b c x y z) - Real.sqrt d| ≤ 7 * ulpHalf f * Real.sqrt (sqDistR a b c x y z) + ulpHalf f / 2 := by
  obtain ⟨d1, s1, d2, s2, d3, s3, t, r1, q1, r2, q2, r3, q3, r4, r5⟩ := h
  have hu := H.hu
  have u0 := ulpHalf_pos (f := f)
  have n0 := eta_pos (f := f)
  have htiny := H.tiny
  unfold sqDistR at hD ⊢
  have a1 : |a - x| ≤ 9 / 4 := by
    refine abs_le_of_sq_le_sq ?_ (by norm_num)
    nlinarith [sq_nonneg (b - y), sq_nonneg (c - z)]
  have a2 : |b - y| ≤ 9 / 4 := by
    refine abs_le_of_sq_le_sq ?_ (by norm_num)
    nlinarith [sq_nonneg (a - x), sq_nonneg (c - z)]
  have a3 : |c - z| ≤ 9 / 4 := by
    refine abs_le_of_sq_le_sq ?_ (by norm_num)
    nlinarith [sq_nonneg (b - y), sq_nonneg (a - x)]
  have e1 := sq_rel H a1 r1 q1
  have e2 := sq_rel H a2 r2 q2
  have e3 := sq_rel H a3 r3 q3
  have s1n : 0 ≤ s1 := q1.pos (mul_self_nonneg _)
  have s2n : 0 ≤ s2 := q2.pos (mul_self_nonneg _)
  have s3n : 0 ≤ s3 := q3.pos (mul_self_nonneg _)
  have tn : 0 ≤ t := r4.pos (by linarith)
  have e4 := add_rel u0.le n0.le hu (sq_nonneg _) (sq_nonneg _) (by linarith) e1 e2 (by norm_num) (by norm_num) (by norm_num) (by norm_num) (by norm_num) (by norm_num)
    r4.err2
  have e3' : |(c - z) ^ 2 - s3| ≤ (4 + 1.01) * ulpHalf f * (c - z) ^ 2 + 8 * eta f := by
    have : 0 ≤ ulpHalf f * (c - z) ^ 2 := by positivity
    nlinarith
  have e5 := add_rel u0.le n0.le hu (by positivity) (sq_nonneg _) (by linarith) e4 e3' (by norm_num) (by norm_num) (by norm_num) (by norm_num) (by norm_num) (by norm_num)
    r5.err2
  refine (sqrt_rel (a := (4 + 1.01 + 1.01) * ulpHalf f) (c := ulpHalf f / 2) (by positivity) (by positivity) ?_ (by positivity) ?_).trans ?_
  · norm_num at hu ⊢; linarith
  · refine e5.trans ?_
    norm_num at htiny ⊢
    nlinarith
  · have := Real.sqrt_nonneg ((a - x) ^ 2 + (b - y) ^ 2 + (c - z) ^ 2)
    have := mul_nonneg u0.le this
    nlinarith

/-- The tangent of the angular distance, as a function of the squared chord. -/
noncomputable def gno (d : ℝ) : ℝ := Real.sqrt ((4 - d) * d) / (2 - d)

theorem gno_lip {d D : ℝ} (h0 : 0 ≤ d) (h1 : d ≤ 0.95) (H0 : 0 ≤ D) (H1 : D ≤ 0.95) : |gno d - gno D| ≤ 6 * |Real.sqrt d - Real.sqrt D| := by
  unfold gno
  rw [Real.sqrt_mul (by linarith), Real.sqrt_mul (by linarith)]
  have qa := Real.sq_sqrt h0
  have qb := Real.sq_sqrt H0
  have qc := Real.sq_sqrt (show 0 ≤ 4 - d by linarith)
  have qd := Real.sq_sqrt (show 0 ≤ 4 - D by linarith)
  have a0 := Real.sqrt_nonneg d
  have b0 := Real.sqrt_nonneg D
  have a1 : Real.sqrt d ≤ 0.98 := Real.sqrt_le_iff.2 ⟨by norm_num, by norm_num at *; linarith⟩
  have b1 : Real.sqrt D ≤ 0.98 := Real.sqrt_le_iff.2 ⟨by norm_num, by norm_num at *; linarith⟩
  have c1 : 1.74 ≤ Real.sqrt (4 - d) := Real.le_sqrt_of_sq_le (by norm_num at *; linarith)
  have d1 : 1.74 ≤ Real.sqrt (4 - D) := Real.le_sqrt_of_sq_le (by norm_num at *; linarith)
  have c2 : Real.sqrt (4 - d) ≤ 2 := Real.sqrt_le_iff.2 ⟨by norm_num, by linarith⟩
  have d2 : Real.sqrt (4 - D) ≤ 2 := Real.sqrt_le_iff.2 ⟨by norm_num, by linarith⟩
  generalize Real.sqrt (4 - d) = s at *
  generalize Real.sqrt (4 - D) = S at *
  generalize Real.sqrt d = t at *
  generalize Real.sqrt D = T at *
  subst qa qb
  have hs : |s - S| ≤ 0.6 * |t - T| := by
    have e : (s - S) * (s + S) = -((t - T) * (t + T)) := by nlinarith
    have e' : |s - S| * (s + S) = |t - T| * (t + T) := by
      rw [← abs_of_nonneg (show 0 ≤ s + S by linarith), ← abs_of_nonneg (show 0 ≤ t + T by linarith), ← abs_mul, ← abs_mul, e, abs_neg]
    have := abs_nonneg (s - S)
    have := abs_nonneg (t - T)
    nlinarith
  have hn : |s * t - S * T| ≤ 2.6 * |t - T| := by
    rw [show s * t - S * T = s * (t - T) + T * (s - S) by ring]
    refine (abs_add_le _ _).trans ?_
    rw [abs_mul, abs_mul, abs_of_nonneg (show 0 ≤ s by linarith), abs_of_nonneg b0]
    have := abs_nonneg (s - S)
    have := abs_nonneg (t - T)
    nlinarith
  have hd : |1 / (2 - t ^ 2) - 1 / (2 - T ^ 2)| ≤ 1.79 * |t - T| := by
    have p1 : 0 < 2 - t ^ 2 := by linarith
    have p2 : 0 < 2 - T ^ 2 := by linarith
    rw [div_sub_div _ _ p1.ne' p2.ne', show 1 * (2 - T ^ 2) - (2 - t ^ 2) * 1 = (t - T) * (t + T) by ring, abs_div, abs_mul,
      abs_of_nonneg (show 0 ≤ t + T by linarith), abs_of_pos (mul_pos p1 p2), div_le_iff₀ (mul_pos p1 p2)]
    have := abs_nonneg (t - T)
    have q1 : (1.05:ℝ) ≤ 2 - t ^ 2 := by linarith
    have q2 : (1.05:ℝ) ≤ 2 - T ^ 2 := by linarith
    have q3 : (1.1:ℝ) ≤ (2 - t ^ 2) * (2 - T ^ 2) := by nlinarith
    have q4 : t + T ≤ 1.96 := by linarith
    nlinarith
  have p1 : 0 < 2 - t ^ 2 := by linarith
  rw [show s * t / (2 - t ^ 2) - S * T / (2 - T ^ 2) = (s * t - S * T) * (1 / (2 - t ^ 2)) + S * T * (1 / (2 - t ^ 2) - 1 / (2 - T ^ 2)) by ring]
  refine (abs_add_le _ _).trans ?_
  rw [abs_mul, abs_mul, abs_of_pos (one_div_pos.2 p1), abs_of_nonneg (show 0 ≤ S * T by positivity)]
  have q1 : 1 / (2 - t ^ 2) ≤ 0.953 := by rw [div_le_iff₀ p1]; norm_num at *; linarith
  have q2 : S * T ≤ 1.96 := by nlinarith
  have n1 := abs_nonneg (t - T)
  have n2 := abs_nonneg (s * t - S * T)
  have m1 : |s * t - S * T| * (1 / (2 - t ^ 2)) ≤ 2.6 * |t - T| * 0.953 := mul_le_mul hn q1 (by positivity) (by positivity)
  have m2 : S * T * |1 / (2 - t ^ 2) - 1 / (2 - T ^ 2)| ≤ 1.96 * (1.79 * |t - T|) := mul_le_mul q2 hd (abs_nonneg _) (by norm_num)
  linarith

end ZkLoc
