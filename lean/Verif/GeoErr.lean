import Verif.FaceSpec
import Verif.RealErr

/-!
# Helper lemmas: accuracy of the squared distance, exact values of table entries
-/

namespace ZkLoc

variable {f : Fmt}

/-- Half a unit in the last place of one. -/
noncomputable def ulpHalf (f : Fmt) : ℝ := 2 ^ (-(f.M:ℤ) - 1)

theorem ulpHalf_pos : 0 < ulpHalf f := by unfold ulpHalf; positivity

theorem Rn.err_le (hE : 3 ≤ f.E) {e w : ℝ} (h : Rn f e w) : |e - w| ≤ ulpHalf f * |e| + ulpHalf f / 4 := by
  have h1 := Ieee.Rounds.err h
  have h2 : (2:ℝ) ^ ((Ieee.Format.qmin ⟨f.E, f.M⟩) - 1) ≤ ulpHalf f / 4 := by
    have : ulpHalf f / 4 = 2 ^ (-(f.M:ℤ) - 3) := by
      unfold ulpHalf
      rw [show -(f.M:ℤ) - 3 = (-(f.M:ℤ) - 1) + (-2) by ring, zpow_add₀ (by norm_num)]
      norm_num; ring
    rw [this]
    refine zpow_le_zpow_right₀ (by norm_num) ?_
    have h3 : 2 ^ 2 ≤ 2 ^ (f.E - 1) := Nat.pow_le_pow_right (by norm_num) (by omega)
    unfold Ieee.Format.qmin Ieee.Format.emin Ieee.Format.bias
    simp only
    have h4 : ((2 ^ (f.E - 1) : ℕ) : ℤ) = (2:ℤ) ^ (f.E - 1) := by push_cast; rfl
    omega
  have h3 : (2:ℝ) ^ (-((Ieee.Format.mk f.E f.M).M:ℤ) - 1) = ulpHalf f := rfl
  rw [h3] at h1
  linarith

/-- The exact squared distance. -/
def sqDistR (a b c x y z : ℝ) : ℝ := (a - x) ^ 2 + (b - y) ^ 2 + (c - z) ^ 2

theorem sq_err {u e d s : ℝ} (hu0 : 0 < u) (hu : u ≤ 1 / 2 ^ 14) (he : |e| ≤ 9 / 4) (hd : |e - d| ≤ u * |e| + u / 4)
    (hs : |d * d - s| ≤ u * |d * d| + u / 4) : |e ^ 2 - s| ≤ 18 * u ∧ 0 ≤ s + 6 * u := by
  have h1 : |e - d| ≤ 5 / 2 * u := by nlinarith
  have h2 : |e + d| ≤ 4.51 := by
    have : e + d = 2 * e - (e - d) := by ring
    rw [this]
    refine (abs_sub _ _).trans ?_
    rw [abs_mul, abs_two]
    have : 5 / 2 * u ≤ 0.01 := by norm_num at hu ⊢; linarith
    linarith
  have h3 : |e ^ 2 - d * d| ≤ 11.4 * u := by
    rw [show e ^ 2 - d * d = (e - d) * (e + d) by ring, abs_mul]
    calc |e - d| * |e + d| ≤ (5 / 2 * u) * 4.51 := mul_le_mul h1 h2 (abs_nonneg _) (by positivity)
      _ ≤ 11.4 * u := by linarith
  have h4 : |d * d| ≤ 5.1 := by
    have h5 : |d * d| ≤ |e ^ 2| + |e ^ 2 - d * d| := by
      have := abs_sub (e ^ 2) (e ^ 2 - d * d)
      rwa [show e ^ 2 - (e ^ 2 - d * d) = d * d by ring] at this
    have h6 : |e ^ 2| ≤ 81 / 16 := by
      rw [abs_pow]
      have := pow_le_pow_left₀ (abs_nonneg e) he 2
      linarith
    have : 11.4 * u ≤ 0.01 := by norm_num at hu ⊢; linarith
    linarith
  have h5 : |d * d - s| ≤ 5.4 * u := by nlinarith
  constructor
  · have : e ^ 2 - s = (e ^ 2 - d * d) + (d * d - s) := by ring
    rw [this]
    refine (abs_add_le _ _).trans ?_
    linarith
  · have := abs_le.1 h5
    nlinarith [mul_self_nonneg d]

/-- The computed squared distance is the squared distance up to `2^(6-M)`. -/
theorem squareDist_err (hE : 3 ≤ f.E) (hM : 13 ≤ f.M) {a b c x y z d : ℝ} (h : H3.SquareDist (Rn f) a b c x y z d)
    (hD : sqDistR a b c x y z ≤ 5) : |sqDistR a b c x y z - d| ≤ 66 * ulpHalf f := by
  obtain ⟨d1, s1, d2, s2, d3, s3, t, r1, q1, r2, q2, r3, q3, r4, r5⟩ := h
  have hu0 : 0 < ulpHalf f := ulpHalf_pos
  have hu : ulpHalf f ≤ 1 / 2 ^ 14 := by
    unfold ulpHalf
    have : (2:ℝ) ^ (-(f.M:ℤ) - 1) ≤ 2 ^ (-14:ℤ) := zpow_le_zpow_right₀ (by norm_num) (by omega)
    refine this.trans ?_
    norm_num
  unfold sqDistR at hD ⊢
  have a1 : |a - x| ≤ 9 / 4 := by
    refine abs_le_of_sq_le_sq ?_ (by norm_num)
    nlinarith [sq_nonneg (b - y), sq_nonneg (c - z)]
  have a2 : |b - y| ≤ 9 / 4 := by
    refine abs_le_of_sq_le_sq ?_ (by norm_num)
    nlinarith [sq_nonneg (a - x), sq_nonneg (c - z)]
  have a3 : |c - z| ≤ 9 / 4 := by
    refine abs_le_of_sq_le_sq ?_ (by norm_num)
    nlinarith [sq_nonneg (b - y), sq_nonneg (a - x)]
  obtain ⟨e1, g1⟩ := sq_err hu0 hu a1 (Rn.err_le hE r1) (Rn.err_le hE q1)
  obtain ⟨e2, g2⟩ := sq_err hu0 hu a2 (Rn.err_le hE r2) (Rn.err_le hE q2)
  obtain ⟨e3, g3⟩ := sq_err hu0 hu a3 (Rn.err_le hE r3) (Rn.err_le hE q3)
  have e4 := Rn.err_le hE r4
  have e5 := Rn.err_le hE r5
  have s1n : 0 ≤ s1 := q1.pos (mul_self_nonneg _)
  have s2n : 0 ≤ s2 := q2.pos (mul_self_nonneg _)
  have s3n : 0 ≤ s3 := q3.pos (mul_self_nonneg _)
  have tn : 0 ≤ t := r4.pos (by linarith)
  rw [abs_of_nonneg (show 0 ≤ s1 + s2 by linarith)] at e4
  rw [abs_of_nonneg (show 0 ≤ t + s3 by linarith)] at e5
  rw [abs_le] at e1 e2 e3 e4 e5 ⊢
  have u2 : 60 * ulpHalf f ≤ 0.02 := by norm_num at hu ⊢; linarith
  have b1 : s1 + s2 ≤ 5.1 := by nlinarith [sq_nonneg (c - z)]
  have b2 : ulpHalf f * (s1 + s2) ≤ 5.1 * ulpHalf f := by nlinarith
  have b3 : t + s3 ≤ 5.1 := by linarith
  have b4 : ulpHalf f * (t + s3) ≤ 5.1 * ulpHalf f := by nlinarith
  constructor <;> linarith

/-! ### Values of table entries as integers -/

/-- The value of a normal bit pattern times `2^k`, for `k` large enough. -/
def scaledVal (E M k v : ℕ) : ℤ :=
  (if v.testBit (E + M) then -1 else 1) * ((2 ^ M + v % 2 ^ M : ℕ) * 2 ^ (k + v / 2 ^ M % 2 ^ E - (2 ^ (E - 1) - 1 + M)) : ℕ)

/-- The pattern is normal and `k` is large enough. -/
def scalable (E M k v : ℕ) : Bool :=
  decide (0 < v / 2 ^ M % 2 ^ E) && decide (v / 2 ^ M % 2 ^ E < 2 ^ E - 1) && decide (2 ^ (E - 1) - 1 + M ≤ k + v / 2 ^ M % 2 ^ E)

theorem patternVal_scaled {E M k v : ℕ} (h : scalable E M k v = true) : Ieee.patternVal ⟨E, M⟩ v = scaledVal E M k v / 2 ^ k := by
  simp only [scalable, Bool.and_eq_true, decide_eq_true_eq] at h
  obtain ⟨⟨h1, h2⟩, h3⟩ := h
  have hE1 : 1 ≤ 2 ^ (E - 1) := Nat.one_le_two_pow
  have hbias : Ieee.Format.bias ⟨E, M⟩ = ((2 ^ (E - 1) : ℕ) : ℤ) - 1 := by unfold Ieee.Format.bias; push_cast; rfl
  unfold Ieee.patternVal Ieee.decodeBits scaledVal
  simp only
  rw [if_neg (by omega), if_neg (by omega)]
  simp only [hbias]
  generalize v / 2 ^ M % 2 ^ E = e at *
  generalize v % 2 ^ M = m at *
  have key : (2:ℝ) ^ ((e:ℤ) - (((2 ^ (E - 1) : ℕ) : ℤ) - 1) - M) = 2 ^ (k + e - (2 ^ (E - 1) - 1 + M)) / 2 ^ k := by
    rw [eq_div_iff (by positivity), ← zpow_natCast, ← zpow_natCast, ← zpow_add₀ (by norm_num)]
    congr 1
    omega
  rw [key]
  cases v.testBit (E + M) <;> simp [Ieee.signed] <;> ring

end ZkLoc
