import Verif.Prover
import Mathlib.Data.Int.Log

/-!
# Helper lemmas: the error of one rounding
-/

namespace Ieee

variable {F : Format}

theorem IsRNE.err {v r : ℝ} (hv : 0 ≤ v) (h : IsRNE F v r) :
    (2 ^ F.emin ≤ v → |v - r| ≤ 2 ^ (-(F.M:ℤ) - 1) * v) ∧ |v - r| ≤ 2 ^ (-(F.M:ℤ) - 1) * v + 2 ^ (F.qmin - 1) := by
  have key : ∀ k : ℤ, F.qmin ≤ k → v < 2 ^ (F.M + 1) * (2:ℝ) ^ k → |v - r| ≤ 2 ^ k / 2 := by
    intro k hk hlt
    have hk0 : (0:ℝ) < 2 ^ k := by positivity
    obtain ⟨n, hn⟩ : ∃ n : ℕ, n = ⌊v / 2 ^ k + 1 / 2⌋₊ := ⟨_, rfl⟩
    have h0 : 0 ≤ v / 2 ^ k := by positivity
    have h1 : (n:ℝ) ≤ v / 2 ^ k + 1 / 2 := by rw [hn]; exact Nat.floor_le (by linarith)
    have h2 : v / 2 ^ k + 1 / 2 < n + 1 := by rw [hn]; exact Nat.lt_floor_add_one _
    have h3 : v / 2 ^ k < 2 ^ (F.M + 1) := by rw [div_lt_iff₀ hk0]; exact hlt
    have h4 : n ≤ 2 ^ (F.M + 1) := by
      have : (n:ℝ) < ((2 ^ (F.M + 1) + 1 : ℕ) : ℝ) := by push_cast; linarith
      have : n < 2 ^ (F.M + 1) + 1 := by exact_mod_cast this
      omega
    have h5 := h.nearest _ (representable_mul (F := F) h4 hk)
    refine h5.trans ?_
    have e : v - n * 2 ^ k = (v / 2 ^ k - n) * 2 ^ k := by field_simp
    rw [e, abs_mul, abs_of_pos hk0]
    have : |v / 2 ^ k - n| ≤ 1 / 2 := by rw [abs_le]; constructor <;> linarith
    nlinarith
  have hlog : ∀ hv0 : 0 < v, F.qmin ≤ Int.log 2 v - F.M → |v - r| ≤ 2 ^ (-(F.M:ℤ) - 1) * v := by
    intro hv0 hq
    have h1 : (2:ℝ) ^ Int.log 2 v ≤ v := by simpa using Int.zpow_log_le_self (b := 2) (by norm_num) hv0
    have h2 : v < (2:ℝ) ^ (Int.log 2 v + 1) := by simpa using Int.lt_zpow_succ_log_self (b := 2) (by norm_num) v
    refine (key _ hq ?_).trans ?_
    · rw [← zpow_natCast, ← zpow_add₀ (by norm_num)]
      rwa [show ((F.M + 1 : ℕ) : ℤ) + (Int.log 2 v - F.M) = Int.log 2 v + 1 by push_cast; ring]
    · have e : (2:ℝ) ^ (Int.log 2 v - F.M) / 2 = 2 ^ (-(F.M:ℤ) - 1) * 2 ^ Int.log 2 v := by
        rw [← zpow_add₀ (by norm_num), show -(F.M:ℤ) - 1 + Int.log 2 v = Int.log 2 v - F.M - 1 by ring, zpow_sub_one₀ (by norm_num)]
        ring
      rw [e]
      exact mul_le_mul_of_nonneg_left h1 (by positivity)
  constructor
  · intro hm
    have hv0 : 0 < v := lt_of_lt_of_le (by positivity) hm
    refine hlog hv0 ?_
    have : F.emin ≤ Int.log 2 v := by
      rw [← Int.zpow_le_iff_le_log (by norm_num) hv0]; simpa using hm
    unfold Format.qmin; omega
  · rcases eq_or_lt_of_le hv with h0 | hv0
    · subst h0
      have := key F.qmin le_rfl (by positivity)
      rw [mul_zero, zero_add, zpow_sub_one₀ (by norm_num)]
      linarith
    · by_cases hq : F.qmin ≤ Int.log 2 v - F.M
      · have := hlog hv0 hq
        have : (0:ℝ) < 2 ^ (F.qmin - 1) := by positivity
        linarith
      · have h2 : v < (2:ℝ) ^ (Int.log 2 v + 1) := by simpa using Int.lt_zpow_succ_log_self (b := 2) (by norm_num) v
        have h3 : (2:ℝ) ^ (Int.log 2 v + 1) ≤ 2 ^ (F.M + 1) * 2 ^ F.qmin := by
          rw [← zpow_natCast, ← zpow_add₀ (by norm_num)]
          exact zpow_le_zpow_right₀ (by norm_num) (by push_cast; omega)
        have h4 := key F.qmin le_rfl (lt_of_lt_of_le h2 h3)
        have h5 : (2:ℝ) ^ (F.qmin - 1) = 2 ^ F.qmin / 2 := by rw [zpow_sub_one₀ (by norm_num)]; ring
        have : 0 ≤ (2:ℝ) ^ (-(F.M:ℤ) - 1) * v := by positivity
        linarith

theorem Rounds.abs_sub {e w : ℝ} (h : Rounds F e w) : |e - w| = |(|e| - |w|)| := by
  rcases le_total 0 e with h0 | h0
  · rw [abs_of_nonneg h0, abs_of_nonneg (h.pos h0)]
  · rw [abs_of_nonpos h0, abs_of_nonpos (h.neg h0), ← abs_neg]; congr 1; ring

/-- Relative error of rounding for normal results. -/
theorem Rounds.rel {e w : ℝ} (h : Rounds F e w) (he : 2 ^ F.emin ≤ |e|) : |e - w| ≤ 2 ^ (-(F.M:ℤ) - 1) * |e| := by
  rw [h.abs_sub]; exact (h.rne.err (abs_nonneg _)).1 he

/-- Error of rounding in general. -/
theorem Rounds.err {e w : ℝ} (h : Rounds F e w) : |e - w| ≤ 2 ^ (-(F.M:ℤ) - 1) * |e| + 2 ^ (F.qmin - 1) := by
  rw [h.abs_sub]; exact (h.rne.err (abs_nonneg _)).2

end Ieee
