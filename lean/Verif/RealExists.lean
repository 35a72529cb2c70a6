import Verif.RealErr
import Mathlib.Data.Int.Log

/-!
# Every real number has a rounding

So that the relations of `Verif.Spec.Real` are functions: existence here, uniqueness in `Ieee.Rounds.unique`.
-/

namespace Ieee

/-- The nearest natural number, ties to even. -/
theorem exists_nearest {x : ℝ} (hx : 0 ≤ x) : ∃ n : ℕ, |x - n| ≤ 1 / 2 ∧ (|x - n| = 1 / 2 → Even n) ∧ ∀ m : ℕ, x ≤ m → n ≤ m := by
  have h0 : 0 ≤ ⌊x⌋₊ := Nat.zero_le _
  have h1 := Nat.floor_le hx
  have h2 := Nat.lt_floor_add_one x
  set f := ⌊x⌋₊ with hf
  by_cases hl : x - f < 1 / 2 ∨ (x - f = 1 / 2 ∧ Even f)
  · refine ⟨f, ?_, ?_, ?_⟩
    · rw [abs_of_nonneg (by linarith)]
      rcases hl with h | h
      · linarith
      · linarith [h.1]
    · rw [abs_of_nonneg (by linarith)]
      intro e
      rcases hl with h | h
      · linarith
      · exact h.2
    · intro m hm
      exact_mod_cast h1.trans hm
  · push Not at hl
    refine ⟨f + 1, ?_, ?_, ?_⟩
    · push_cast
      rw [abs_of_nonpos (by linarith)]
      linarith [hl.1]
    · push_cast
      rw [abs_of_nonpos (by linarith)]
      intro e
      have h3 := hl.2 (by linarith)
      exact (Nat.not_even_iff_odd.1 h3).add_one
    · intro m hm
      by_contra hh
      have h4 : m ≤ f := by omega
      have h5 : (m:ℝ) ≤ f := by exact_mod_cast h4
      linarith [hl.1]

theorem exists_isRNE {F : Format} (hM : 1 ≤ F.M) {v : ℝ} (hv : 0 ≤ v) : ∃ r, 0 ≤ r ∧ IsRNE F v r := by
  rcases hv.eq_or_lt with h | hv'
  · refine ⟨0, le_rfl, ?_⟩
    rw [← h]
    have : Representable F 0 := ⟨0, F.qmin, by positivity, le_rfl, by simp⟩
    exact this.isRNE
  · have hb : 1 < 2 := by norm_num
    set l := Int.log 2 v with hl
    have h1 : (2:ℝ) ^ l ≤ v := by exact_mod_cast Int.zpow_log_le_self hb hv'
    have h2 : v < (2:ℝ) ^ (l + 1) := by exact_mod_cast Int.lt_zpow_succ_log_self hb v
    set k := max F.qmin (l - F.M) with hk
    have hP : (0:ℝ) < 2 ^ k := by positivity
    obtain ⟨n, hn1, hn2, hn3⟩ := exists_nearest (x := v / 2 ^ k) (by positivity)
    have e : |v - n * (2:ℝ) ^ k| = |v / 2 ^ k - n| * 2 ^ k := by
      rw [← abs_of_pos hP, ← abs_mul, abs_of_pos hP, sub_mul, div_mul_cancel₀ _ hP.ne']
    refine ⟨n * (2:ℝ) ^ k, by positivity, isRNE_of_quantum hM (le_max_left _ _) (hn3 _ ?_) ?_ ?_ ?_⟩
    · rw [div_le_iff₀ hP]
      push_cast
      rw [← zpow_natCast, ← zpow_add₀ (by norm_num)]
      refine h2.le.trans (zpow_le_zpow_right₀ (by norm_num) ?_)
      have := le_max_right F.qmin (l - F.M)
      push_cast
      omega
    · rw [e]; nlinarith
    · rw [e]
      intro h
      refine hn2 ?_
      have : |v / 2 ^ k - n| * 2 ^ k = 1 / 2 * 2 ^ k := by rw [h]; ring
      exact mul_right_cancel₀ hP.ne' this
    · rcases le_total (l - F.M) F.qmin with h | h
      · left; exact max_eq_left h
      · right
        rw [hk, max_eq_right h, ← zpow_natCast, ← zpow_add₀ (by norm_num)]
        simpa using h1

/-- Every real number has a rounding. -/
theorem exists_rounds {F : Format} (hM : 1 ≤ F.M) (e : ℝ) : ∃ w, Rounds F e w := by
  obtain ⟨r, h0, hr⟩ := exists_isRNE hM (abs_nonneg e)
  rcases le_total 0 e with h | h
  · refine ⟨r, by rwa [abs_of_nonneg h0], fun _ => h0, fun h' => ?_⟩
    have he : e = 0 := le_antisymm h' h
    rw [he, abs_zero] at hr
    have : Representable F 0 := ⟨0, F.qmin, by positivity, le_rfl, by simp⟩
    rw [hr.unique this.isRNE]
  · refine ⟨-r, by rwa [abs_neg, abs_of_nonneg h0], fun h' => ?_, fun _ => by linarith⟩
    have he : e = 0 := le_antisymm h h'
    rw [he, abs_zero] at hr
    have : Representable F 0 := ⟨0, F.qmin, by positivity, le_rfl, by simp⟩
    rw [hr.unique this.isRNE]; simp

end Ieee
