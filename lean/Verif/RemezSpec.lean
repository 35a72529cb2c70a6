import Mathlib.Topology.Algebra.Polynomial
import Mathlib.Topology.Order.IntermediateValue
import Mathlib.Analysis.SpecificLimits.Basic
import Mathlib.LinearAlgebra.Matrix.NonsingularInverse
import Mathlib.LinearAlgebra.Matrix.ToLinearEquiv
import Mathlib.Analysis.Convex.Function
import Mathlib.Analysis.Convex.Slope
import Verif.Remez

/-! Lemmas about the coefficient generator. -/

namespace ZkLoc.Remez
open Polynomial

/-! ### Bisection -/

/-- What a bisection from `low`, `high` delivers: the middle of a bracket of less than `ε`, inside the given one. -/
theorem bisectLoop_spec {f : ℝ → ℝ} {ε : ℝ} : ∀ {k : ℕ} {low high r : ℝ}, low ≠ high → bisectLoop f ε k low high = some r →
    ∃ a c, a ≠ c ∧ r = 1 / 2 * (a + c) ∧ |c - a| < ε ∧ a ∈ Set.uIcc low high ∧ c ∈ Set.uIcc low high ∧
      (f low < 0 → f a < 0) ∧ (0 ≤ f high → 0 ≤ f c)
  | 0, low, high, r, _, h => by simp [bisectLoop] at h
  | k + 1, low, high, r, hne, h => by
    rw [bisectLoop] at h
    have hm : 1 / 2 * (low + high) ∈ Set.uIcc low high := by
      rw [Set.mem_uIcc]
      rcases le_total low high with h1 | h1
      · left; constructor <;> linarith
      · right; constructor <;> linarith
    have hl : low ∈ Set.uIcc low high := Set.left_mem_uIcc
    have hh : high ∈ Set.uIcc low high := Set.right_mem_uIcc
    by_cases hf : f (1 / 2 * (low + high)) < 0
    · simp only [hf, if_true] at h
      have hne' : 1 / 2 * (low + high) ≠ high := fun e => hne (by linarith)
      split_ifs at h with h1
      · cases h
        exact ⟨_, high, hne', by ring, h1, hm, hh, fun _ => hf, id⟩
      · obtain ⟨a, c, h2, h3, h4, h5, h6, h7, h8⟩ := bisectLoop_spec hne' h
        have hs : Set.uIcc (1 / 2 * (low + high)) high ⊆ Set.uIcc low high := Set.uIcc_subset_uIcc hm hh
        exact ⟨a, c, h2, h3, h4, hs h5, hs h6, fun _ => h7 hf, h8⟩
    · simp only [hf, if_false] at h
      have hne' : low ≠ 1 / 2 * (low + high) := fun e => hne (by linarith)
      split_ifs at h with h1
      · cases h
        exact ⟨low, _, hne', by ring, h1, hl, hm, id, fun _ => not_lt.1 hf⟩
      · obtain ⟨a, c, h2, h3, h4, h5, h6, h7, h8⟩ := bisectLoop_spec hne' h
        have hs : Set.uIcc low (1 / 2 * (low + high)) ⊆ Set.uIcc low high := Set.uIcc_subset_uIcc hl hm
        exact ⟨a, c, h2, h3, h4, hs h5, hs h6, h7, fun _ => h8 (not_lt.1 hf)⟩

theorem bisectLoop_terminates {f : ℝ → ℝ} {ε : ℝ} : ∀ (k : ℕ) (low high : ℝ), |high - low| < ε * 2 ^ (k + 1) →
    ∃ r, ∀ m, k < m → bisectLoop f ε m low high = some r := by
  intro k
  induction k with
  | zero =>
    intro low high h
    refine ⟨1 / 2 * ((if f (1 / 2 * (low + high)) < 0 then high else 1 / 2 * (low + high)) + (if f (1 / 2 * (low + high)) < 0 then 1 / 2 * (low + high) else low)), ?_⟩
    intro m hm
    obtain ⟨m, rfl⟩ := Nat.exists_eq_succ_of_ne_zero (by omega : m ≠ 0)
    rw [Nat.succ_eq_add_one, bisectLoop]
    have key : |(if f (1 / 2 * (low + high)) < 0 then high else 1 / 2 * (low + high)) - (if f (1 / 2 * (low + high)) < 0 then 1 / 2 * (low + high) else low)| < ε := by
      have e : ((if f (1 / 2 * (low + high)) < 0 then high else 1 / 2 * (low + high)) - (if f (1 / 2 * (low + high)) < 0 then 1 / 2 * (low + high) else low)) =
          1 / 2 * (high - low) := by split_ifs <;> ring
      rw [e, abs_mul, abs_of_pos (by norm_num : (0:ℝ) < 1 / 2)]
      rw [zero_add, pow_one] at h
      linarith
    rw [if_pos key]
  | succ k ih =>
    intro low high h
    by_cases key : |(if f (1 / 2 * (low + high)) < 0 then high else 1 / 2 * (low + high)) - (if f (1 / 2 * (low + high)) < 0 then 1 / 2 * (low + high) else low)| < ε
    · refine ⟨1 / 2 * ((if f (1 / 2 * (low + high)) < 0 then high else 1 / 2 * (low + high)) + (if f (1 / 2 * (low + high)) < 0 then 1 / 2 * (low + high) else low)), fun m hm => ?_⟩
      obtain ⟨m, rfl⟩ := Nat.exists_eq_succ_of_ne_zero (by omega : m ≠ 0)
      rw [Nat.succ_eq_add_one, bisectLoop]
      rw [if_pos key]
    · obtain ⟨r, hr⟩ := ih (if f (1 / 2 * (low + high)) < 0 then 1 / 2 * (low + high) else low) (if f (1 / 2 * (low + high)) < 0 then high else 1 / 2 * (low + high)) (by
        have e : ((if f (1 / 2 * (low + high)) < 0 then high else 1 / 2 * (low + high)) - (if f (1 / 2 * (low + high)) < 0 then 1 / 2 * (low + high) else low)) =
          1 / 2 * (high - low) := by split_ifs <;> ring
        rw [e, abs_mul, abs_of_pos (by norm_num : (0:ℝ) < 1 / 2)]
        rw [pow_succ] at h
        linarith)
      refine ⟨r, fun m hm => ?_⟩
      obtain ⟨m, rfl⟩ := Nat.exists_eq_succ_of_ne_zero (by omega : m ≠ 0)
      rw [Nat.succ_eq_add_one, bisectLoop]
      rw [if_neg key]
      exact hr m (by omega)

/-- The search ends. -/
theorem bisection_ends (f : ℝ → ℝ) (low high : ℝ) : ∃ r k, ∀ m, k < m → bisectionSearch f m low high = some r := by
  have pow : ∃ k : ℕ, |high - low| < eps * 2 ^ (k + 1) := by
    obtain ⟨k, hk⟩ := pow_unbounded_of_one_lt (|high - low| / eps) (by norm_num : (1:ℝ) < 2)
    have he : 0 < eps := by unfold eps; positivity
    refine ⟨k, ?_⟩
    rw [div_lt_iff₀ he] at hk
    rw [pow_succ]
    nlinarith [pow_pos (by norm_num : (0:ℝ) < 2) k]
  obtain ⟨k, hk⟩ := pow
  unfold bisectionSearch
  split_ifs with h
  · obtain ⟨r, hr⟩ := bisectLoop_terminates (f := f) k high low (by rwa [abs_sub_comm])
    exact ⟨r, k, hr⟩
  · obtain ⟨r, hr⟩ := bisectLoop_terminates (f := f) k low high hk
    exact ⟨r, k, hr⟩

/-- The result lies strictly between the given ends. -/
theorem bisection_between {f : ℝ → ℝ} {k : ℕ} {low high r : ℝ} (hlt : high < low) (h : bisectionSearch f k low high = some r) : high < r ∧ r < low := by
  have key : ∀ u v : ℝ, u ≠ v → Set.uIcc u v = Set.Icc high low → bisectLoop f eps k u v = some r → high < r ∧ r < low := by
    intro u v hne hs hb
    obtain ⟨a, c, h1, rfl, -, h3, h4, -⟩ := bisectLoop_spec hne hb
    rw [hs, Set.mem_Icc] at h3 h4
    rcases lt_or_gt_of_ne h1 with h1 | h1 <;> constructor <;> linarith [h3.1, h3.2, h4.1, h4.2]
  unfold bisectionSearch at h
  split_ifs at h
  · exact key high low hlt.ne (Set.uIcc_of_le hlt.le) h
  · exact key low high hlt.ne' (Set.uIcc_of_ge hlt.le) h

/-- If the function is continuous and negative at one end only, the result is nearer than half the tolerance to a zero. -/
theorem bisection_zero {f : ℝ → ℝ} {k : ℕ} {low high r : ℝ} (hne : low ≠ high) (hc : ContinuousOn f (Set.uIcc low high)) (hs : f low * f high < 0)
    (h : bisectionSearch f k low high = some r) : ∃ z ∈ Set.uIcc low high, f z = 0 ∧ |r - z| < eps / 2 := by
  have key : ∀ u v : ℝ, u ≠ v → Set.uIcc u v = Set.uIcc low high → f u < 0 → 0 ≤ f v → bisectLoop f eps k u v = some r →
      ∃ z ∈ Set.uIcc low high, f z = 0 ∧ |r - z| < eps / 2 := by
    intro u v hne hs h1 h2 hb
    obtain ⟨a, c, h3, rfl, h4, h5, h6, h7, h8⟩ := bisectLoop_spec hne hb
    have hsub : Set.uIcc a c ⊆ Set.uIcc low high := by rw [← hs]; exact Set.uIcc_subset_uIcc h5 h6
    have hz : (0:ℝ) ∈ f '' Set.uIcc a c := by
      apply intermediate_value_uIcc (hc.mono hsub)
      rw [Set.mem_uIcc]; exact Or.inl ⟨(h7 h1).le, h8 h2⟩
    obtain ⟨z, hz, hz0⟩ := hz
    refine ⟨z, hsub hz, hz0, ?_⟩
    rw [Set.mem_uIcc] at hz
    rw [abs_lt] at h4 ⊢
    rcases hz with hz | hz <;> constructor <;> linarith [hz.1, hz.2, h4.1, h4.2]
  unfold bisectionSearch at h
  split_ifs at h with h1
  · refine key high low hne.symm (Set.uIcc_comm _ _) ?_ ?_ h <;> rcases mul_neg_iff.1 hs with ⟨a, c⟩ | ⟨a, c⟩ <;> linarith
  · refine key low high hne rfl ?_ ?_ h <;> rcases mul_neg_iff.1 hs with ⟨a, c⟩ | ⟨a, c⟩ <;> linarith

/-! ### Alternation -/

/-- A polynomial that changes sign between `n + 2` successive points has degree more than `n`. -/
theorem not_alternating {n : ℕ} {g : ℝ[X]} (hg : g.natDegree ≤ n) {x : Fin (n + 2) → ℝ} (hx : StrictAnti x)
    (h : ∀ i : Fin (n + 1), g.eval (x i.castSucc) * g.eval (x i.succ) < 0) : False := by
  have hz : ∀ i : Fin (n + 1), ∃ z, x i.succ < z ∧ z < x i.castSucc ∧ g.eval z = 0 := by
    intro i
    have hlt : x i.succ < x i.castSucc := hx Fin.castSucc_lt_succ
    have : (0:ℝ) ∈ (fun y => g.eval y) '' Set.Icc (x i.succ) (x i.castSucc) := by
      have hsub := intermediate_value_uIcc (a := x i.succ) (b := x i.castSucc) (g.continuous.continuousOn)
      rw [Set.uIcc_of_le hlt.le] at hsub
      apply hsub
      rw [Set.mem_uIcc]
      rcases mul_neg_iff.1 (h i) with ⟨a, c⟩ | ⟨a, c⟩
      · exact Or.inl ⟨c.le, a.le⟩
      · exact Or.inr ⟨a.le, c.le⟩
    obtain ⟨z, hz, hz0⟩ := this
    refine ⟨z, lt_of_le_of_ne hz.1 ?_, lt_of_le_of_ne hz.2 ?_, hz0⟩ <;> rintro rfl <;> have := h i <;> simp only at hz0 <;> rw [hz0] at this <;> simp at this
  choose z hz using hz
  have hinj : Function.Injective z := by
    have : StrictAnti z := by
      intro i j hij
      have : x j.castSucc ≤ x i.succ := hx.antitone (by rw [Fin.le_def]; simp only [Fin.val_succ, Fin.val_castSucc]; exact hij)
      linarith [(hz i).1, (hz j).2.1]
    exact this.injective
  have := eq_zero_of_natDegree_lt_card_of_eval_eq_zero g hinj (fun i => (hz i).2.2) (by rw [Fintype.card_fin]; omega)
  subst this
  have := h 0
  simp at this

theorem chebPoly_natDegree {n : ℕ} (c : Fin (n + 1) → ℝ) : (chebPoly c).natDegree ≤ n := by
  unfold chebPoly
  refine natDegree_sum_le_of_forall_le _ _ fun j _ => le_trans (natDegree_C_mul_le _ _) ?_
  rw [Chebyshev.natDegree_T]
  simp; omega

theorem chebval_eq {n : ℕ} (c : Fin (n + 1) → ℝ) (x : ℝ) : chebval c x = (chebPoly c).eval x := by
  unfold chebval chebPoly
  rw [eval_finset_sum]
  simp

/-- The Chebyshev coefficients are determined by the polynomial. -/
theorem chebPoly_injective {n : ℕ} (c : Fin (n + 1) → ℝ) (h : chebPoly c = 0) : c = 0 := by
  by_contra hne
  obtain ⟨j0, hj0⟩ : ∃ j, c j ≠ 0 := by by_contra hh; push Not at hh; exact hne (funext hh)
  obtain ⟨j, hj, hmax⟩ := Finset.exists_max_image (Finset.univ.filter fun j => c j ≠ 0) (fun j => (j : ℕ)) ⟨j0, by simp [hj0]⟩
  have hcj : c j ≠ 0 := by simpa using hj
  have hco : (chebPoly c).coeff j = c j * (Chebyshev.T ℝ (j : ℤ)).coeff j := by
    unfold chebPoly
    rw [finset_sum_coeff, Finset.sum_eq_single j]
    · rw [coeff_C_mul]
    · intro i _ hij
      rw [coeff_C_mul]
      by_cases hci : c i = 0
      · rw [hci, zero_mul]
      · have hle := hmax i (by simp [hci])
        have : (i : ℕ) < j := lt_of_le_of_ne hle fun e => hij (Fin.ext e)
        rw [coeff_eq_zero_of_natDegree_lt, mul_zero]
        rw [Chebyshev.natDegree_T]; simpa using this
    · simp
  rw [h, coeff_zero] at hco
  have hlead : (Chebyshev.T ℝ (j : ℤ)).coeff j ≠ 0 := by
    have hd : (Chebyshev.T ℝ (j : ℤ)).natDegree = j := by rw [Chebyshev.natDegree_T]; simp
    have : (Chebyshev.T ℝ (j : ℤ)).leadingCoeff ≠ 0 := by
      rw [leadingCoeff_ne_zero]
      intro h0
      have := Chebyshev.degree_T ℝ (j : ℤ)
      rw [h0, degree_zero] at this
      simp at this
    rw [leadingCoeff, hd] at this
    exact this
  exact (mul_ne_zero hcj hlead) hco.symm

theorem mulVec_matrixA {n : ℕ} (x l : Fin (n + 2) → ℝ) (i : Fin (n + 2)) :
    (matrixA n x).mulVec l i = chebval (coeffs l) (x i) + (-1) ^ ((i : ℕ) + 1) * l (Fin.last _) := by
  unfold Matrix.mulVec dotProduct matrixA chebval coeffs
  rw [Fin.sum_univ_castSucc]
  congr 1
  · refine Finset.sum_congr rfl fun j _ => ?_
    simp only [Fin.val_castSucc, j.isLt, if_true]
    ring
  · simp

/-- The residual alternates between the two signs of the levelled error. -/
theorem residual_points {n : ℕ} {f : ℝ → ℝ} {x l : Fin (n + 2) → ℝ} (h : Solves n f x l) (i : Fin (n + 2)) :
    residual f l (x i) = (-1) ^ ((i : ℕ) + 1) * l (Fin.last _) := by
  have := congrFun h i
  rw [mulVec_matrixA] at this
  unfold residual
  rw [← this]
  ring

theorem matrixA_injective {n : ℕ} {x : Fin (n + 2) → ℝ} (hx : StrictAnti x) {l : Fin (n + 2) → ℝ} (h : (matrixA n x).mulVec l = 0) : l = 0 := by
  have h1 : ∀ i, (chebPoly (coeffs l)).eval (x i) = -((-1) ^ ((i : ℕ) + 1) * l (Fin.last _)) := by
    intro i
    have := congrFun h i
    rw [mulVec_matrixA, chebval_eq, Pi.zero_apply] at this
    linarith
  have hE : l (Fin.last _) = 0 := by
    by_contra hE
    apply not_alternating (chebPoly_natDegree (coeffs l)) hx
    intro i
    rw [h1, h1]
    simp only [Fin.val_castSucc, Fin.val_succ]
    have : (-1:ℝ) ^ ((i:ℕ) + 1) * (-1) ^ ((i:ℕ) + 1 + 1) = -1 := by
      rw [pow_succ (-1 : ℝ) ((i:ℕ) + 1), ← mul_assoc, ← mul_pow]; norm_num
    have hp : 0 < l (Fin.last (n + 1)) * l (Fin.last (n + 1)) := mul_self_pos.2 hE
    nlinarith
  have h0 : chebPoly (coeffs l) = 0 :=
    eq_zero_of_natDegree_lt_card_of_eval_eq_zero _ hx.injective (fun i => by rw [h1, hE]; simp) (by
      rw [Fintype.card_fin]; have := chebPoly_natDegree (coeffs l); omega)
  have hc := chebPoly_injective _ h0
  funext i
  refine Fin.lastCases ?_ (fun j => ?_) i
  · exact hE
  · exact congrFun hc j

/-- De la Vallée-Poussin: if a polynomial misses the function with alternating signs by at least `δ` at `n + 2` points, so does every polynomial at one of them. -/
theorem alternation_lower_bound {n : ℕ} {f : ℝ → ℝ} {q s : ℝ[X]} (hq : q.natDegree ≤ n) (hs : s.natDegree ≤ n) {x : Fin (n + 2) → ℝ} (hx : StrictAnti x) {δ : ℝ}
    (hδ : ∀ i, δ ≤ |f (x i) - q.eval (x i)|)
    (halt : ∀ i : Fin (n + 1), (f (x i.castSucc) - q.eval (x i.castSucc)) * (f (x i.succ) - q.eval (x i.succ)) < 0) :
    ∃ i, δ ≤ |f (x i) - s.eval (x i)| := by
  by_contra hcon
  push Not at hcon
  have hsign : ∀ i, 0 < (s - q).eval (x i) * (f (x i) - q.eval (x i)) := by
    intro i
    have h1 := hδ i
    have h2 := hcon i
    rw [eval_sub]
    rw [abs_lt] at h2
    rcases le_total 0 (f (x i) - q.eval (x i)) with h3 | h3
    · rw [abs_of_nonneg h3] at h1
      have : 0 < s.eval (x i) - q.eval (x i) := by linarith
      have : 0 < f (x i) - q.eval (x i) := by
        rcases h3.lt_or_eq with h | h
        · exact h
        · linarith
      positivity
    · rw [abs_of_nonpos h3] at h1
      have h4 : s.eval (x i) - q.eval (x i) < 0 := by linarith
      have h5 : f (x i) - q.eval (x i) < 0 := by
        rcases h3.lt_or_eq with h | h
        · exact h
        · linarith
      exact mul_pos_of_neg_of_neg h4 h5
  refine not_alternating (g := s - q) (le_trans (natDegree_sub_le _ _) (max_le hs hq)) hx fun i => ?_
  have h1 := hsign i.castSucc
  have h2 := hsign i.succ
  have h3 := halt i
  by_contra h4
  push Not at h4
  nlinarith [mul_pos h1 h2]

end ZkLoc.Remez
