import Mathlib.Analysis.SpecialFunctions.Trigonometric.Arctan
import Mathlib.Topology.Order.Compact
import Mathlib.Analysis.Convex.Mul
import Mathlib.Tactic.FinCases
import Mathlib.Analysis.SpecialFunctions.Trigonometric.Chebyshev.Basic
import Verif.RemezSpec

/-!
# Property C68: the generator of the arc tangent coefficients

In exact arithmetic `remez` always ends with one result, its reference points stay ordered, the linear system always has one solution, and the levelled error of every
round bounds from below the error of every polynomial of the degree. The number printed as "Maximum Error" is the mean of the errors at the extremums.
-/

namespace ZkLoc.Remez
open Polynomial

/-! ### The searches -/

theorem bisectLoop_mono {f : ℝ → ℝ} {ε : ℝ} : ∀ {k m : ℕ} {low high r : ℝ}, k ≤ m → bisectLoop f ε k low high = some r → bisectLoop f ε m low high = some r
  | 0, _, low, high, r, _, h => by simp [bisectLoop] at h
  | k + 1, m, low, high, r, hm, h => by
    obtain ⟨m, rfl⟩ := Nat.exists_eq_succ_of_ne_zero (by omega : m ≠ 0)
    rw [bisectLoop] at h
    rw [Nat.succ_eq_add_one, bisectLoop]
    split_ifs at h ⊢ with h1 h2 h2
    · exact h
    · exact bisectLoop_mono (by omega) h
    · exact h
    · exact bisectLoop_mono (by omega) h

/-- **C68** `bisection_search` ends, with one result; it lies strictly between the ends; if the function is continuous and changes sign, the result is within
half of `10^-25` of a zero. -/
theorem C68_bisection (f : ℝ → ℝ) {low high : ℝ} (hlt : high < low) :
    (∃! r, ∃ fuel, bisectionSearch f fuel low high = some r) ∧
    (∀ fuel r, bisectionSearch f fuel low high = some r → high < r ∧ r < low ∧
      (ContinuousOn f (Set.Icc high low) → f low * f high < 0 → ∃ z ∈ Set.Icc high low, f z = 0 ∧ |r - z| < 1 / 2 / 10 ^ 25)) := by
  constructor
  · obtain ⟨r, k, h⟩ := bisection_ends f low high
    refine ⟨r, ⟨k + 1, h _ (by omega)⟩, ?_⟩
    rintro r' ⟨m, hm⟩
    have h1 : bisectionSearch f (max m (k + 1)) low high = some r' := by
      unfold bisectionSearch at hm ⊢
      split_ifs at hm ⊢ <;> exact bisectLoop_mono (le_max_left _ _) hm
    rw [h _ (by omega)] at h1
    exact (Option.some.inj h1).symm
  · intro fuel r h
    obtain ⟨h1, h2⟩ := bisection_between hlt h
    refine ⟨h1, h2, fun hc hs => ?_⟩
    rw [← Set.uIcc_of_ge hlt.le] at hc
    obtain ⟨z, hz, h3, h4⟩ := bisection_zero hlt.ne' hc hs h
    rw [Set.uIcc_of_ge hlt.le] at hz
    refine ⟨z, hz, h3, ?_⟩
    unfold eps at h4
    linarith

theorem search_unique {f : ℝ → ℝ} {k m : ℕ} {low high r r' : ℝ} (h : bisectionSearch f k low high = some r) (h' : bisectionSearch f m low high = some r') : r = r' := by
  unfold bisectionSearch at h h'
  split_ifs at h h' with h1
  · have a := bisectLoop_mono (le_max_left k m) h
    rw [bisectLoop_mono (le_max_right k m) h'] at a
    exact (Option.some.inj a).symm
  · have a := bisectLoop_mono (le_max_left k m) h
    rw [bisectLoop_mono (le_max_right k m) h'] at a
    exact (Option.some.inj a).symm

theorem concave_max_between {f : ℝ → ℝ} {S : Set ℝ} (hf : ConcaveOn ℝ S f) {a c : ℝ} (hac : a < c) (ha : a ∈ S) (hc : c ∈ S) (hcont : ContinuousOn f (Set.Icc a c)) (he : f a = f c) :
    ∃ m ∈ Set.Icc a c, ∀ y ∈ S, f y ≤ f m := by
  obtain ⟨m, hm, hmax⟩ := isCompact_Icc.exists_isMaxOn (Set.nonempty_Icc.2 hac.le) hcont
  refine ⟨m, hm, fun y hy => ?_⟩
  have hma : f a ≤ f m := hmax (Set.left_mem_Icc.2 hac.le)
  rcases lt_or_ge y a with h1 | h1
  · have := hf.slope_anti_adjacent hy hc h1 hac
    rw [he, sub_self, zero_div] at this
    have h2 : 0 < a - y := by linarith
    rw [le_div_iff₀ h2] at this
    linarith
  · rcases lt_or_ge c y with h2 | h2
    · have := hf.slope_anti_adjacent ha hy hac h2
      rw [he, sub_self, zero_div] at this
      have h3 : 0 < y - c := by linarith
      rw [div_le_iff₀ h3] at this
      linarith
    · exact hmax ⟨h1, h2⟩

/-- **C68** `concave_max` on an interval where the function is concave (or convex) and the difference quotient changes sign: the result is within
`10^-25 / 2` and the step of the greatest (least) value. -/
theorem C68_concave_max {f : ℝ → ℝ} {low high r : ℝ} {fuel : ℕ} (hlt : high < low) (h : concaveMax f fuel low high = some r)
    (hc : ContinuousOn f (Set.Icc (high - (low - high)) (low + (low - high))))
    (hs : (f (low + stepOf low high) - f (low - stepOf low high)) * (f (high + stepOf low high) - f (high - stepOf low high)) < 0) :
    (ConcaveOn ℝ (Set.Icc (high - (low - high)) (low + (low - high))) f → ∃ m, |r - m| < 1 / 2 / 10 ^ 25 + (low - high) / 10 ^ 34 ∧ ∀ y ∈ Set.Icc high low, f y ≤ f m) ∧
    (ConvexOn ℝ (Set.Icc (high - (low - high)) (low + (low - high))) f → ∃ m, |r - m| < 1 / 2 / 10 ^ 25 + (low - high) / 10 ^ 34 ∧ ∀ y ∈ Set.Icc high low, f m ≤ f y) := by
  have hst : stepOf low high = -((low - high) / 10 ^ 34) := by unfold stepOf; ring
  set d := (low - high) / 10 ^ 34 with hd
  have hdpos : 0 < d := by rw [hd]; exact div_pos (by linarith) (by positivity)
  have hdle : d ≤ (low - high) := by
    rw [hd]; exact div_le_self (by linarith) (by norm_num)
  have hin : ∀ {z : ℝ}, z ∈ Set.Icc high low → z - d ∈ Set.Icc (high - (low - high)) (low + (low - high)) ∧ z + d ∈ Set.Icc (high - (low - high)) (low + (low - high)) := by
    intro z hz
    rw [Set.mem_Icc] at hz
    constructor <;> rw [Set.mem_Icc] <;> constructor <;> linarith [hz.1, hz.2]
  unfold concaveMax at h
  rw [hst] at h hs
  have key : ∃ z ∈ Set.Icc high low, f (z - d) = f (z + d) ∧ |r - z| < 1 / 2 / 10 ^ 25 := by
    obtain ⟨z, hz, h0, h1⟩ := ((C68_bisection _ hlt).2 _ _ h).2.2 (by
      apply ContinuousOn.div_const
      apply ContinuousOn.sub
      · exact hc.comp (by fun_prop) fun z hz => by simpa [sub_eq_add_neg] using (hin hz).1
      · exact hc.comp (by fun_prop) fun z hz => by simpa using (hin hz).2) (by
      have h2 : 0 < 1 / (2 * -d) * (1 / (2 * -d)) := by
        apply mul_self_pos.2; exact one_div_ne_zero (by linarith)
      calc _ = ((f (low + -d) - f (low - -d)) * (f (high + -d) - f (high - -d))) * (1 / (2 * -d) * (1 / (2 * -d))) := by ring
        _ < 0 := mul_neg_of_neg_of_pos hs h2)
    refine ⟨z, hz, ?_, h1⟩
    rw [div_eq_zero_iff] at h0
    rcases h0 with h0 | h0
    · rw [sub_neg_eq_add, ← sub_eq_add_neg] at h0; linarith
    · linarith
  obtain ⟨z, hz, hzz, hr⟩ := key
  have hcd : ContinuousOn f (Set.Icc (z - d) (z + d)) := hc.mono (Set.Icc_subset_Icc (hin hz).1.1 (hin hz).2.2)
  have hsub : ∀ y ∈ Set.Icc high low, y ∈ Set.Icc (high - (low - high)) (low + (low - high)) := fun y hy => by
    rw [Set.mem_Icc] at hy ⊢; constructor <;> linarith [hy.1, hy.2]
  have near : ∀ m ∈ Set.Icc (z - d) (z + d), |r - m| < 1 / 2 / 10 ^ 25 + d := by
    intro m hm
    rw [Set.mem_Icc] at hm
    have : |z - m| ≤ d := by rw [abs_le]; constructor <;> linarith [hm.1, hm.2]
    calc |r - m| = |(r - z) + (z - m)| := by ring_nf
      _ ≤ |r - z| + |z - m| := abs_add_le _ _
      _ < _ := by linarith
  constructor
  · intro hf
    obtain ⟨m, hm, hmax⟩ := concave_max_between hf (by linarith : z - d < z + d) (hin hz).1 (hin hz).2 hcd hzz
    exact ⟨m, near m hm, fun y hy => hmax y (hsub y hy)⟩
  · intro hf
    obtain ⟨m, hm, hmax⟩ := concave_max_between hf.neg (by linarith : z - d < z + d) (hin hz).1 (hin hz).2 hcd.neg (by simp [hzz])
    exact ⟨m, near m hm, fun y hy => by simpa using hmax y (hsub y hy)⟩

/-! ### The points -/

/-- Reference points: strictly decreasing, inside the interval. -/
def Ordered {n : ℕ} (lower upper : ℝ) (x : Fin (n + 2) → ℝ) : Prop := StrictAnti x ∧ ∀ i, x i ∈ Set.Icc lower upper

/-- **C68** The first points are the zeros of the Chebyshev polynomial on the interval: ordered, and inside. -/
theorem C68_chebyshev_points (n : ℕ) {lower upper : ℝ} (h : lower < upper) :
    Ordered lower upper (fun i : Fin (n + 2) => chevPoints (n + 2) lower upper i) ∧
    ∀ i : Fin (n + 2), (Chebyshev.T ℝ ((n + 2 : ℕ) : ℤ)).eval ((2 * chevPoints (n + 2) lower upper i - (upper + lower)) / (upper - lower)) = 0 := by
  have hpos : 0 < upper - lower := by linarith
  have hn : (0:ℝ) < 2 * ((n + 2 : ℕ) : ℝ) := by positivity
  have ang : ∀ i : Fin (n + 2), 0 ≤ (2 * ((i : ℕ) : ℝ) + 2 - 1) / (2 * ((n + 2 : ℕ) : ℝ)) ∧ (2 * ((i : ℕ) : ℝ) + 2 - 1) / (2 * ((n + 2 : ℕ) : ℝ)) ≤ 1 := by
    intro i
    have h1 : ((i : ℕ) : ℝ) + 1 ≤ ((n + 2 : ℕ) : ℝ) := by exact_mod_cast i.isLt
    have h0 : (0:ℝ) ≤ ((i : ℕ) : ℝ) := Nat.cast_nonneg _
    constructor
    · apply div_nonneg <;> linarith
    · rw [div_le_one hn]; linarith
  have e : ∀ i : Fin (n + 2), chevPoints (n + 2) lower upper i =
      (1 / 2 * (Real.cos ((2 * ((i : ℕ) : ℝ) + 2 - 1) / (2 * ((n + 2 : ℕ) : ℝ)) * Real.pi) + 1)) * (upper - lower) + lower := by
    intro i; unfold chevPoints; rw [abs_of_pos hpos, mul_add 2, mul_one]
  refine ⟨⟨fun i j hij => ?_, fun i => ?_⟩, fun i => ?_⟩
  · simp only [e]
    have hc := Real.strictAntiOn_cos (a := (2 * ((i : ℕ) : ℝ) + 2 - 1) / (2 * ((n + 2 : ℕ) : ℝ)) * Real.pi) ⟨mul_nonneg (ang i).1 Real.pi_pos.le, by nlinarith [(ang i).2, Real.pi_pos]⟩
      (b := (2 * ((j : ℕ) : ℝ) + 2 - 1) / (2 * ((n + 2 : ℕ) : ℝ)) * Real.pi) ⟨mul_nonneg (ang j).1 Real.pi_pos.le, by nlinarith [(ang j).2, Real.pi_pos]⟩ (by
        apply mul_lt_mul_of_pos_right _ Real.pi_pos
        apply div_lt_div_of_pos_right _ hn
        have : ((i : ℕ) : ℝ) < ((j : ℕ) : ℝ) := by exact_mod_cast hij
        linarith)
    nlinarith
  · simp only [e, Set.mem_Icc]
    have h1 := Real.neg_one_le_cos ((2 * ((i : ℕ) : ℝ) + 2 - 1) / (2 * ((n + 2 : ℕ) : ℝ)) * Real.pi)
    have h2 := Real.cos_le_one ((2 * ((i : ℕ) : ℝ) + 2 - 1) / (2 * ((n + 2 : ℕ) : ℝ)) * Real.pi)
    constructor <;> nlinarith
  · have : (2 * chevPoints (n + 2) lower upper i - (upper + lower)) / (upper - lower) = Real.cos ((2 * ((i : ℕ) : ℝ) + 2 - 1) / (2 * ((n + 2 : ℕ) : ℝ)) * Real.pi) := by
      rw [e, div_eq_iff hpos.ne']; ring
    rw [this, Chebyshev.T_real_cos]
    rw [Real.cos_eq_zero_iff]
    refine ⟨(i : ℕ), ?_⟩
    push_cast
    have : ((n:ℝ) + 2) ≠ 0 := by positivity
    field_simp
    ring

/-- The points between the extremums are ordered. -/
theorem intervals_ordered {n : ℕ} {r : ℝ → ℝ} {lower upper : ℝ} {x : Fin (n + 2) → ℝ} {t : Fin (n + 3) → ℝ} (hx : Ordered lower upper x)
    (h : Intervals n r lower upper x t) : (∀ i : Fin (n + 2), x i ≤ t i.castSucc ∧ t i.succ ≤ x i) ∧ ∀ i : Fin (n + 2), t i.succ < t i.castSucc := by
  obtain ⟨h0, h1, h2⟩ := h
  have hb : ∀ i : Fin (n + 1), x i.succ < t i.succ.castSucc ∧ t i.succ.castSucc < x i.castSucc := by
    intro i
    obtain ⟨fuel, hf⟩ := h2 i
    exact bisection_between (hx.1 Fin.castSucc_lt_succ) hf
  have hle : ∀ i : Fin (n + 2), x i ≤ t i.castSucc := by
    intro i
    refine Fin.cases ?_ (fun j => ?_) i
    · rw [Fin.castSucc_zero, h0]; exact (hx.2 0).2
    · exact (hb j).1.le
  have hge : ∀ i : Fin (n + 2), t i.succ ≤ x i := by
    intro i
    refine Fin.lastCases ?_ (fun j => ?_) i
    · rw [Fin.succ_last, h1]; exact (hx.2 _).1
    · rw [Fin.succ_castSucc]; exact (hb j).2.le
  refine ⟨fun i => ⟨hle i, hge i⟩, fun i => ?_⟩
  refine Fin.cases ?_ (fun j => ?_) i
  · have h3 : t (0 : Fin (n + 2)).succ < x 0 := by
      have := (hb 0).2
      rwa [← Fin.succ_castSucc, Fin.castSucc_zero] at this
    exact lt_of_lt_of_le h3 (hle 0)
  · exact lt_of_le_of_lt (hge j.succ) (hb j).1

/-- **C68** After every round the points are again ordered and inside the interval, with the ends first and last. -/
theorem C68_round_ordered {f : ℝ → ℝ} {n : ℕ} {lower upper : ℝ} {x l e : Fin (n + 2) → ℝ} (hx : Ordered lower upper x) (h : Round f n lower upper x l e) :
    Ordered lower upper e ∧ e 0 = upper ∧ e (Fin.last _) = lower := by
  obtain ⟨-, t, ht, he0, he1, he⟩ := h
  obtain ⟨hxt, hlt⟩ := intervals_ordered hx ht
  have hb : ∀ i : Fin (n + 2), t i.succ ≤ e i ∧ e i ≤ t i.castSucc ∧ (i ≠ 0 → e i < t i.castSucc) := by
    intro i
    by_cases h0 : i = 0
    · subst h0
      rw [he0, Fin.castSucc_zero, ht.1]
      refine ⟨?_, le_rfl, fun h => absurd rfl h⟩
      have := (hlt 0).le; rw [Fin.castSucc_zero, ht.1] at this; exact this
    · by_cases h1 : i = Fin.last _
      · subst h1
        rw [he1, Fin.succ_last, ht.2.1]
        have := hlt (Fin.last _)
        rw [Fin.succ_last, ht.2.1] at this
        exact ⟨le_rfl, this.le, fun _ => this⟩
      · obtain ⟨fuel, hf⟩ := he i h0 h1
        have := bisection_between (hlt i) hf
        exact ⟨this.1.le, this.2.le, fun _ => this.2⟩
  have hanti : StrictAnti e := by
    rw [Fin.strictAnti_iff_succ_lt]
    intro i
    have h1 := (hb i.succ).2.2 (Fin.succ_ne_zero i)
    have h2 := (hb i.castSucc).1
    rw [Fin.succ_castSucc] at h2
    exact lt_of_lt_of_le h1 h2
  refine ⟨⟨hanti, fun i => ?_⟩, he0, he1⟩
  rw [Set.mem_Icc, ← he0, ← he1]
  exact ⟨hanti.antitone (Fin.le_last i), hanti.antitone (Fin.zero_le i)⟩

/-! ### The system -/

/-- **C68** The linear system of a round has exactly one solution. -/
theorem C68_system {n : ℕ} (f : ℝ → ℝ) {lower upper : ℝ} {x : Fin (n + 2) → ℝ} (hx : Ordered lower upper x) : ∃! l, Solves n f x l := by
  have hinj : Function.Injective (matrixA n x).mulVec := by
    intro a c h
    have := matrixA_injective hx.1 (l := a - c) (by rw [Matrix.mulVec_sub]; simpa [sub_eq_zero] using h)
    exact sub_eq_zero.1 this
  have hu := Matrix.mulVec_injective_iff_isUnit.1 hinj
  obtain ⟨l, hl⟩ := (Matrix.mulVec_surjective_iff_isUnit.2 hu) (fun i => f (x i))
  exact ⟨l, hl, fun l' hl' => hinj (hl'.trans hl.symm)⟩

/-- **C68** Exchange: between two neighbouring points the residual has a zero, and the search finds it, if the levelled error is not zero. -/
theorem C68_separating_zeros {n : ℕ} {f : ℝ → ℝ} {lower upper : ℝ} {x l : Fin (n + 2) → ℝ} {t : Fin (n + 3) → ℝ} (hx : Ordered lower upper x)
    (hf : ContinuousOn f (Set.Icc lower upper)) (hs : Solves n f x l) (hE : l (Fin.last _) ≠ 0) (ht : Intervals n (residual f l) lower upper x t) (i : Fin (n + 1)) :
    ∃ z ∈ Set.Icc (x i.succ) (x i.castSucc), residual f l z = 0 ∧ |t i.succ.castSucc - z| < 1 / 2 / 10 ^ 25 := by
  obtain ⟨fuel, h⟩ := ht.2.2 i
  refine ((C68_bisection _ (hx.1 Fin.castSucc_lt_succ)).2 _ _ h).2.2 ?_ ?_
  · have hsub : Set.Icc (x i.succ) (x i.castSucc) ⊆ Set.Icc lower upper := Set.Icc_subset_Icc (hx.2 _).1 (hx.2 _).2
    unfold residual
    refine (hf.mono hsub).sub ?_
    rw [show chebval (coeffs l) = fun y => (chebPoly (coeffs l)).eval y from funext (chebval_eq _)]
    exact (chebPoly (coeffs l)).continuous.continuousOn
  · rw [residual_points hs, residual_points hs]
    simp only [Fin.val_castSucc, Fin.val_succ]
    have : (-1:ℝ) ^ ((i:ℕ) + 1) * (-1) ^ ((i:ℕ) + 1 + 1) = -1 := by
      rw [pow_succ (-1 : ℝ) ((i:ℕ) + 1), ← mul_assoc, ← mul_pow]; norm_num
    have hp : 0 < l (Fin.last (n + 1)) * l (Fin.last (n + 1)) := mul_self_pos.2 hE
    nlinarith

/-- **C68** The levelled error of a round: no polynomial of the degree is nearer to the function than it, on the points alone. -/
theorem C68_levelled_lower_bound {n : ℕ} {f : ℝ → ℝ} {lower upper : ℝ} {x l : Fin (n + 2) → ℝ} (hx : Ordered lower upper x) (hs : Solves n f x l) :
    (∀ i, |f (x i) - chebval (coeffs l) (x i)| = |l (Fin.last _)|) ∧ ∀ s : ℝ[X], s.natDegree ≤ n → ∃ i, |l (Fin.last _)| ≤ |f (x i) - s.eval (x i)| := by
  have habs : ∀ i, |f (x i) - chebval (coeffs l) (x i)| = |l (Fin.last _)| := by
    intro i
    have := residual_points hs i
    unfold residual at this
    rw [this, abs_mul, abs_pow, abs_neg, abs_one, one_pow, one_mul]
  refine ⟨habs, fun s hd => ?_⟩
  by_cases hE : l (Fin.last _) = 0
  · exact ⟨0, by rw [hE, abs_zero]; exact abs_nonneg _⟩
  refine alternation_lower_bound (chebPoly_natDegree (coeffs l)) hd hx.1 (fun i => by rw [← chebval_eq, habs i]) fun i => ?_
  rw [← chebval_eq, ← chebval_eq]
  have h1 := residual_points hs i.castSucc
  have h2 := residual_points hs i.succ
  unfold residual at h1 h2
  rw [h1, h2]
  simp only [Fin.val_castSucc, Fin.val_succ]
  have : (-1:ℝ) ^ ((i:ℕ) + 1) * (-1) ^ ((i:ℕ) + 1 + 1) = -1 := by
    rw [pow_succ (-1 : ℝ) ((i:ℕ) + 1), ← mul_assoc, ← mul_pow]; norm_num
  have hp : 0 < l (Fin.last (n + 1)) * l (Fin.last (n + 1)) := mul_self_pos.2 hE
  nlinarith

/-! ### The whole program -/

theorem round_exists {f : ℝ → ℝ} {n : ℕ} {lower upper : ℝ} {x : Fin (n + 2) → ℝ} (hlt : lower < upper) (hx : Ordered lower upper x) : ∃ l e, Round f n lower upper x l e := by
  obtain ⟨l, hl, -⟩ := C68_system f hx
  have hsearch : ∀ i : Fin (n + 1), ∃ r k, ∀ m, k < m → bisectionSearch (residual f l) m (x i.castSucc) (x i.succ) = some r := fun i => bisection_ends _ _ _
  choose r k hr using hsearch
  let t : Fin (n + 3) → ℝ := Fin.cases upper (Fin.lastCases lower r)
  have ht : Intervals n (residual f l) lower upper x t := by
    refine ⟨rfl, ?_, fun i => ⟨k i + 1, ?_⟩⟩
    · show t (Fin.last _) = lower
      show Fin.cases upper (Fin.lastCases lower r) (Fin.last (n + 1)).succ = lower
      rw [Fin.cases_succ, Fin.lastCases_last]
    · rw [hr i _ (by omega)]
      rw [← Fin.succ_castSucc]; simp [t]
  have hmax : ∀ i : Fin (n + 2), ∃ r k, ∀ m, k < m → concaveMax (residual f l) m (t i.castSucc) (t i.succ) = some r := fun i => bisection_ends _ _ _
  choose r' k' hr' using hmax
  refine ⟨l, fun i => if i = 0 then upper else if i = Fin.last _ then lower else r' i, hl, t, ht, by simp, ?_, fun i h0 h1 => ⟨k' i + 1, ?_⟩⟩
  · have : Fin.last (n + 1) ≠ 0 := by rw [Ne, Fin.ext_iff]; simp
    simp [this]
  · rw [hr' i _ (by omega)]; simp only [if_neg h0, if_neg h1]

theorem round_unique {f : ℝ → ℝ} {n : ℕ} {lower upper : ℝ} {x l e l' e' : Fin (n + 2) → ℝ} (hx : Ordered lower upper x) (h : Round f n lower upper x l e)
    (h' : Round f n lower upper x l' e') : l = l' ∧ e = e' := by
  have hl : l = l' := (C68_system f hx).unique h.solves h'.solves
  subst hl
  refine ⟨rfl, ?_⟩
  obtain ⟨-, t, ht, he0, he1, he⟩ := h
  obtain ⟨-, t', ht', he0', he1', he'⟩ := h'
  have htt : t = t' := by
    funext i
    refine Fin.cases (ht.1.trans ht'.1.symm) (fun j => ?_) i
    refine Fin.lastCases ?_ (fun m => ?_) j
    · rw [Fin.succ_last]; exact ht.2.1.trans ht'.2.1.symm
    · obtain ⟨a, ha⟩ := ht.2.2 m
      obtain ⟨c, hc⟩ := ht'.2.2 m
      rw [Fin.succ_castSucc]
      exact search_unique ha hc
  subst htt
  funext i
  by_cases h0 : i = 0
  · rw [h0, he0, he0']
  by_cases h1 : i = Fin.last _
  · rw [h1, he1, he1']
  obtain ⟨a, ha⟩ := he i h0 h1
  obtain ⟨c, hc⟩ := he' i h0 h1
  exact search_unique ha hc

theorem loop_exists {f : ℝ → ℝ} {n : ℕ} {lower upper : ℝ} (hlt : lower < upper) : ∀ (k : ℕ) {x : Fin (n + 2) → ℝ}, Ordered lower upper x → ∃ out, Loop f n lower upper (k + 1) x out
  | 0, x, hx => by
    obtain ⟨l, e, h⟩ := round_exists (f := f) hlt hx
    by_cases hL : Levelled (residual f l) e
    · exact ⟨_, .stop h hL⟩
    · exact ⟨_, .last h hL⟩
  | k + 1, x, hx => by
    obtain ⟨l, e, h⟩ := round_exists (f := f) hlt hx
    by_cases hL : Levelled (residual f l) e
    · exact ⟨_, .stop h hL⟩
    · obtain ⟨out, ho⟩ := loop_exists hlt k (C68_round_ordered hx h).1
      exact ⟨out, .next h hL ho⟩

theorem loop_unique {f : ℝ → ℝ} {n : ℕ} {lower upper : ℝ} {k : ℕ} {x : Fin (n + 2) → ℝ} {o o' : (Fin (n + 2) → ℝ) × (Fin (n + 2) → ℝ) × (Fin (n + 2) → ℝ)}
    (hx : Ordered lower upper x) (h : Loop f n lower upper k x o) (h' : Loop f n lower upper k x o') : o = o' := by
  induction h with
  | stop r hL =>
    cases h' with
    | stop r' hL' => obtain ⟨rfl, rfl⟩ := round_unique hx r r'; rfl
    | last r' hL' => obtain ⟨rfl, rfl⟩ := round_unique hx r r'; exact absurd hL hL'
    | next r' hL' _ => obtain ⟨rfl, rfl⟩ := round_unique hx r r'; exact absurd hL hL'
  | last r hL =>
    cases h' with
    | stop r' hL' => obtain ⟨rfl, rfl⟩ := round_unique hx r r'; exact absurd hL' hL
    | last r' hL' => obtain ⟨rfl, rfl⟩ := round_unique hx r r'; rfl
  | next r hL ho ih =>
    cases h' with
    | stop r' hL' => obtain ⟨rfl, rfl⟩ := round_unique hx r r'; exact absurd hL' hL
    | next r' hL' ho' =>
      obtain ⟨rfl, rfl⟩ := round_unique hx r r'
      exact ih (C68_round_ordered hx r).1 ho'

/-- **C68** `remez` ends with exactly one result. -/
theorem C68_remez_total (f : ℝ → ℝ) (n : ℕ) {lower upper : ℝ} (h : lower < upper) {maxIter : ℕ} (hk : 0 < maxIter) : ∃! out, Remez f n lower upper maxIter out := by
  obtain ⟨k, rfl⟩ := Nat.exists_eq_succ_of_ne_zero hk.ne'
  have hx := (C68_chebyshev_points n h).1
  obtain ⟨⟨x, l, e⟩, ho⟩ := loop_exists (f := f) h k hx
  refine ⟨_, ⟨x, l, e, ho, rfl⟩, ?_⟩
  rintro out ⟨x', l', e', ho', rfl⟩
  have := loop_unique hx ho ho'
  cases this
  rfl

theorem loop_result {f : ℝ → ℝ} {n : ℕ} {lower upper : ℝ} {k : ℕ} {x : Fin (n + 2) → ℝ} {o : (Fin (n + 2) → ℝ) × (Fin (n + 2) → ℝ) × (Fin (n + 2) → ℝ)}
    (hx : Ordered lower upper x) (h : Loop f n lower upper k x o) : Ordered lower upper o.1 ∧ Round f n lower upper o.1 o.2.1 o.2.2 := by
  induction h with
  | stop r hL => exact ⟨hx, r⟩
  | last r hL => exact ⟨hx, r⟩
  | next r hL ho ih => exact ih (C68_round_ordered hx r).1

/-- **C68** What `remez` returns: the coefficients of a polynomial of the degree that misses the function by the same amount `δ`, with alternating signs, at ordered points of the
interval, where no polynomial of the degree stays below `δ`. -/
theorem C68_remez_equioscillates {f : ℝ → ℝ} {n : ℕ} {lower upper : ℝ} (hlt : lower < upper) {k : ℕ} {out : (ℕ → ℝ) × ℝ} (h : Remez f n lower upper k out) :
    ∃ (q : ℝ[X]) (x : Fin (n + 2) → ℝ) (E : ℝ), q.natDegree ≤ n ∧ (∀ i, out.1 i = q.coeff i) ∧ (∀ y, q.eval y = ∑ i ∈ Finset.range (n + 1), out.1 i * y ^ i) ∧
      Ordered lower upper x ∧ (∀ i, f (x i) - q.eval (x i) = (-1) ^ ((i : ℕ) + 1) * E) ∧
      ∀ s : ℝ[X], s.natDegree ≤ n → ∃ y ∈ Set.Icc lower upper, |E| ≤ |f y - s.eval y| := by
  obtain ⟨x, l, e, ho, rfl⟩ := h
  obtain ⟨hx, hr⟩ := loop_result (C68_chebyshev_points n hlt).1 ho
  refine ⟨chebPoly (coeffs l), x, l (Fin.last _), chebPoly_natDegree _, fun i => rfl, fun y => ?_, hx, fun i => ?_, fun s hs => ?_⟩
  · rw [eval_eq_sum_range' (n := n + 1) (by have := chebPoly_natDegree (coeffs l); omega)]
    rfl
  · rw [← chebval_eq]; exact residual_points hr.solves i
  · obtain ⟨i, hi⟩ := (C68_levelled_lower_bound hx hr.solves).2 s hs
    exact ⟨x i, hx.2 i, hi⟩

/-- **C68** If the loop is left because the errors are level, and they alternate at the extremums, the result is within two millionths of the best polynomial there: every
polynomial of the degree misses the function by at least `1 - 10^-6` of the printed error, and the result by at most `1 + 10^-6` of it at the extremums. -/
theorem C68_stop_near_best {f : ℝ → ℝ} {n : ℕ} {lower upper : ℝ} {x l e : Fin (n + 2) → ℝ} (hx : Ordered lower upper x) (hr : Round f n lower upper x l e)
    (hL : Levelled (residual f l) e) (halt : ∀ i : Fin (n + 1), residual f l (e i.castSucc) * residual f l (e i.succ) < 0) :
    (∀ s : ℝ[X], s.natDegree ≤ n → ∃ y ∈ Set.Icc lower upper, (1 - 1 / 10 ^ 6) * meanError (residual f l) e ≤ |f y - s.eval y|) ∧
    ∀ i, |f (e i) - chebval (coeffs l) (e i)| ≤ (1 + 1 / 10 ^ 6) * meanError (residual f l) e := by
  obtain ⟨he, -⟩ := C68_round_ordered hx hr
  refine ⟨fun s hs => ?_, fun i => ?_⟩
  · obtain ⟨i, hi⟩ := alternation_lower_bound (f := f) (chebPoly_natDegree (coeffs l)) hs he.1 (δ := (1 - 1 / 10 ^ 6) * meanError (residual f l) e) (fun i => by
      have := hL i
      rw [abs_lt] at this
      unfold residual at this ⊢
      rw [← chebval_eq]
      linarith [this.1]) (fun i => by
      have := halt i
      unfold residual at this
      rw [← chebval_eq, ← chebval_eq]; exact this)
    exact ⟨e i, he.2 i, hi⟩
  · have := hL i
    rw [abs_lt] at this
    have h2 := this.2
    unfold residual at h2 ⊢
    linarith

/-- **C68** (violated) What is printed as "Maximum Error" is the mean: some extremum has at least this error, and a larger one unless all are equal. -/
theorem C68_printed_error {n : ℕ} (r : ℝ → ℝ) (e : Fin (n + 2) → ℝ) :
    (∃ i, meanError r e ≤ |r (e i)|) ∧ ((∃ i j, |r (e i)| ≠ |r (e j)|) → ∃ i, meanError r e < |r (e i)|) := by
  have hn : (0:ℝ) < ((n + 2 : ℕ) : ℝ) := by positivity
  have hmean : ∑ i : Fin (n + 2), |r (e i)| = ∑ _i : Fin (n + 2), meanError r e := by
    rw [Finset.sum_const, Finset.card_univ, Fintype.card_fin, nsmul_eq_mul, meanError, mul_div_cancel₀ _ hn.ne']
  constructor
  · by_contra hcon
    push Not at hcon
    have := Finset.sum_lt_sum_of_nonempty (s := Finset.univ) ⟨(0 : Fin (n + 2)), Finset.mem_univ _⟩ (fun i _ => hcon i)
    linarith
  · rintro ⟨i, j, hij⟩
    by_contra hcon
    push Not at hcon
    have hall : ∀ i, |r (e i)| = meanError r e := by
      intro i
      exact (Finset.sum_eq_sum_iff_of_le (fun i _ => hcon i)).1 hmean i (Finset.mem_univ _)
    exact hij ((hall i).trans (hall j).symm)

/-- The call of the script, line 83-87. -/
example : ∃! out, Remez Real.arctan 24 0 1 10 out := C68_remez_total _ _ (by norm_num) (by norm_num)

/-- A round with different errors at the extremums: the constant that levels the error of `x ↦ x²` at `1` and `0` is exact, at three points with two errors it is not. -/
example : ∃ i : Fin 3, meanError (fun x => x ^ 2) (fun i : Fin 3 => (i : ℝ)) < |((i : ℝ)) ^ 2| :=
  (C68_printed_error (n := 1) (fun x => x ^ 2) (fun i => (i : ℝ))).2 ⟨0, 1, by simp⟩

/-- `concave_max` finds the maximum of `-x²` on `[-1, 1]`. -/
example : ∃ fuel r, concaveMax (fun x => -x ^ 2) fuel 1 (-1) = some r ∧ |r| < 1 / 10 ^ 25 := by
  obtain ⟨r, k, h⟩ := bisection_ends (fun x => ((fun x : ℝ => -x ^ 2) (x + stepOf 1 (-1)) - (fun x : ℝ => -x ^ 2) (x - stepOf 1 (-1))) / (2 * stepOf 1 (-1))) 1 (-1)
  refine ⟨k + 1, r, h _ (by omega), ?_⟩
  have hconc : ConcaveOn ℝ Set.univ fun x : ℝ => -x ^ 2 := (Even.convexOn_pow (n := 2) (by norm_num)).neg
  obtain ⟨m, h1, h2⟩ := (C68_concave_max (f := fun x => -x ^ 2) (by norm_num) (h (k + 1) (by omega)) (by fun_prop) (by unfold stepOf; norm_num)).1
    (hconc.subset (Set.subset_univ _) (convex_Icc _ _))
  have h3 := h2 0 (by norm_num)
  have : m = 0 := by simpa using h3
  rw [this, sub_zero] at h1
  norm_num at h1 ⊢
  linarith

/-- A round that levels the errors, with alternating signs: the best constant for `x ↦ x` on `[0, 1]`. -/
example : ∃ l e : Fin 2 → ℝ, Round (fun x => x) 0 0 1 (fun i => chevPoints 2 0 1 i) l e ∧ Levelled (residual (fun x => x) l) e ∧
    (∀ i : Fin 1, residual (fun x => x) l (e i.castSucc) * residual (fun x => x) l (e i.succ) < 0) ∧ meanError (residual (fun x => x) l) e = 1 / 2 := by
  have hx := (C68_chebyshev_points 0 (by norm_num : (0:ℝ) < 1)).1
  obtain ⟨l, e, h⟩ := round_exists (f := fun x => x) (by norm_num) hx
  obtain ⟨-, he0, he1⟩ := C68_round_ordered hx h
  have h0 := residual_points h.solves 0
  have h1 := residual_points h.solves 1
  have hT : ∀ y, residual (fun x => x) l y = y - l 0 := by
    intro y; unfold residual chebval coeffs; simp
  have hl : l 0 = 1 / 2 := by
    rw [hT] at h0 h1
    unfold chevPoints at h0 h1
    norm_num at h0 h1
    have hc : Real.cos (3 / 4 * Real.pi) = -Real.cos (1 / 4 * Real.pi) := by
      rw [← Real.cos_pi_sub]; congr 1; ring
    rw [hc] at h1
    linarith
  have r0 : residual (fun x => x) l (e 0) = 1 / 2 := by rw [hT, he0, hl]; norm_num
  have r1 : residual (fun x => x) l (e 1) = -(1 / 2) := by
    rw [hT, show e 1 = 0 from he1, hl]; norm_num
  have hm : meanError (residual (fun x => x) l) e = 1 / 2 := by
    unfold meanError; rw [Fin.sum_univ_two, r0, r1]; norm_num
  refine ⟨l, e, h, fun i => ?_, fun i => ?_, hm⟩
  · rw [hm]; fin_cases i
    · show |(|residual (fun x => x) l (e 0)| - 1 / 2)| < _
      rw [r0]; norm_num
    · show |(|residual (fun x => x) l (e 1)| - 1 / 2)| < _
      rw [r1]; norm_num
  · fin_cases i
    show residual (fun x => x) l (e 0) * residual (fun x => x) l (e 1) < 0
    rw [r0, r1]; norm_num

end ZkLoc.Remez
