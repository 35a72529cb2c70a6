import Verif.TableGen
import Verif.RealExists
import Verif.Algebra
import Mathlib.Data.Set.Finite.Lattice
import Mathlib.Data.Set.Finite.Basic

/-!
# Lemmas about rounding of signed numbers and neighbouring floats
-/

namespace Ieee
variable {F : Format}

/-- Rounding is monotone. -/
theorem Rounds.mono {e e' w w' : ℝ} (h : Rounds F e w) (h' : Rounds F e' w') (hle : e ≤ e') : w ≤ w' := by
  rcases le_total 0 e with h0 | h0
  · have := ZkLoc.isRNE_mono h.rne h'.rne (by rwa [abs_of_nonneg h0, abs_of_nonneg (h0.trans hle)])
    rwa [abs_of_nonneg (h.pos h0), abs_of_nonneg (h'.pos (h0.trans hle))] at this
  · rcases le_total 0 e' with h1 | h1
    · exact (h.neg h0).trans (h'.pos h1)
    · have := ZkLoc.isRNE_mono h'.rne h.rne (by rw [abs_of_nonpos h0, abs_of_nonpos h1]; linarith)
      rw [abs_of_nonpos (h.neg h0), abs_of_nonpos (h'.neg h1)] at this
      linarith

/-- A representable number is its own rounding. -/
theorem Rounds.self {v : ℝ} (h : Representable F |v|) : Rounds F v v := ⟨h.isRNE, id, id⟩

end Ieee

namespace ZkLoc.TableGen
open Ieee

theorem IsFloat.rounds {F : Format} {v : ℝ} (h : IsFloat F v) : Rounds F v v := Rounds.self h.1

/-- A format has finitely many numbers. -/
theorem finite_floats (F : Format) : {q : ℝ | IsFloat F q}.Finite := by
  have h1 : ((fun t : ℕ × ℤ => (t.1 : ℝ) * 2 ^ t.2) '' (Set.Iio (2 ^ (F.M + 1)) ×ˢ Set.Icc F.qmin (F.bias + 1))).Finite :=
    ((Set.finite_Iio _).prod (Set.finite_Icc _ _)).image _
  have h2 : (({0} : Set ℝ) ∪ ((fun t : ℕ × ℤ => (t.1 : ℝ) * 2 ^ t.2) '' (Set.Iio (2 ^ (F.M + 1)) ×ˢ Set.Icc F.qmin (F.bias + 1)))).Finite :=
    (Set.finite_singleton _).union h1
  refine (h2.union (h2.image (fun v => -v))).subset ?_
  intro q hq
  obtain ⟨⟨n, k, hn, hk, e⟩, hb⟩ := hq
  have hm : |q| ∈ (({0} : Set ℝ) ∪ ((fun t : ℕ × ℤ => (t.1 : ℝ) * 2 ^ t.2) '' (Set.Iio (2 ^ (F.M + 1)) ×ˢ Set.Icc F.qmin (F.bias + 1)))) := by
    rcases Nat.eq_zero_or_pos n with h0 | h0
    · left; rw [e, h0]; simp
    · right
      refine ⟨(n, k), ⟨hn, hk, ?_⟩, e.symm⟩
      rw [e] at hb
      have h3 : (1:ℝ) ≤ n := by exact_mod_cast h0
      have h4 : (2:ℝ) ^ k < 2 ^ (F.bias + 1) := by
        have : (0:ℝ) < 2 ^ k := by positivity
        nlinarith
      exact ((zpow_lt_zpow_iff_right₀ (by norm_num)).1 h4).le
  rcases abs_choice q with h | h
  · left; rwa [h] at hm
  · right; exact ⟨|q|, hm, by simp [h]⟩

/-- Below the largest number there is a next one. -/
theorem exists_nextUp {F : Format} {r q : ℝ} (hq : IsFloat F q) (h : r < q) : ∃ u, NextUp F r u := by
  obtain ⟨u, hu, hm⟩ := Set.exists_min_image {q | IsFloat F q ∧ r < q} id ((finite_floats F).subset fun _ h => h.1) ⟨q, hq, h⟩
  exact ⟨u, hu.1, hu.2, fun q h1 h2 => hm q ⟨h1, h2⟩⟩

theorem exists_nextDown {F : Format} {r q : ℝ} (hq : IsFloat F q) (h : q < r) : ∃ u, NextDown F r u := by
  obtain ⟨u, hu, hm⟩ := Set.exists_max_image {q | IsFloat F q ∧ q < r} id ((finite_floats F).subset fun _ h => h.1) ⟨q, hq, h⟩
  exact ⟨u, hu.1, hu.2, fun q h1 h2 => hm q ⟨h1, h2⟩⟩

/-- Singles are doubles. -/
theorem single_double {v : ℝ} (h : IsFloat single v) : IsFloat double v := by
  obtain ⟨⟨n, k, hn, hk, e⟩, hb⟩ := h
  refine ⟨⟨n, k, hn.trans (by norm_num [single, double, Convert.double]), le_trans ?_ hk, e⟩, hb.trans ?_⟩
  · norm_num [single, double, Convert.double, Format.qmin, Format.emin, Format.bias]
  · exact zpow_lt_zpow_right₀ (by norm_num) (by norm_num [single, double, Convert.double, Format.bias])

theorem NextUp.unique {F : Format} {r u v : ℝ} (h : NextUp F r u) (h' : NextUp F r v) : u = v :=
  le_antisymm (h.2.2 v h'.1 h'.2.1) (h'.2.2 u h.1 h.2.1)

theorem NextDown.unique {F : Format} {r u v : ℝ} (h : NextDown F r u) (h' : NextDown F r v) : u = v :=
  le_antisymm (h'.2.2 u h.1 h.2.1) (h.2.2 v h'.1 h'.2.1)

/-- Multiples of `2^k` of the size of normal numbers have `(n + 1) * 2^k` as successor. -/
theorem nextUp_mul {F : Format} {n : ℕ} {k : ℤ} (hn : 2 ^ F.M ≤ n) (hn' : n < 2 ^ (F.M + 1)) (hk : F.qmin ≤ k) (hb : ((n + 1 : ℕ) : ℝ) * 2 ^ k < 2 ^ (F.bias + 1)) :
    NextUp F (n * 2 ^ k) (((n + 1 : ℕ) : ℝ) * 2 ^ k) := by
  have hP : (0:ℝ) < 2 ^ k := by positivity
  have hr : Representable F (((n + 1 : ℕ) : ℝ) * 2 ^ k) := representable_mul hn' hk
  refine ⟨⟨by rwa [abs_of_nonneg hr.nonneg], by rwa [abs_of_nonneg hr.nonneg]⟩, by push_cast; nlinarith, ?_⟩
  intro q hq hlt
  have hn0 : (0:ℝ) ≤ n * 2 ^ k := by positivity
  have hq' := hq.1
  rw [abs_of_nonneg (by linarith)] at hq'
  have hn1 : (2:ℝ) ^ F.M ≤ n := by exact_mod_cast hn
  obtain ⟨m, rfl⟩ := hq'.multiple (k := k) (Or.inr (by nlinarith))
  have h1 : (n:ℝ) < m := lt_of_mul_lt_mul_right hlt hP.le
  have h2 : n + 1 ≤ m := by exact_mod_cast h1
  exact mul_le_mul_of_nonneg_right (by exact_mod_cast h2) hP.le

theorem nextDown_mul {F : Format} {n : ℕ} {k : ℤ} (hn : 2 ^ F.M ≤ n) (hn' : n + 1 ≤ 2 ^ (F.M + 1)) (hk : F.qmin ≤ k) (hb : (n : ℝ) * 2 ^ k < 2 ^ (F.bias + 1)) :
    NextDown F (((n + 1 : ℕ) : ℝ) * 2 ^ k) (n * 2 ^ k) := by
  have hP : (0:ℝ) < 2 ^ k := by positivity
  have hr : Representable F ((n : ℝ) * 2 ^ k) := representable_mul (by omega) hk
  refine ⟨⟨by rwa [abs_of_nonneg hr.nonneg], by rwa [abs_of_nonneg hr.nonneg]⟩, by push_cast; nlinarith, ?_⟩
  intro q hq hlt
  by_contra hgt
  rw [not_le] at hgt
  have hn0 : (0:ℝ) ≤ n * 2 ^ k := by positivity
  have hq' := hq.1
  rw [abs_of_nonneg (by linarith)] at hq'
  have hn1 : (2:ℝ) ^ F.M ≤ n := by exact_mod_cast hn
  obtain ⟨m, rfl⟩ := hq'.multiple (k := k) (Or.inr (by nlinarith))
  have h1 : (n:ℝ) < m := lt_of_mul_lt_mul_right hgt hP.le
  have h2 : (m:ℝ) < (n + 1 : ℕ) := lt_of_mul_lt_mul_right hlt hP.le
  have h1' : n < m := by exact_mod_cast h1
  have h2' : m < n + 1 := by exact_mod_cast h2
  omega

end ZkLoc.TableGen
