import Mathlib.Algebra.Polynomial.Roots
import Mathlib.Algebra.Field.ZMod
import Mathlib.Algebra.BigOperators.Group.Finset.Basic
import Mathlib.Tactic.FieldSimp
import Mathlib.Tactic.Ring

/-!
# Lookups by logarithmic derivatives

`logderivarg.Build` (gnark, called in /repo/gadget/rangecheck.go:119 and /repo/gadget/gadget.go:34) replaces "every query is in the table" by one equation of rational functions
`Σ m_i / (x - t_i) = Σ 1 / (x - q_j)` at a random point `x`, with multiplicities `m_i` given by the prover. This file: for how many points the equation can hold.
-/

namespace ZkLoc.LogDeriv

open Polynomial

variable {F : Type*} [Field F] [DecidableEq F]

/-- The constraints of the argument at the point `x`, for a table with multiplicities `tm` and queries `qs`: quotients `a` (`DivUnchecked`: no inverse of the divisor is asked for), inverses `b`, and equal sums. -/
def Holds (x : F) (tm : List (F × F)) (qs : List F) : Prop :=
  ∃ a b : List F, List.Forall₂ (fun t a => (x - t.1) * a = t.2) tm a ∧ List.Forall₂ (fun q b => (x - q) * b = 1) qs b ∧ a.sum = b.sum

/-- The sum of the numerators over one point. -/
def coeff (L : List (F × F)) (s : F) : F := (L.map fun e => if e.1 = s then e.2 else 0).sum

theorem sum_coeff {S : Finset F} (f : F → F) : ∀ L : List (F × F), (∀ e ∈ L, e.1 ∈ S) → ∑ s ∈ S, coeff L s * f s = (L.map fun e => e.2 * f e.1).sum
  | [], _ => by simp [coeff]
  | e :: L, h => by
    have ih := sum_coeff f L fun e he => h e (List.mem_cons_of_mem _ he)
    have hc : ∀ s, coeff (e :: L) s = (if e.1 = s then e.2 else 0) + coeff L s := fun s => by simp [coeff]
    simp only [hc, add_mul, Finset.sum_add_distrib, ih, List.map_cons, List.sum_cons]
    congr 1
    rw [Finset.sum_eq_single e.1]
    · simp
    · intro s _ hs; rw [if_neg (Ne.symm hs), zero_mul]
    · intro hn; exact absurd (h e List.mem_cons_self) hn

/-- The numerator of `Σ c_s / (x - s)`. -/
noncomputable def numer (S : Finset F) (c : F → F) : F[X] := ∑ s ∈ S, C (c s) * ∏ r ∈ S.erase s, (X - C r)

theorem eval_numer (S : Finset F) (c : F → F) (x : F) : (numer S c).eval x = ∑ s ∈ S, c s * ∏ r ∈ S.erase s, (x - r) := by
  simp [numer, eval_finset_sum, eval_prod]

theorem eval_numer_off {S : Finset F} {c : F → F} {x : F} (hx : x ∉ S) : (numer S c).eval x = (∏ r ∈ S, (x - r)) * ∑ s ∈ S, c s * (x - s)⁻¹ := by
  rw [eval_numer, Finset.mul_sum]
  refine Finset.sum_congr rfl fun s hs => ?_
  have hne : x - s ≠ 0 := sub_ne_zero.2 fun e => hx (e ▸ hs)
  rw [← Finset.mul_prod_erase S _ hs]
  field_simp

theorem eval_numer_on {S : Finset F} {c : F → F} {q : F} (hq : q ∈ S) : (numer S c).eval q = c q * ∏ r ∈ S.erase q, (q - r) := by
  rw [eval_numer, Finset.sum_eq_single q]
  · intro s _ hs
    rw [Finset.prod_eq_zero (i := q), mul_zero]
    · exact Finset.mem_erase.2 ⟨Ne.symm hs, hq⟩
    · exact sub_self q
  · intro hn; exact absurd hq hn

theorem numer_ne_zero {S : Finset F} {c : F → F} {q : F} (hq : q ∈ S) (hc : c q ≠ 0) : numer S c ≠ 0 := by
  intro h
  have := eval_numer_on (c := c) hq
  rw [h, eval_zero] at this
  refine mul_ne_zero hc (Finset.prod_ne_zero_iff.2 fun r hr => sub_ne_zero.2 fun e => ?_) this.symm
  exact (Finset.mem_erase.1 hr).1 e.symm

theorem natDegree_numer (S : Finset F) (c : F → F) : (numer S c).natDegree ≤ S.card - 1 := by
  refine natDegree_sum_le_of_forall_le _ _ fun s hs => ?_
  refine (natDegree_C_mul_le _ _).trans ((natDegree_prod_le _ _).trans ?_)
  simp [natDegree_X_sub_C, Finset.card_erase_of_mem hs]

/-- The points at which the argument may be satisfied. -/
noncomputable def chances (tm : List (F × F)) (qs : List F) : Finset F :=
  (tm.map Prod.fst).toFinset ∪ (numer ((tm ++ qs.map fun q => (q, -1)).map Prod.fst).toFinset (coeff (tm ++ qs.map fun q => (q, -1)))).roots.toFinset

theorem card_chances (tm : List (F × F)) (qs : List F) : (chances tm qs).card ≤ 2 * tm.length + qs.length := by
  refine (Finset.card_union_le _ _).trans ?_
  have h1 : ((tm.map Prod.fst).toFinset).card ≤ tm.length := by simpa using List.toFinset_card_le (tm.map Prod.fst)
  have h2 := List.toFinset_card_le ((tm ++ qs.map fun q => (q, (-1 : F))).map Prod.fst)
  have h3 := Multiset.toFinset_card_le (numer ((tm ++ qs.map fun q => (q, -1)).map Prod.fst).toFinset (coeff (tm ++ qs.map fun q => (q, (-1 : F))))).roots
  have h4 := card_roots' (numer ((tm ++ qs.map fun q => (q, -1)).map Prod.fst).toFinset (coeff (tm ++ qs.map fun q => (q, (-1 : F)))))
  have h5 := natDegree_numer ((tm ++ qs.map fun q => (q, -1)).map Prod.fst).toFinset (coeff (tm ++ qs.map fun q => (q, (-1 : F))))
  simp only [List.map_append, List.length_append, List.length_map] at h2 h3 h4 h5 ⊢
  omega

theorem coeff_query {tm : List (F × F)} {qs : List F} {q : F} (hq : q ∉ tm.map Prod.fst) : coeff (tm ++ qs.map fun q => (q, -1)) q = -((qs.count q : ℕ) : F) := by
  have h1 : (tm.map fun e => if e.1 = q then e.2 else 0).sum = 0 := by
    refine List.sum_eq_zero fun v hv => ?_
    obtain ⟨e, he, rfl⟩ := List.mem_map.1 hv
    rw [if_neg]
    exact fun h => hq (List.mem_map.2 ⟨e, he, h⟩)
  rw [coeff, List.map_append, List.sum_append, h1, zero_add, List.map_map]
  clear h1 hq
  induction qs with
  | nil => simp
  | cons r qs ih =>
    rw [List.map_cons, List.sum_cons, ih, List.count_cons]
    by_cases h : r = q
    · simp [h]
    · simp [h]

theorem sum_quotients {x : F} {tm : List (F × F)} {a : List F} (h : List.Forall₂ (fun t a => (x - t.1) * a = t.2) tm a) (hx : x ∉ tm.map Prod.fst) : a.sum = (tm.map fun e => e.2 * (x - e.1)⁻¹).sum := by
  induction h with
  | nil => rfl
  | @cons t v l l' h1 _ ih =>
    have hne : x - t.1 ≠ 0 := sub_ne_zero.2 fun e => hx (by simp [e])
    rw [List.sum_cons, List.map_cons, List.sum_cons, ih fun hm => hx (by rw [List.map_cons]; exact List.mem_cons_of_mem _ hm), ← h1]
    field_simp

theorem sum_inverses {x : F} {qs b : List F} (h : List.Forall₂ (fun q b => (x - q) * b = 1) qs b) : x ∉ qs ∧ b.sum = (qs.map fun q => (x - q)⁻¹).sum := by
  induction h with
  | nil => simp
  | @cons q v l l' h1 _ ih =>
    have hne : x - q ≠ 0 := left_ne_zero_of_mul (h1 ▸ one_ne_zero)
    refine ⟨by simp [ih.1, sub_ne_zero.1 hne], ?_⟩
    rw [List.sum_cons, List.map_cons, List.sum_cons, ih.2, eq_inv_of_mul_eq_one_right h1]

/-- **Soundness.** If some query is not in the table, the argument holds at few points at most, whatever the multiplicities. -/
theorem sound {tm : List (F × F)} {qs : List F} (hp : ∀ k : ℕ, 0 < k → k ≤ qs.length → (k : F) ≠ 0) (hq : ∃ q ∈ qs, q ∉ tm.map Prod.fst) {x : F} (h : Holds x tm qs) : x ∈ chances tm qs := by
  obtain ⟨a, b, ha, hb, hs⟩ := h
  obtain ⟨q, hq, hqt⟩ := hq
  by_cases hx : x ∈ tm.map Prod.fst
  · exact Finset.mem_union_left _ (List.mem_toFinset.2 hx)
  refine Finset.mem_union_right _ (Multiset.mem_toFinset.2 ((mem_roots (numer_ne_zero (q := q) ?_ ?_)).2 ?_))
  · simp [hq]
  · rw [coeff_query hqt]
    exact neg_ne_zero.2 (hp _ (List.count_pos_iff.2 hq) List.count_le_length)
  · obtain ⟨hxq, hbs⟩ := sum_inverses hb
    rw [IsRoot.def, eval_numer_off, sum_coeff (fun s => (x - s)⁻¹)]
    · refine mul_eq_zero_of_right _ ?_
      rw [List.map_append, List.sum_append, ← sum_quotients ha hx, hs, hbs, List.map_map]
      have : ∀ l : List F, (l.map ((fun e : F × F => e.2 * (x - e.1)⁻¹) ∘ fun q => (q, -1))).sum = -(l.map fun q => (x - q)⁻¹).sum := fun l => by
        induction l with
        | nil => simp
        | cons r l ih => rw [List.map_cons, List.sum_cons, ih, List.map_cons, List.sum_cons]; simp; ring
      rw [this, add_neg_cancel]
    · intro e he
      exact List.mem_toFinset.2 (List.mem_map_of_mem he)
    · simp only [List.map_append, List.mem_toFinset, List.mem_append, not_or]
      refine ⟨hx, ?_⟩
      rw [List.map_map]
      simpa using hxq

/-- The multiplicities of an honest prover (`countHint`). -/
def counts (table qs : List F) : List (F × F) := table.map fun t => (t, (qs.count t : ℕ))

theorem sum_counts {x : F} {table : List F} (hd : table.Nodup) : ∀ {qs : List F}, (∀ q ∈ qs, q ∈ table) →
    ((counts table qs).map fun e => e.2 * (x - e.1)⁻¹).sum = (qs.map fun q => (x - q)⁻¹).sum
  | [], _ => by simp [counts, List.map_map, Function.comp_def]
  | q :: qs, h => by
    have ih := sum_counts (x := x) hd (qs := qs) fun r hr => h r (List.mem_cons_of_mem _ hr)
    rw [List.map_cons, List.sum_cons, ← ih]
    have hq := h q List.mem_cons_self
    simp only [counts, List.map_map, Function.comp_def]
    have h1 : (table.map fun t => (if t = q then (1 : F) else 0) * (x - t)⁻¹).sum = (x - q)⁻¹ := by
      clear ih h
      induction table with
      | nil => simp at hq
      | cons t l ih =>
        rw [List.nodup_cons] at hd
        rw [List.map_cons, List.sum_cons]
        by_cases e : t = q
        · subst e
          rw [if_pos rfl, one_mul, List.sum_eq_zero, add_zero]
          intro v hv
          obtain ⟨s, hs, rfl⟩ := List.mem_map.1 hv
          rw [if_neg (fun e : s = t => hd.1 (e ▸ hs)), zero_mul]
        · rw [if_neg e, zero_mul, zero_add, ih hd.2 ((List.mem_cons.1 hq).resolve_left fun e' => e e'.symm)]
    rw [← h1, ← List.sum_map_add]
    congr 1
    refine List.map_congr_left fun t _ => ?_
    rw [List.count_cons]
    by_cases e : t = q
    · subst e; simp; ring
    · simp [e, Ne.symm e]

/-- **Completeness.** If all queries are in the table, then with the counts as multiplicities the argument holds at every point that is not a query. -/
theorem complete {table qs : List F} (hd : table.Nodup) (h : ∀ q ∈ qs, q ∈ table) {x : F} (hx : x ∉ qs) : Holds x (counts table qs) qs := by
  refine ⟨(counts table qs).map fun e => e.2 * (x - e.1)⁻¹, qs.map fun q => (x - q)⁻¹, ?_, ?_, sum_counts hd h⟩
  · rw [List.forall₂_map_right_iff]
    refine List.forall₂_same.2 fun e he => ?_
    obtain ⟨t, -, rfl⟩ := List.mem_map.1 he
    by_cases e : x = t
    · subst e
      simp [List.count_eq_zero_of_not_mem hx]
    · have : x - t ≠ 0 := sub_ne_zero.2 e
      field_simp
  · rw [List.forall₂_map_right_iff]
    refine List.forall₂_same.2 fun q hq => mul_inv_cancel₀ (sub_ne_zero.2 fun e => hx (e ▸ hq))

end ZkLoc.LogDeriv
