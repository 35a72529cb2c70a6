import Verif.Runtime
import Verif.BenchSpec
import Verif.Spec.Runtime
import Mathlib.Tactic.Linarith
import Mathlib.Tactic.FieldSimp
import Mathlib.Tactic.Ring

/-!
# Helper lemmas about the evaluation of the measurements
-/

namespace ZkLoc.Runtime

open ZkLoc.Bench ZkLoc.Text _root_.Text Report

/-! ### Reading -/

theorem cellsAux_word : ∀ {w cur s : List Char}, (∀ c ∈ w, c ≠ ',') → cellsAux cur (w ++ ',' :: s) = (cur.reverse ++ w) :: cells s
  | [], cur, s, _ => by simp [cellsAux, cells]
  | x :: w, cur, s, h => by
    rw [List.cons_append, cellsAux, if_neg (h x (by simp)), cellsAux_word (fun c hc => h c (by simp [hc]))]
    simp

theorem cellsAux_end : ∀ {w cur : List Char}, (∀ c ∈ w, c ≠ ',') → cellsAux cur w = [cur.reverse ++ w]
  | [], cur, _ => by simp [cellsAux]
  | x :: w, cur, h => by
    rw [cellsAux, if_neg (h x (by simp)), cellsAux_end (fun c hc => h c (by simp [hc]))]
    simp

theorem cells_csv' : ∀ {a : List Char} {l : List (List Char)} {s : List Char}, (∀ x ∈ a :: l, ∀ c ∈ x, c ≠ ',') → (∀ c ∈ s, c ≠ ',') →
    cells (s ++ csv (a :: l)) = (s ++ a) :: l.map (fun x => ' ' :: x)
  | a, [], s, h, hs => by
    have e : csv [a] = a := by simp [csv, List.intercalate]
    rw [e, cells, cellsAux_end]
    · simp
    · intro c hc
      rcases List.mem_append.1 hc with hc | hc
      · exact hs c hc
      · exact h a (by simp) c hc
  | a, b :: l, s, h, hs => by
    have e : csv (a :: b :: l) = a ++ ',' :: ([' '] ++ csv (b :: l)) := by simp [csv, List.intercalate]
    rw [e, ← List.append_assoc, cells, cellsAux_word, cells_csv' (fun x hx => h x (by simp at hx ⊢; tauto)) (by decide)]
    · simp
    · intro c hc
      rcases List.mem_append.1 hc with hc | hc
      · exact hs c hc
      · exact h a (by simp) c hc

theorem cells_csv {a : List Char} {l : List (List Char)} (h : ∀ x ∈ a :: l, ∀ c ∈ x, c ≠ ',') : cells (csv (a :: l)) = a :: l.map (fun x => ' ' :: x) :=
  cells_csv' (s := []) h (by simp)

theorem readNat_decimal (n : ℕ) : readNat (decimal n) = some n := by
  have h := Nat.ofDigitChars_ten_toDigits (n := n)
  rw [Nat.ofDigitChars_eq_foldl, ← decimal_eq] at h
  have e : (decimal n).foldl (fun n c => n * 10 + (c.toNat - 48)) 0 = n := by
    conv_rhs => rw [← h]
    congr 1
    funext x c
    rw [Nat.mul_comm]; rfl
  unfold readNat
  rw [if_pos ⟨(decimal_digits n).1, List.all_eq_true.2 (decimal_digits n).2⟩, e]

theorem decimal_cons (n : ℕ) : ∃ c l, decimal n = c :: l ∧ isDig c = true := by
  have h := decimal_digits n
  match hd : decimal n with
  | [] => exact absurd hd h.1
  | c :: l => exact ⟨c, l, rfl, h.2 c (by rw [hd]; simp)⟩

theorem readInt_blank (s : List Char) : readInt (' ' :: s) = readInt s := by
  unfold readInt
  rw [List.dropWhile_cons_of_pos (by decide)]

theorem readInt_decimal (n : ℤ) : readInt (decimalInt n) = some n := by
  rw [← formatInt_eq]
  unfold formatInt readInt
  rw [formatUint_ten]
  obtain ⟨c, l, e, hc⟩ := decimal_cons n.natAbs
  have h1 : c ≠ ' ' := by rintro rfl; revert hc; decide
  have h2 : c ≠ '-' := by rintro rfl; revert hc; decide
  have hr := readNat_decimal n.natAbs
  by_cases hn : n < 0
  · rw [if_pos hn, List.dropWhile_cons_of_neg (by decide)]
    simp only [hr, Option.map_some, Option.some.injEq]
    omega
  · rw [if_neg hn]
    rw [e] at hr ⊢
    rw [List.dropWhile_cons_of_neg (by simp [h1])]
    split
    · rename_i h
      exact absurd (List.cons.inj h).1 h2
    · rw [hr]
      simp
      omega

/-- The numbers of a measurement. -/
def values (m : ℤ × ℤ × ℕ × ℤ × ℤ × ℤ × ℤ) : List ℤ := [m.1, m.2.1, (m.2.2.1 : ℤ), m.2.2.2.1, m.2.2.2.2.1, m.2.2.2.2.2.1, m.2.2.2.2.2.2]

theorem row_cells (m : ℤ × ℤ × ℕ × ℤ × ℤ × ℤ × ℤ) : (cells (row m.1 m.2.1 m.2.2.1 m.2.2.2)).length = 7 ∧ (cells (row m.1 m.2.1 m.2.2.1 m.2.2.2)).mapM readInt = some (values m) := by
  rw [row_csv]
  simp only [List.map_cons, List.map_nil]
  rw [cells_csv]
  · refine ⟨rfl, ?_⟩
    simp only [List.map_cons, List.map_nil, List.mapM_cons, List.mapM_nil, readInt_blank, readInt_decimal]
    rfl
  · intro x hx
    simp only [List.mem_cons, List.not_mem_nil, or_false] at hx
    rcases hx with rfl | rfl | rfl | rfl | rfl | rfl | rfl <;> exact fun c hc => (decimalInt_nocomma _ c hc).1

theorem row_ne (m : ℤ × ℤ × ℕ × ℤ × ℤ × ℤ × ℤ) : row m.1 m.2.1 m.2.2.1 m.2.2.2 ≠ [] := by
  unfold row
  simp

theorem mapM_some {α β : Type} {f : α → Option β} {g : α → β} : ∀ {l : List α}, (∀ x ∈ l, f x = some (g x)) → l.mapM f = some (l.map g)
  | [], _ => rfl
  | a :: l, h => by
    rw [List.mapM_cons, h a (by simp), mapM_some (fun x hx => h x (by simp [hx]))]
    rfl

/-! ### Statistics -/

theorem sort_perm (xs : List ℚ) : (xs.insertionSort (· ≤ ·)).Perm xs := List.perm_insertionSort _ _

theorem sort_sorted (xs : List ℚ) : (xs.insertionSort (· ≤ ·)).Pairwise (· ≤ ·) := List.pairwise_insertionSort _ _

theorem quantile_spec {xs s : List ℚ} {q : ℚ} (h0 : xs ≠ []) (hp : s.Perm xs) (hs : s.Pairwise (· ≤ ·)) (q0 : 0 ≤ q) (q1 : q ≤ 1) :
    ∃ v, quantile q s = some v ∧ Stat.IsQuantile xs q v := by
  have hl := hp.length_eq
  have hn : 0 < xs.length := List.length_pos_of_ne_nil h0
  have hn1 : (1 : ℚ) ≤ xs.length := by exact_mod_cast hn
  have hh0 : 0 ≤ q * ((xs.length : ℚ) - 1) := mul_nonneg q0 (by linarith)
  have hh1 : q * ((xs.length : ℚ) - 1) ≤ xs.length - 1 := by nlinarith
  have f1 := Nat.floor_le hh0
  have f2 := Nat.lt_floor_add_one (q * ((xs.length : ℚ) - 1))
  generalize hL : ⌊q * ((xs.length : ℚ) - 1)⌋₊ = L at f1 f2
  have hLn : L < s.length := by
    have : (L : ℚ) < xs.length := by linarith
    rw [hl]
    exact_mod_cast this
  have hLs : s[L]? = some s[L] := List.getElem?_eq_getElem hLn
  refine ⟨s[L] + (q * ((xs.length : ℚ) - 1) - L) * (s.getD (L + 1) s[L] - s[L]), ?_, s, hp, hs, L, s[L], hLs, f1, ?_⟩
  · unfold quantile
    simp only [hl, hL]
    rw [hLs]
  · by_cases he : (L : ℚ) = q * ((xs.length : ℚ) - 1)
    · left
      exact ⟨by rw [← he]; ring, he⟩
    · right
      have : L + 1 < s.length := by
        have h : (L : ℚ) < xs.length - 1 := lt_of_lt_of_le (lt_of_le_of_ne f1 he) hh1
        rw [hl]
        have : ((L + 1 : ℕ) : ℚ) < xs.length := by push_cast; linarith
        exact_mod_cast this
      exact ⟨s[L + 1], List.getElem?_eq_getElem this, f2.le, by rw [List.getD_eq_getElem?_getD, List.getElem?_eq_getElem this]; rfl⟩

theorem sum_sq_diff (xs : List ℚ) (x : ℚ) : (xs.map (fun y => (x - y) ^ 2)).sum = xs.length * x ^ 2 - 2 * x * xs.sum + (xs.map (fun y => y ^ 2)).sum := by
  induction xs with
  | nil => simp
  | cons a l ih => simp only [List.map_cons, List.sum_cons, ih, List.length_cons, Nat.cast_add, Nat.cast_one]; ring

theorem sum_affine (xs : List ℚ) (a b c : ℚ) : (xs.map (fun x => a * x ^ 2 - 2 * x * b + c)).sum = a * (xs.map (fun y => y ^ 2)).sum - 2 * xs.sum * b + xs.length * c := by
  induction xs with
  | nil => simp
  | cons y l ih => simp only [List.map_cons, List.sum_cons, ih, List.length_cons, Nat.cast_add, Nat.cast_one]; ring

theorem variance_spec {xs : List ℚ} (h : 1 < xs.length) : Stat.IsVariance xs ((xs.map (fun x => (average xs - x) ^ 2)).sum / (xs.length - 1)) := by
  unfold Stat.IsVariance average
  simp only [sum_sq_diff, sum_affine]
  have hn : (1 : ℚ) < xs.length := by exact_mod_cast h
  have h1 : (xs.length : ℚ) - 1 ≠ 0 := by linarith
  have h2 : (xs.length : ℚ) ≠ 0 := by linarith
  field_simp
  ring

theorem head_least {s xs : List ℚ} (hp : s.Perm xs) (hs : s.Pairwise (· ≤ ·)) (h0 : xs ≠ []) : ∃ v, s.head? = some v ∧ Stat.IsLeast xs v := by
  match s, hp, hs with
  | [], hp, _ => exact absurd hp.nil_eq.symm h0
  | a :: l, hp, hs =>
    refine ⟨a, rfl, hp.mem_iff.1 (by simp), fun x hx => ?_⟩
    rcases List.mem_cons.1 (hp.mem_iff.2 hx) with rfl | hx
    · exact le_refl _
    · exact (List.pairwise_cons.1 hs).1 x hx

theorem last_greatest {s xs : List ℚ} (hp : s.Perm xs) (hs : s.Pairwise (· ≤ ·)) (h0 : xs ≠ []) : ∃ v, s.getLast? = some v ∧ Stat.IsGreatest xs v := by
  have hne : s ≠ [] := by rintro rfl; exact h0 hp.nil_eq.symm
  refine ⟨s.getLast hne, List.getLast?_eq_getLast_of_ne_nil hne, hp.mem_iff.1 (List.getLast_mem hne), fun x hx => ?_⟩
  have hx := hp.mem_iff.2 hx
  have e := List.dropLast_append_getLast hne
  rw [← e] at hx hs
  rcases List.mem_append.1 hx with hx | hx
  · exact (List.pairwise_append.1 hs).2.2 x hx _ (by simp)
  · exact (List.mem_singleton.1 hx).le

/-! ### Groups -/

theorem keys_spec (xs : List ℤ) : (keys xs).Pairwise (· < ·) ∧ ∀ k, k ∈ keys xs ↔ k ∈ xs := by
  have h1 : (keys xs).Pairwise (· ≤ ·) := List.pairwise_insertionSort _ _
  have hp : (keys xs).Perm xs.dedup := List.perm_insertionSort _ _
  have h2 : (keys xs).Nodup := hp.nodup_iff.2 (List.nodup_dedup xs)
  refine ⟨?_, fun k => hp.mem_iff.trans List.mem_dedup⟩
  exact (h1.and h2).imp (fun h => lt_of_le_of_ne h.1 h.2)

/-- Every entry is in the group of its key. -/
theorem groups_perm {α : Type} (f : α → ℤ) : ∀ (ks : List ℤ) (l : List α), ks.Nodup → (∀ x ∈ l, f x ∈ ks) → (ks.flatMap (fun k => l.filter (fun x => decide (f x = k)))).Perm l
  | [], l, _, h => by
    cases l with
    | nil => simp
    | cons a l => exact absurd (h a (by simp)) (by simp)
  | k :: ks, l, hn, h => by
    rw [List.flatMap_cons]
    have hk := (List.nodup_cons.1 hn).1
    have e : ks.flatMap (fun k' => l.filter (fun x => decide (f x = k'))) = ks.flatMap (fun k' => (l.filter (fun x => !decide (f x = k))).filter (fun x => decide (f x = k'))) := by
      rw [List.flatMap_def, List.flatMap_def]
      congr 1
      apply List.map_congr_left
      intro k' hk'
      rw [List.filter_filter]
      apply List.filter_congr
      intro x _
      by_cases hx : f x = k'
      · have : f x ≠ k := by rintro h; rw [hx] at h; exact hk (h ▸ hk')
        simp [hx, hx ▸ this]
      · simp [hx]
    rw [e]
    refine (List.Perm.append_left _ (groups_perm f ks _ (List.nodup_cons.1 hn).2 ?_)).trans (List.filter_append_perm _ l)
    intro x hx
    obtain ⟨hx, hx'⟩ := List.mem_filter.1 hx
    rcases List.mem_cons.1 (h x hx) with h | h
    · simp [h] at hx'
    · exact h

end ZkLoc.Runtime
