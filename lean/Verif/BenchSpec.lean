import Verif.Bench
import Verif.TextSpec
import Verif.Spec.Bench
import Mathlib.Tactic.SplitIfs

/-!
# Helper lemmas about the benchmark harness and the test-data files
-/

namespace ZkLoc.Bench
open ZkLoc.Text _root_.Text Report

theorem digitChar_eq {d : ℕ} (h : d < 16) : digitChar d = Nat.digitChar d := by interval_cases d <;> decide

theorem formatUint_ten (n : ℕ) : formatUint 10 n = decimal n := by
  rw [decimal_eq]
  induction n using Nat.strong_induction_on with
  | _ n ih =>
    rw [formatUint, Nat.toDigits_eq_if (by norm_num)]
    by_cases h : n < 10
    · rw [dif_pos (Or.inl h), if_pos h, digitChar_eq (by omega)]
    · rw [dif_neg (by omega), if_neg h, ih _ (by omega), digitChar_eq (by omega)]

theorem formatInt_eq (n : ℤ) : formatInt n = decimalInt n := by
  unfold formatInt decimalInt
  rw [formatUint_ten]
  unfold decimal
  cases n with
  | ofNat n =>
    rw [if_neg (by simp)]
    simp [Int.toString_eq_repr, Int.repr_eq_if]
  | negSucc n =>
    rw [if_pos (Int.negSucc_lt_zero n)]
    simp [Int.toString_eq_repr, Int.repr_eq_if]


theorem row_csv (r i : ℤ) (nb : ℕ) (t : ℤ × ℤ × ℤ × ℤ) : row r i nb t = csv ([r, i, (nb : ℤ), t.1, t.2.1, t.2.2.1, t.2.2.2].map decimalInt) := by
  simp [row, formatInt_eq, csv, List.intercalate]

theorem decimalInt_nocomma (n : ℤ) : ∀ c ∈ decimalInt n, c ≠ ',' ∧ c ≠ '\n' := by
  rw [← formatInt_eq]
  have h : ∀ m : ℕ, ∀ c ∈ formatUint 10 m, c ≠ ',' ∧ c ≠ '\n' := by
    intro m c hc
    rw [formatUint_ten] at hc
    have := (decimal_digits m).2 c hc
    constructor <;> rintro rfl <;> revert this <;> decide
  intro c hc
  unfold formatInt at hc
  split_ifs at hc
  · rcases List.mem_cons.1 hc with rfl | hc
    · decide
    · exact h _ c hc
  · exact h _ c hc

theorem decimal_inj {m n : ℕ} (h : decimal m = decimal n) : m = n := by
  have h1 := Nat.ofDigitChars_ten_toDigits (n := m)
  have h2 := Nat.ofDigitChars_ten_toDigits (n := n)
  rw [← decimal_eq] at h1 h2
  rw [← h1, h, h2]

theorem decimalInt_inj {m n : ℤ} (h : decimalInt m = decimalInt n) : m = n := by
  rw [← formatInt_eq, ← formatInt_eq] at h
  unfold formatInt at h
  have hd : ∀ (k : ℕ) (l : List Char), formatUint 10 k ≠ '-' :: l := by
    intro k l hk
    have := (decimal_digits k).2 '-' (by rw [← formatUint_ten, hk]; simp)
    revert this; decide
  split_ifs at h with h1 h2 h2
  · have := decimal_inj (m := m.natAbs) (n := n.natAbs) (by rw [← formatUint_ten, ← formatUint_ten]; exact (List.cons.inj h).2)
    omega
  · exact absurd h.symm (hd _ _)
  · exact absurd h (hd _ _)
  · have := decimal_inj (m := m.natAbs) (n := n.natAbs) (by rw [← formatUint_ten, ← formatUint_ten]; exact h)
    omega

theorem csv_inj : ∀ {a b : List (List Char)}, a.length = b.length → (∀ s ∈ a, ∀ c ∈ s, c ≠ ',') → (∀ s ∈ b, ∀ c ∈ s, c ≠ ',') → csv a = csv b → a = b
  | [], [], _, _, _, _ => rfl
  | [], _ :: _, h, _, _, _ => by simp at h
  | _ :: _, [], h, _, _, _ => by simp at h
  | [s], [t], _, _, _, h => by simpa [csv, List.intercalate] using h
  | [s], _ :: _ :: _, h, _, _, _ => by simp at h
  | _ :: _ :: _, [t], h, _, _, _ => by simp at h
  | s :: s' :: a, t :: t' :: b, hl, ha, hb, h => by
    have e : ∀ (s s' : List Char) (a : List (List Char)), csv (s :: s' :: a) = s ++ ',' :: (' ' :: csv (s' :: a)) := by
      intro s s' a; simp [csv, List.intercalate]
    rw [e, e] at h
    obtain ⟨h1, h2⟩ := append_sep_inj (ha s (by simp)) (hb t (by simp)) h
    have := csv_inj (a := s' :: a) (b := t' :: b) (by simpa using hl) (fun x hx => ha x (by simp at hx ⊢; tauto)) (fun x hx => hb x (by simp at hx ⊢; tauto))
      (List.cons.inj h2).2
    rw [h1, this]

/-! ### Reading -/

theorem fieldsAux_word : ∀ {w cur s : List Char} {c : Char}, (∀ x ∈ w, isSpace x = false) → isSpace c = true → cur.reverse ++ w ≠ [] →
    fieldsAux cur (w ++ c :: s) = (cur.reverse ++ w) :: fields s
  | [], cur, s, c, _, hc, h0 => by
    rw [List.nil_append, fieldsAux, if_pos hc, if_neg (by rintro rfl; simp at h0), List.append_nil]; rfl
  | x :: w, cur, s, c, hw, hc, h0 => by
    rw [List.cons_append, fieldsAux, if_neg (by simp [hw x]), fieldsAux_word (fun y hy => hw y (by simp [hy])) hc (by simp)]
    simp

theorem fieldsAux_end : ∀ {w cur : List Char}, (∀ x ∈ w, isSpace x = false) → cur.reverse ++ w ≠ [] → fieldsAux cur w = [cur.reverse ++ w]
  | [], cur, _, h0 => by rw [fieldsAux, if_neg (by rintro rfl; simp at h0), List.append_nil]
  | x :: w, cur, hw, h0 => by
    rw [fieldsAux, if_neg (by simp [hw x]), fieldsAux_end (fun y hy => hw y (by simp [hy])) (by simp)]
    simp

/-- A word followed by white space. -/
theorem fields_word {w s : List Char} {c : Char} (hw : ∀ x ∈ w, isSpace x = false) (hc : isSpace c = true) (h0 : w ≠ []) : fields (w ++ c :: s) = w :: fields s := by
  have := fieldsAux_word (cur := []) (s := s) hw hc (by simpa using h0)
  simpa [fields] using this

theorem fields_end {w : List Char} (hw : ∀ x ∈ w, isSpace x = false) (h0 : w ≠ []) : fields w = [w] := by
  have := fieldsAux_end (cur := []) hw (by simpa using h0)
  simpa [fields] using this

theorem fields_space {s : List Char} {c : Char} (hc : isSpace c = true) : fields (c :: s) = fields s := by
  unfold fields; rw [fieldsAux, if_pos hc, if_pos rfl]

theorem scanAux_line : ∀ {l cur s : List Char}, '\n' ∉ l → scanAux cur (l ++ '\n' :: s) = dropCR (cur.reverse ++ l) :: scanLines s
  | [], cur, s, _ => by rw [List.nil_append, scanAux, if_pos rfl, List.append_nil]; rfl
  | x :: l, cur, s, h => by
    rw [List.cons_append, scanAux, if_neg (by rintro rfl; simp at h), scanAux_line (by simp at h ⊢; tauto)]
    simp

theorem scanLines_line {l s : List Char} (h : '\n' ∉ l) (h' : l.getLast? ≠ some '\r') : scanLines (l ++ '\n' :: s) = l :: scanLines s := by
  have := scanAux_line (cur := []) (s := s) h
  simp only [List.reverse_nil, List.nil_append] at this
  unfold scanLines
  rw [this, dropCR, if_neg h']; rfl

theorem hexNat_snoc {c : Char} : ∀ {s : List Char} {acc : ℕ}, hexNat acc (s ++ [c]) = (hexNat acc s).bind (fun n => hexNat n [c])
  | [], acc => by simp [hexNat]
  | x :: s, acc => by
    simp only [List.cons_append, hexNat]
    cases digitVal x with
    | none => rfl
    | some d =>
      simp only
      split_ifs
      · rw [hexNat_snoc]; rfl
      · rfl

theorem hexNat_iff {s : List Char} {n : ℕ} : hexNat 0 s = some n ↔ HexDenotes s n := by
  induction s using List.reverseRecOn generalizing n with
  | nil =>
    simp only [hexNat, Option.some.injEq]
    constructor
    · rintro rfl; exact .nil
    · intro h
      generalize hs : ([] : List Char) = s at h
      cases h with
      | nil => rfl
      | snoc => simp at hs
  | append_singleton s c ih =>
    rw [hexNat_snoc, Option.bind_eq_some_iff]
    constructor
    · rintro ⟨m, h1, h2⟩
      simp only [hexNat] at h2
      cases hd : digitVal c with
      | none => rw [hd] at h2; simp at h2
      | some d =>
        rw [hd] at h2
        simp only at h2
        split_ifs at h2 with h
        simp only [Option.some.injEq] at h2
        rw [← h2]
        exact .snoc (ih.1 h1) (hexDigit_iff.2 ⟨hd, h⟩)
    · intro h
      generalize hs : s ++ [c] = t at h
      cases h with
      | nil => simp at hs
      | @snoc s' m c' d h hd =>
        obtain ⟨rfl, h2⟩ := List.append_inj' hs rfl
        simp only [List.cons.injEq, and_true] at h2
        subst h2
        refine ⟨m, ih.2 h, ?_⟩
        obtain ⟨h1, h2⟩ := hexDigit_iff.1 hd
        simp [hexNat, h1, h2]

theorem upperChar_digit {d : ℕ} (h : d < 16) : HexDigit (upperChar d) d := ⟨h, Or.inr (by interval_cases d <;> decide)⟩

theorem formatUpper_denotes (n : ℕ) : HexDenotes (formatUpper n) n := by
  induction n using Nat.strong_induction_on with
  | _ n ih =>
    rw [formatUpper]
    split_ifs with h
    · have := HexDenotes.snoc .nil (upperChar_digit h)
      simpa using this
    · have := HexDenotes.snoc (ih (n / 16) (by omega)) (upperChar_digit (Nat.mod_lt n (by norm_num)))
      rwa [Nat.div_add_mod' n 16] at this

theorem formatUpper_ne_nil (n : ℕ) : formatUpper n ≠ [] := by rw [formatUpper]; split_ifs <;> simp

theorem hexDenotes_zeros (k : ℕ) {s : List Char} {n : ℕ} (h : HexDenotes s n) : HexDenotes (List.replicate k '0' ++ s) n := by
  have hz : HexDigit '0' 0 := ⟨by norm_num, by decide⟩
  have h0 : HexDenotes (List.replicate k '0') 0 := by
    induction k with
    | zero => exact .nil
    | succ k ih =>
      rw [List.replicate_succ']
      simpa using HexDenotes.snoc ih hz
  induction h with
  | nil => simpa using h0
  | snoc _ hd ih => rw [← List.append_assoc]; exact .snoc ih hd

theorem formatPadded_denotes (w n : ℕ) : HexDenotes (formatPadded w n) n := hexDenotes_zeros _ (formatUpper_denotes n)

theorem hexDenotes_chars {s : List Char} {n : ℕ} (h : HexDenotes s n) : ∀ c ∈ s, isSpace c = false ∧ c ≠ '-' ∧ c ≠ '+' ∧ c ≠ '\n' ∧ c ≠ '\r' := by
  induction h with
  | nil => simp
  | @snoc s n c d _ hd ih =>
    intro x hx
    rw [List.mem_append, List.mem_singleton] at hx
    rcases hx with hx | rfl
    · exact ih x hx
    · obtain ⟨h, h'⟩ := hd
      interval_cases d <;> rcases h' with h' | h' <;> simp at h' <;> subst h' <;> decide

theorem setString16_nat {s : List Char} {n : ℕ} (h0 : s ≠ []) (h : HexDenotes s n) : setString16 s = some (n : ℤ) := by
  cases s with
  | nil => simp at h0
  | cons c s =>
    have := hexDenotes_chars h c (by simp)
    rw [setString16, if_neg this.2.1, if_neg this.2.2.1, hexNat_iff.2 h]
    rfl

end ZkLoc.Bench
