import Verif.Text
import Verif.Spec.Text
import Verif.Spec.Ieee
import Mathlib.Tactic.Linarith
import Mathlib.Tactic.NormNum
import Mathlib.Tactic.IntervalCases

/-!
# Helper lemmas about the text helpers
-/

namespace ZkLoc.Text
open _root_.Text

theorem hexDigit_iff {c : Char} {d : ℕ} : HexDigit c d ↔ digitVal c = some d ∧ d < 16 := by
  constructor
  · rintro ⟨h, h'⟩
    refine ⟨?_, h⟩
    interval_cases d <;> rcases h' with h' | h' <;> simp at h' <;> subst h' <;> decide
  · rintro ⟨h, h'⟩
    refine ⟨h', ?_⟩
    have hc : ∀ n : ℕ, c.toNat = n → c = Char.ofNat n := fun n hn => by rw [← hn, Char.ofNat_toNat]
    unfold digitVal at h
    split_ifs at h with h1 h2 h3
    · simp only [Option.some.injEq] at h
      have : c.toNat = 48 + d := by omega
      rw [hc _ this]
      have : d < 10 := by omega
      interval_cases d <;> decide
    · simp only [Option.some.injEq] at h
      have : c.toNat = 87 + d := by omega
      rw [hc _ this]
      have : 10 ≤ d := by omega
      interval_cases d <;> decide
    · simp only [Option.some.injEq] at h
      have : c.toNat = 55 + d := by omega
      rw [hc _ this]
      have : 10 ≤ d := by omega
      interval_cases d <;> decide

theorem digitVal_digitChar {d : ℕ} (h : d < 16) : digitVal (digitChar d) = some d := by
  interval_cases d <;> decide

/-- Appending a digit. -/
theorem parseLoop_snoc {base bits : ℕ} (hb : 0 < base) {c : Char} : ∀ {s : List Char} {acc : ℕ}, parseLoop base bits acc (s ++ [c]) =
    (parseLoop base bits acc s).bind (fun n => parseLoop base bits n [c])
  | [], acc => by simp [parseLoop]
  | x :: s, acc => by
    simp only [List.cons_append, parseLoop]
    cases digitVal x with
    | none => rfl
    | some d =>
      simp only
      split_ifs with h
      · rw [parseLoop_snoc hb]; rfl
      · rfl

theorem parseLoop_hex {bits : ℕ} {s : List Char} {n : ℕ} : parseLoop 16 bits 0 s = some n ↔ HexDenotes s n ∧ (s ≠ [] → n < 2 ^ bits) := by
  induction s using List.reverseRecOn generalizing n with
  | nil =>
    simp only [parseLoop, Option.some.injEq, ne_eq, not_true_eq_false, false_implies, and_true]
    constructor
    · rintro rfl; exact .nil
    · intro h
      generalize hs : ([] : List Char) = s at h
      cases h with
      | nil => rfl
      | snoc => simp at hs
  | append_singleton s c ih =>
    rw [parseLoop_snoc (by norm_num), Option.bind_eq_some_iff]
    constructor
    · rintro ⟨m, h1, h2⟩
      simp only [parseLoop] at h2
      cases hd : digitVal c with
      | none => rw [hd] at h2; simp at h2
      | some d =>
        rw [hd] at h2
        simp only at h2
        split_ifs at h2 with h
        simp only [Option.some.injEq] at h2
        subst h2
        exact ⟨.snoc (ih.1 h1).1 (hexDigit_iff.2 ⟨hd, h.1⟩), fun _ => h.2⟩
    · rintro ⟨h1, h2⟩
      have h2 := h2 (by simp)
      generalize hs : s ++ [c] = t at h1
      cases h1 with
      | nil => simp at hs
      | @snoc s' m c' d h3 h4 =>
        obtain ⟨rfl, hc⟩ := List.append_inj' hs rfl
        simp only [List.cons.injEq, and_true] at hc
        subst hc
        rw [hexDigit_iff] at h4
        refine ⟨m, ih.2 ⟨h3, fun _ => by omega⟩, ?_⟩
        simp only [parseLoop, h4.1]
        rw [if_pos ⟨h4.2, h2⟩]

theorem formatUint_ne_nil (base n : ℕ) : formatUint base n ≠ [] := by
  unfold formatUint
  split_ifs <;> simp

theorem formatHex_denotes (n : ℕ) : HexDenotes (formatUint 16 n) n := by
  induction n using Nat.strong_induction_on with
  | _ n ih =>
    unfold formatUint
    split_ifs with h
    · have h : n < 16 := by omega
      have := HexDenotes.snoc .nil (hexDigit_iff.2 ⟨digitVal_digitChar h, h⟩)
      simpa using this
    · have h : 16 ≤ n := by omega
      have := HexDenotes.snoc (ih (n / 16) (by omega)) (hexDigit_iff.2 ⟨digitVal_digitChar (d := n % 16) (by omega), by omega⟩)
      rwa [show n / 16 * 16 + n % 16 = n by omega] at this

theorem hexDenotes_unique {s : List Char} {m n : ℕ} (h : HexDenotes s m) (h' : HexDenotes s n) : m = n := by
  have h1 := (parseLoop_hex (bits := m + n)).2 ⟨h, fun _ => (Nat.lt_two_pow_self).trans_le (Nat.pow_le_pow_right (by norm_num) (by omega))⟩
  have h2 := (parseLoop_hex (bits := m + n)).2 ⟨h', fun _ => (Nat.lt_two_pow_self).trans_le (Nat.pow_le_pow_right (by norm_num) (by omega))⟩
  rw [h1] at h2
  simpa using h2

/-- Hexadecimal digits are not blanks. -/
theorem formatUint_noblank (n : ℕ) : ∀ c ∈ formatUint 16 n, c ≠ ' ' ∧ c ≠ '\n' := by
  have hd : ∀ d, d < 16 → digitChar d ≠ ' ' ∧ digitChar d ≠ '\n' := by decide
  induction n using Nat.strong_induction_on with
  | _ n ih =>
    unfold formatUint
    split_ifs with h
    · intro c hc
      simp only [List.mem_singleton] at hc
      subst hc; exact hd n (by omega)
    · intro c hc
      rw [List.mem_append, List.mem_singleton] at hc
      rcases hc with hc | rfl
      · exact ih _ (by omega) c hc
      · exact hd _ (by omega)

theorem append_sep_inj {c : Char} {s t s' t' : List Char} (hs : ∀ x ∈ s, x ≠ c) (ht : ∀ x ∈ t, x ≠ c) (h : s ++ c :: s' = t ++ c :: t') : s = t ∧ s' = t' := by
  induction s generalizing t with
  | nil =>
    cases t with
    | nil => simpa using h
    | cons y t =>
      simp only [List.nil_append, List.cons_append, List.cons.injEq] at h
      exact absurd h.1.symm (ht y (by simp))
  | cons x s ih =>
    cases t with
    | nil =>
      simp only [List.nil_append, List.cons_append, List.cons.injEq] at h
      exact absurd h.1 (hs x (by simp))
    | cons y t =>
      simp only [List.cons_append, List.cons.injEq] at h
      obtain ⟨h1, h2⟩ := ih (fun z hz => hs z (by simp [hz])) (fun z hz => ht z (by simp [hz])) h.2
      exact ⟨by rw [h.1, h1], h2⟩

/-- A small double pattern is a subnormal. -/
theorem decode_small {n : ℕ} (h : n < 2 ^ 32) : Ieee.decodeBits ⟨11, 52⟩ n = .fin false (n * (2:ℝ) ^ (-1074 : ℤ)) := by
  have h1 : n / 2 ^ 52 = 0 := Nat.div_eq_of_lt (by omega)
  have h2 : n % 2 ^ 52 = n := Nat.mod_eq_of_lt (by omega)
  have h3 : n.testBit (11 + 52) = false := Nat.testBit_lt_two_pow (by omega)
  unfold Ieee.decodeBits
  simp only [h1, h2, h3]
  norm_num [Ieee.Format.qmin, Ieee.Format.emin, Ieee.Format.bias]

/-- A single-precision value is zero or not that small. -/
theorem decode_single_ge {v : ℕ} {s : Bool} {a : ℝ} (h : Ieee.decodeBits ⟨8, 23⟩ v = .fin s a) (ha : a ≠ 0) : (2:ℝ) ^ (-149 : ℤ) ≤ a := by
  unfold Ieee.decodeBits at h
  simp only at h
  split_ifs at h with h1 h2 h3
  · simp only [Ieee.Datum.fin.injEq] at h
    obtain ⟨-, rfl⟩ := h
    have hm : (1:ℝ) ≤ ((v % 2 ^ 23 : ℕ) : ℝ) := by
      have : v % 2 ^ 23 ≠ 0 := by rintro h0; exact ha (by rw [h0]; simp)
      exact_mod_cast Nat.one_le_iff_ne_zero.2 this
    have e : (⟨8, 23⟩ : Ieee.Format).qmin = -149 := by norm_num [Ieee.Format.qmin, Ieee.Format.emin, Ieee.Format.bias]
    rw [e]
    exact le_mul_of_one_le_left (by positivity) hm
  · simp only [Ieee.Datum.fin.injEq] at h
    obtain ⟨-, rfl⟩ := h
    have e1 : (1:ℤ) ≤ ((v / 2 ^ 23 % 2 ^ 8 : ℕ) : ℤ) := by
      have : v / 2 ^ 23 % 2 ^ 8 ≠ 0 := h3
      exact_mod_cast Nat.one_le_iff_ne_zero.2 this
    have e : (⟨8, 23⟩ : Ieee.Format).bias = 127 := by norm_num [Ieee.Format.bias]
    rw [e]
    calc (2:ℝ) ^ (-149 : ℤ) ≤ 2 ^ (((v / 2 ^ 23 % 2 ^ 8 : ℕ) : ℤ) - 127 - (23 : ℕ)) := zpow_le_zpow_right₀ (by norm_num) (by push_cast at *; omega)
      _ ≤ _ := by
        refine le_mul_of_one_le_left (by positivity) ?_
        have : (0:ℝ) ≤ ((v % 2 ^ 23 : ℕ) : ℝ) := Nat.cast_nonneg _
        norm_num at this ⊢; linarith

/-! ### Bytes -/

theorem hexByte_val {n : ℕ} (h : n < 256) : ∃ a b, hexByte n = [a, b] ∧ digitVal a = some (n / 16) ∧ digitVal b = some (n % 16) := by
  have hd : ∀ d, d < 16 → digitVal ("0123456789abcdef".toList.getD d '?') = some d := by decide
  exact ⟨_, _, rfl, hd _ (by omega), hd _ (by omega)⟩

theorem decodeHex_bytes : ∀ (n : ℕ) (s : List Char), s.length ≤ n → (∀ m ∈ (decodeHex s).1, m < 256) ∧ 2 * (decodeHex s).1.length ≤ s.length
  | _, [], _ => by simp [decodeHex]
  | _, [_], _ => by simp [decodeHex]
  | 0, a :: c :: s, h => by simp at h
  | n + 1, a :: c :: s, h => by
    have ih := decodeHex_bytes n s (by simp at h; omega)
    simp only [decodeHex]
    cases digitVal a with
    | none => simp
    | some x =>
      cases digitVal c with
      | none => simp
      | some y =>
        simp only
        split_ifs with hxy
        · refine ⟨?_, by simp only [List.length_cons]; omega⟩
          intro m hm
          simp only [List.mem_cons] at hm
          rcases hm with rfl | hm
          · omega
          · exact ih.1 m hm
        · simp

theorem decodeHex_hexBytes {s : List Char} {l : List ℕ} (h : HexBytes s l) (t : List Char) :
    decodeHex (s ++ t) = (l ++ (decodeHex t).1, (decodeHex t).2) := by
  induction h with
  | nil => simp
  | cons ha hc _ ih =>
    rw [hexDigit_iff] at ha hc
    simp only [List.cons_append, decodeHex, ha.1, hc.1, ih]
    rw [if_pos ⟨ha.2, hc.2⟩, Nat.mul_comm]

theorem decodeHex_bad {s : List Char} (h : BadPair s) : decodeHex s = ([], false) := by
  match s, h with
  | [_], _ => rfl
  | a :: c :: s, h =>
    simp only [decodeHex]
    cases ha : digitVal a with
    | none => rfl
    | some x =>
      cases hc : digitVal c with
      | none => rfl
      | some y =>
        simp only
        rw [if_neg]
        rintro ⟨hx, hy⟩
        rcases h with h | h
        · exact h x (hexDigit_iff.2 ⟨ha, hx⟩)
        · exact h y (hexDigit_iff.2 ⟨hc, hy⟩)

theorem hexBytes_print : ∀ {l : List ℕ}, (∀ n ∈ l, n < 256) → HexBytes (l.flatMap hexByte) l
  | [], _ => .nil
  | n :: l, h => by
    have hn := h n (by simp)
    obtain ⟨a, c, e, ha, hc⟩ := hexByte_val hn
    rw [List.flatMap_cons, e]
    have := HexBytes.cons (hexDigit_iff.2 ⟨ha, by omega⟩) (hexDigit_iff.2 ⟨hc, by omega⟩) (hexBytes_print (l := l) (fun m hm => h m (by simp [hm])))
    rwa [show 16 * (n / 16) + n % 16 = n by omega] at this

/-! ### Runs and literals -/

theorem lit_append : ∀ (l s : List Char), lit l (l ++ s) = some s
  | [], s => rfl
  | c :: l, s => by simp [lit, lit_append l s]

theorem lit_len : ∀ {l s t : List Char}, lit l s = some t → s.length = l.length + t.length
  | [], s, t, h => by simp only [lit, Option.some.injEq] at h; subst h; simp
  | c :: l, [], t, h => by simp [lit] at h
  | c :: l, d :: s, t, h => by
    simp only [lit] at h
    split_ifs at h
    have := lit_len h
    simp only [List.length_cons]; omega

/-- `s` does not begin with a character of the run. -/
def Ends (q : Char → Bool) (s : List Char) : Prop := ∀ c ∈ s.head?, q c = false

theorem takeWhile_run {q : Char → Bool} {d s : List Char} (hd : ∀ c ∈ d, q c = true) (hs : Ends q s) :
    (d ++ s).takeWhile q = d ∧ (d ++ s).dropWhile q = s := by
  induction d with
  | nil =>
    cases s with
    | nil => simp
    | cons c s =>
      have := hs c (by simp)
      simp [this]
  | cons c d ih =>
    have := hd c (by simp)
    obtain ⟨h1, h2⟩ := ih (fun c' h => hd c' (by simp [h]))
    simp [this, h1, h2]

theorem run1_append {q : Char → Bool} {d s : List Char} (h0 : d ≠ []) (hd : ∀ c ∈ d, q c = true) (hs : Ends q s) : run1 q (d ++ s) = some (d, s) := by
  obtain ⟨h1, h2⟩ := takeWhile_run hd hs
  unfold run1
  rw [h1, h2, if_neg h0]

theorem run1_ends {q : Char → Bool} {s : List Char} (hs : Ends q s) : run1 q s = none := by
  obtain ⟨h1, _⟩ := takeWhile_run (d := []) (by simp) hs
  rw [List.nil_append] at h1
  unfold run1
  rw [h1, if_pos rfl]

theorem run1_len {q : Char → Bool} {s d t : List Char} (h : run1 q s = some (d, t)) : s.length = d.length + t.length ∧ 0 < d.length := by
  unfold run1 at h
  split_ifs at h with h0
  simp only [Option.some.injEq, Prod.mk.injEq] at h
  obtain ⟨rfl, rfl⟩ := h
  refine ⟨?_, List.length_pos_of_ne_nil h0⟩
  have := congrArg List.length (List.takeWhile_append_dropWhile (p := q) (l := s))
  rw [List.length_append] at this
  omega

theorem isDig_iff {c : Char} : isDig c = true ↔ c ∈ "0123456789".toList := by
  unfold isDig
  rw [decide_eq_true_eq]
  constructor
  · rintro ⟨h1, h2⟩
    have hc : c = Char.ofNat c.toNat := (Char.ofNat_toNat c).symm
    rw [hc]
    generalize c.toNat = n at *
    interval_cases n <;> decide
  · intro h
    simp at h
    rcases h with rfl | rfl | rfl | rfl | rfl | rfl | rfl | rfl | rfl | rfl <;> decide

/-! ### Decimal notation -/

theorem decimal_digits (n : ℕ) : decimal n ≠ [] ∧ ∀ c ∈ decimal n, isDig c = true := by
  have h : decimal n = Nat.toDigits 10 n := by
    unfold decimal
    rw [Nat.toString_eq_repr, Nat.repr]
    simp
  rw [h]
  refine ⟨Nat.toDigits_ne_nil, fun c hc => ?_⟩
  have := Nat.isDigit_of_mem_toDigits (by norm_num) (by norm_num) hc
  unfold isDig
  simp only [Char.isDigit, Bool.and_eq_true, decide_eq_true_eq] at this ⊢
  exact this

theorem decimal_eq (n : ℕ) : decimal n = Nat.toDigits 10 n := by
  unfold decimal
  rw [Nat.toString_eq_repr, Nat.repr]
  simp

theorem atoi_decimal (n : ℕ) : atoi (decimal n) = min n (2 ^ 63 - 1) := by
  have h := Nat.ofDigitChars_ten_toDigits (n := n)
  rw [Nat.ofDigitChars_eq_foldl, ← decimal_eq] at h
  have e : (decimal n).foldl (fun n c => n * 10 + (c.toNat - 48)) 0 = n := by
    conv_rhs => rw [← h]
    congr 1
    funext x c
    rw [Nat.mul_comm]; rfl
  unfold atoi
  rw [e]

theorem matchIJK_none {c : Char} {s : List Char} (h : c ≠ 'I') : matchIJK (c :: s) = none := by
  have : lit ['I', ':', ' '] (c :: s) = none := by
    unfold lit; rw [if_neg (fun e => h e.symm)]
  unfold matchIJK
  rw [this]; rfl

theorem findIJK_skip : ∀ {pre s : List Char}, 'I' ∉ pre → findIJK (pre ++ s) = findIJK s
  | [], _, _ => rfl
  | c :: pre, s, h => by
    rw [List.cons_append, findIJK, matchIJK_none (fun e => h (by simp [e]))]
    exact findIJK_skip (fun h' => h (by simp [h']))

theorem matchIJK_print (i j k : ℕ) {post : List Char} (h : Ends isDig post) : matchIJK (printIJK i j k ++ post) = some (decimal i, decimal j, decimal k) := by
  have hi := decimal_digits i
  have hj := decimal_digits j
  have hk := decimal_digits k
  have hc : ∀ (x : Char) (s : List Char), Ends isDig ([',', ' ', x, ':', ' '] ++ s) := fun _ _ c hc => by simp at hc; subst hc; rfl
  have e : printIJK i j k ++ post = ['I', ':', ' '] ++ (decimal i ++ ([',', ' ', 'J', ':', ' '] ++ (decimal j ++ ([',', ' ', 'K', ':', ' '] ++ (decimal k ++ post))))) := by
    simp [printIJK]
  rw [e]
  unfold matchIJK
  rw [lit_append]
  simp only [Option.bind_eq_bind, Option.bind_some]
  rw [run1_append hi.1 hi.2 (hc _ _)]
  simp only [Option.bind_some]
  rw [lit_append]
  simp only [Option.bind_some]
  rw [run1_append hj.1 hj.2 (hc _ _)]
  simp only [Option.bind_some]
  rw [lit_append]
  simp only [Option.bind_some]
  rw [run1_append hk.1 hk.2 h]
  rfl

theorem findIJK_print {pre post : List Char} (i j k : ℕ) (hp : 'I' ∉ pre) (h : Ends isDig post) :
    findIJK (pre ++ printIJK i j k ++ post) = some (decimal i, decimal j, decimal k) := by
  rw [List.append_assoc, findIJK_skip hp]
  have h1 := matchIJK_print i j k h
  have e : printIJK i j k ++ post = 'I' :: (printIJK i j k ++ post).tail := by simp [printIJK]
  rw [e] at h1 ⊢
  rw [findIJK, h1]

theorem findIJK_none : ∀ {s : List Char}, (∀ t, t <:+ s → matchIJK t = none) → findIJK s = none
  | [], _ => rfl
  | c :: s, h => by
    rw [findIJK, h _ (List.suffix_refl _)]
    exact findIJK_none (fun t ht => h t (ht.trans (List.suffix_cons _ _)))

/-! ### Boundary points -/

theorem matchDec_len {s t : List Char} {r} (h : matchDec s = some (r, t)) : t.length < s.length := by
  unfold matchDec at h
  simp only [Option.bind_eq_bind, Option.bind_eq_some_iff, Option.pure_def, Option.some.injEq, Prod.mk.injEq, Prod.exists] at h
  obtain ⟨a, s1, h1, s2, h2, c, s3, h3, -, rfl⟩ := h
  have := run1_len h1
  have := lit_len h2
  have := run1_len h3
  simp only [List.length_cons, List.length_nil] at *
  omega

theorem matchPoint_len {s t : List Char} {r} (h : matchPoint s = some (r, t)) : t.length < s.length := by
  unfold matchPoint at h
  simp only [Option.bind_eq_bind, Option.bind_eq_some_iff, Option.pure_def, Option.some.injEq, Prod.mk.injEq, Prod.exists] at h
  obtain ⟨_, _, s1, h1, _, s2, h2, _, _, s3, h3, -, rfl⟩ := h
  have := matchDec_len h1
  have := run1_len h2
  have := matchDec_len h3
  omega

theorem findPoints_fuel : ∀ (n m : ℕ) (s : List Char), s.length < n → s.length < m → findPoints n s = findPoints m s
  | 0, _, s, h, _ => by omega
  | _, 0, s, _, h => by omega
  | n + 1, m + 1, s, h, h' => by
    simp only [findPoints]
    cases hm : matchPoint s with
    | some r =>
      obtain ⟨r, t⟩ := r
      have := matchPoint_len hm
      simp only
      rw [findPoints_fuel n m t (by omega) (by omega)]
    | none =>
      cases s with
      | nil => rfl
      | cons c s =>
        simp only [List.length_cons] at h h'
        exact findPoints_fuel n m s (by omega) (by omega)

theorem parseBoundary_match {s t : List Char} {r} (h : matchPoint s = some (r, t)) : parseBoundary s = r :: parseBoundary t := by
  have := matchPoint_len h
  unfold parseBoundary
  rw [findPoints.eq_def]
  simp only [h]
  rw [findPoints_fuel _ (t.length + 1) t (by omega) (by omega)]

theorem parseBoundary_skip {c : Char} {s : List Char} (h : matchPoint (c :: s) = none) : parseBoundary (c :: s) = parseBoundary s := by
  unfold parseBoundary
  rw [List.length_cons, findPoints, h]

theorem parseBoundary_nil : parseBoundary [] = [] := by decide

theorem matchDec_ends {s : List Char} (h : Ends isDig s) : matchDec s = none := by
  unfold matchDec
  rw [run1_ends h]; rfl

theorem matchPoint_of_dec {s : List Char} (h : matchDec s = none) : matchPoint s = none := by
  unfold matchPoint
  rw [h]; rfl

theorem parseBoundary_nondigit {c : Char} {s : List Char} (h : isDig c = false) : parseBoundary (c :: s) = parseBoundary s :=
  parseBoundary_skip (matchPoint_of_dec (matchDec_ends (fun x hx => by simp at hx; subst hx; exact h)))

theorem parseBoundary_nondigits : ∀ {w s : List Char}, (∀ c ∈ w, isDig c = false) → parseBoundary (w ++ s) = parseBoundary s
  | [], _, _ => rfl
  | c :: w, s, h => by
    rw [List.cons_append, parseBoundary_nondigit (h c (by simp))]
    exact parseBoundary_nondigits (fun x hx => h x (by simp [hx]))

theorem matchDec_print {a f t : List Char} (ha : a ≠ []) (hf : f ≠ []) (hda : ∀ c ∈ a, isDig c = true) (hdf : ∀ c ∈ f, isDig c = true) (ht : Ends isDig t) :
    matchDec (a ++ '.' :: (f ++ t)) = some ((a, f), t) := by
  unfold matchDec
  rw [run1_append ha hda (fun c hc => by simp at hc; subst hc; rfl)]
  simp only [Option.bind_eq_bind, Option.bind_some]
  have : lit ['.'] ('.' :: (f ++ t)) = some (f ++ t) := lit_append ['.'] _
  rw [this]
  simp only [Option.bind_some]
  rw [run1_append hf hdf ht]
  rfl

theorem spc_nondig {c : Char} (h : isSpc c = true) : isDig c = false ∧ c ≠ '.' := by
  unfold isSpc at h
  simp only [Bool.or_eq_true, decide_eq_true_eq] at h
  rcases h with (((rfl | rfl) | rfl) | rfl) | rfl <;> decide

theorem ends_append {q : Char → Bool} {w s : List Char} (h0 : w ≠ []) (h : ∀ c ∈ w, q c = false) : Ends q (w ++ s) := by
  cases w with
  | nil => exact absurd rfl h0
  | cons c w => intro x hx; simp at hx; subst hx; exact h c (by simp)

/-- A run of digits that is followed by a blank is passed over. -/
theorem skip_frac {w rest : List Char} (hw0 : w ≠ []) (hw : ∀ c ∈ w, isSpc c = true) :
    ∀ {f : List Char}, (∀ c ∈ f, isDig c = true) → parseBoundary (f ++ (w ++ rest)) = parseBoundary (w ++ rest)
  | [], _ => rfl
  | c :: f, h => by
    have e : matchPoint ((c :: f) ++ (w ++ rest)) = none := by
      apply matchPoint_of_dec
      unfold matchDec
      rw [run1_append (by simp) h (ends_append hw0 (fun c hc => (spc_nondig (hw c hc)).1))]
      simp only [Option.bind_eq_bind, Option.bind_some]
      have : lit ['.'] (w ++ rest) = none := by
        cases w with
        | nil => exact absurd rfl hw0
        | cons x w =>
          rw [List.cons_append, lit, if_neg (fun e => (spc_nondig (hw x (by simp))).2 e.symm)]
      rw [this]; rfl
    rw [List.cons_append, parseBoundary_skip (by rw [← List.cons_append]; exact e)]
    exact skip_frac hw0 hw (fun x hx => h x (by simp [hx]))

/-- A number that is not followed by a number without sign is passed over. -/
theorem skip_dec {w rest f : List Char} (hw0 : w ≠ []) (hw : ∀ c ∈ w, isSpc c = true) (hr : Ends isSpc rest) (hm : matchDec rest = none)
    (hf0 : f ≠ []) (hf : ∀ c ∈ f, isDig c = true) :
    ∀ {a : List Char}, (∀ c ∈ a, isDig c = true) → parseBoundary (a ++ '.' :: (f ++ (w ++ rest))) = parseBoundary rest
  | [], _ => by
    rw [List.nil_append, parseBoundary_nondigit (by rfl), skip_frac hw0 hw hf, parseBoundary_nondigits (fun c hc => (spc_nondig (hw c hc)).1)]
  | c :: a, h => by
    have e : matchPoint ((c :: a) ++ '.' :: (f ++ (w ++ rest))) = none := by
      unfold matchPoint
      rw [matchDec_print (by simp) hf0 h hf (ends_append hw0 (fun c hc => (spc_nondig (hw c hc)).1))]
      simp only [Option.bind_eq_bind, Option.bind_some]
      rw [run1_append hw0 hw hr]
      simp only [Option.bind_some]
      rw [hm]; rfl
    rw [List.cons_append, parseBoundary_skip (by rw [← List.cons_append]; exact e)]
    exact skip_dec hw0 hw hr hm hf0 hf (fun x hx => h x (by simp [hx]))

theorem Dec.Valid.digs {d : Dec} (h : d.Valid) : d.int ≠ [] ∧ d.frac ≠ [] ∧ (∀ c ∈ d.int, isDig c = true) ∧ ∀ c ∈ d.frac, isDig c = true :=
  ⟨h.1, h.2.1, fun c hc => isDig_iff.2 (h.2.2.1 c hc), fun c hc => isDig_iff.2 (h.2.2.2 c hc)⟩

theorem print_pos {d : Dec} (h : d.neg = false) (s : List Char) : d.print ++ s = d.int ++ '.' :: (d.frac ++ s) := by
  simp [Dec.print, h]
theorem print_neg {d : Dec} (h : d.neg = true) (s : List Char) : d.print ++ s = '-' :: (d.int ++ '.' :: (d.frac ++ s)) := by
  simp [Dec.print, h]

/-- The sign of the first number does not matter. -/
theorem parse_sign {d : Dec} (s : List Char) : parseBoundary (d.print ++ s) = parseBoundary (d.int ++ '.' :: (d.frac ++ s)) := by
  cases h : d.neg with
  | false => rw [print_pos h]
  | true => rw [print_neg h, parseBoundary_nondigit (by rfl)]

theorem dig_nonspc {c : Char} (h : isDig c = true) : isSpc c = false := by
  by_contra h'
  have := (spc_nondig (by simpa using h')).1
  rw [h] at this; simp at this

theorem print_ends {d : Dec} (h : d.Valid) (s : List Char) : Ends isSpc (d.print ++ s) := by
  cases hn : d.neg with
  | true => rw [print_neg hn]; intro x hx; simp at hx; subst hx; rfl
  | false =>
    rw [print_pos hn]
    have h := Dec.Valid.digs h
    exact ends_append h.1 (fun c hc => dig_nonspc (h.2.2.1 c hc))

theorem parse_seq {post : List Char} (hp : ∀ c ∈ post, isDig c = false) (hs : Ends isSpc post) :
    ∀ (n : ℕ) (l : List (Dec × List Char)), l.length ≤ n → (∀ q ∈ l, q.1.Valid ∧ q.2 ≠ [] ∧ ∀ c ∈ q.2, isSpc c = true) →
      parseBoundary (printSeq l ++ post) = (pairUp (l.map Prod.fst)).map (fun q => (q.1.digits, q.2.digits))
  | _, [], _, _ => by
    have := parseBoundary_nondigits (s := []) hp
    rw [List.append_nil, parseBoundary_nil] at this
    simpa [printSeq, pairUp] using this
  | _, [q], _, h => by
    obtain ⟨hv, h0, hw⟩ := h q (by simp)
    obtain ⟨d1, d2, d3, d4⟩ := Dec.Valid.digs hv
    have e : printSeq [q] ++ post = q.1.print ++ (q.2 ++ post) := by simp [printSeq]
    rw [e, parse_sign, skip_dec h0 hw hs (matchDec_ends ?_) d2 d4 d3]
    · have := parseBoundary_nondigits (s := []) hp
      rw [List.append_nil, parseBoundary_nil] at this
      simpa [pairUp] using this
    · intro c hc
      exact hp c (List.mem_of_mem_head? hc)
  | 0, _ :: _ :: _, hl, _ => by simp at hl
  | n + 1, q :: q' :: l, hl, h => by
    obtain ⟨hv, h0, hw⟩ := h q (by simp)
    obtain ⟨d1, d2, d3, d4⟩ := Dec.Valid.digs hv
    obtain ⟨hv', h0', hw'⟩ := h q' (by simp)
    obtain ⟨d1', d2', d3', d4'⟩ := Dec.Valid.digs hv'
    have e : printSeq (q :: q' :: l) ++ post = q.1.print ++ (q.2 ++ (printSeq (q' :: l) ++ post)) := by simp [printSeq]
    have e' : printSeq (q' :: l) ++ post = q'.1.print ++ (q'.2 ++ (printSeq l ++ post)) := by simp [printSeq]
    have ee : Ends isSpc (printSeq (q' :: l) ++ post) := by rw [e']; exact print_ends hv' _
    rw [e, parse_sign, List.map_cons, List.map_cons, pairUp]
    cases hn : q'.1.neg with
    | true =>
      rw [skip_dec h0 hw ee (matchDec_ends (by rw [e', print_neg hn]; intro x hx; simp at hx; subst hx; rfl)) d2 d4 d3, if_pos rfl]
      exact parse_seq hp hs n (q' :: l) (by simp only [List.length_cons] at hl ⊢; omega) (fun x hx => h x (List.mem_cons_of_mem _ hx))
    | false =>
      have hwd : Ends isDig (q'.2 ++ (printSeq l ++ post)) := ends_append h0' (fun c hc => (spc_nondig (hw' c hc)).1)
      have hm : matchPoint (q.1.int ++ '.' :: (q.1.frac ++ (q.2 ++ (printSeq (q' :: l) ++ post)))) =
          some ((q.1.digits, q'.1.digits), q'.2 ++ (printSeq l ++ post)) := by
        unfold matchPoint
        rw [matchDec_print d1 d2 d3 d4 (ends_append h0 (fun c hc => (spc_nondig (hw c hc)).1))]
        simp only [Option.bind_eq_bind, Option.bind_some]
        rw [run1_append h0 hw ee]
        simp only [Option.bind_some]
        rw [e', print_pos hn, matchDec_print d1' d2' d3' d4' hwd]
        rfl
      rw [parseBoundary_match hm, parseBoundary_nondigits (fun c hc => (spc_nondig (hw' c hc)).1),
        parse_seq hp hs n l (by simp only [List.length_cons] at hl; omega) (fun x hx => h x (List.mem_cons_of_mem _ (List.mem_cons_of_mem _ hx)))]
      simp

/-! ### Minimum -/

theorem closestLoop_spec {D : Type} [LinearOrder D] : ∀ (ds : List D) (c : D), closestLoop c ds ∈ c :: ds ∧ ∀ d ∈ c :: ds, closestLoop c ds ≤ d
  | [], c => by simp [closestLoop]
  | d :: ds, c => by
    rw [closestLoop]
    split_ifs with h
    · obtain ⟨h1, h2⟩ := closestLoop_spec ds d
      refine ⟨by simp only [List.mem_cons] at h1 ⊢; tauto, fun x hx => ?_⟩
      simp only [List.mem_cons] at hx h2
      rcases hx with rfl | rfl | hx
      · exact (h2 d (.inl rfl)).trans h.le
      · exact h2 _ (.inl rfl)
      · exact h2 _ (.inr hx)
    · obtain ⟨h1, h2⟩ := closestLoop_spec ds c
      refine ⟨by simp only [List.mem_cons] at h1 ⊢; tauto, fun x hx => ?_⟩
      simp only [List.mem_cons] at hx h2
      rcases hx with rfl | rfl | hx
      · exact h2 _ (.inl rfl)
      · exact (h2 c (.inl rfl)).trans (not_lt.1 h)
      · exact h2 _ (.inr hx)

theorem closest_spec {D : Type} [LinearOrder D] (ds : List D) (c : D) : ∀ n : ℕ, closest c ds (n + 1) ∈ c :: ds ∧ ∀ d ∈ c :: ds, closest c ds (n + 1) ≤ d
  | 0 => closestLoop_spec ds c
  | n + 1 => by
    obtain ⟨h1, h2⟩ := closest_spec ds c n
    obtain ⟨h3, h4⟩ := closestLoop_spec ds (closest c ds (n + 1))
    have e : closest c ds (n + 1 + 1) = closestLoop (closest c ds (n + 1)) ds := rfl
    rw [e]
    refine ⟨?_, fun d hd => (h4 _ (by simp)).trans (h2 d hd)⟩
    rw [List.mem_cons] at h3
    rcases h3 with h3 | h3
    · rw [h3]; exact h1
    · simp [h3]

/-! ### Haversine -/

theorem haversine_arg {t : ℝ} (h1 : -1 ≤ t) (h2 : t ≤ 1) :
    2 * Complex.arg (Real.sqrt (1 - (1 - t) / 2) + Real.sqrt ((1 - t) / 2) * Complex.I) = Real.arccos t := by
  have p := Real.pi_pos
  have b1 := Real.arccos_nonneg t
  have b2 := Real.arccos_le_pi t
  have c1 : Real.cos (Real.arccos t / 2) = Real.sqrt (1 - (1 - t) / 2) := by
    rw [Real.cos_half (by linarith) b2, Real.cos_arccos h1 h2]; congr 1; ring
  have c2 : Real.sin (Real.arccos t / 2) = Real.sqrt ((1 - t) / 2) := by
    rw [Real.sin_half_eq_sqrt b1 (by linarith), Real.cos_arccos h1 h2]
  rw [← c1, ← c2, Complex.ofReal_cos, Complex.ofReal_sin, Complex.arg_cos_add_sin_mul_I ⟨by linarith, by linarith⟩]
  ring

theorem dot_bounds (a c d : ℝ) : -1 ≤ Real.sin a * Real.sin c + Real.cos a * Real.cos c * Real.cos d ∧
    Real.sin a * Real.sin c + Real.cos a * Real.cos c * Real.cos d ≤ 1 := by
  have h1 := Real.sin_sq_add_cos_sq a
  have h2 := Real.sin_sq_add_cos_sq c
  have h3 := Real.sin_sq_add_cos_sq d
  constructor
  · nlinarith [sq_nonneg (Real.sin a + Real.sin c), sq_nonneg (Real.cos a + Real.cos c * Real.cos d), sq_nonneg (Real.cos c * Real.sin d)]
  · nlinarith [sq_nonneg (Real.sin a - Real.sin c), sq_nonneg (Real.cos a - Real.cos c * Real.cos d), sq_nonneg (Real.cos c * Real.sin d)]

end ZkLoc.Text
