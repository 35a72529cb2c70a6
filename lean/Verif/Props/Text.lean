import Verif.TextSpec

/-!
# Property theorems C52 - C57: the text helpers and the proximity executable
-/

namespace ZkLoc.Text
open _root_.Text

/-! ### C52: hexadecimal bit patterns -/

/-- **C52** `HexToFloat` reads back every bit pattern that `floatToHex` writes. -/
theorem C52_hex_roundtrip {n : ℕ} (h : n < 2 ^ 64) : hexToFloat (floatToHex n) = some n := by
  unfold hexToFloat parseUint floatToHex
  rw [if_neg (formatUint_ne_nil 16 n)]
  exact parseLoop_hex.2 ⟨formatHex_denotes n, fun _ => h⟩

/-- **C52** `HexToFloat` accepts exactly the texts that are not empty and denote a number below `2^64` in hexadecimal notation, and returns that number. -/
theorem C52_hexToFloat {s : List Char} {n : ℕ} : hexToFloat s = some n ↔ s ≠ [] ∧ HexDenotes s n ∧ n < 2 ^ 64 := by
  unfold hexToFloat parseUint
  split_ifs with h
  · simp [h]
  · rw [parseLoop_hex]
    exact ⟨fun ⟨h1, h2⟩ => ⟨h, h1, h2 h⟩, fun ⟨_, h1, h2⟩ => ⟨h1, fun _ => h2⟩⟩

/-- **C52** `HexToFloat32` likewise, below `2^32`. -/
theorem C52_hexToFloat32 {s : List Char} {n : ℕ} : hexToFloat32 s = some n ↔ s ≠ [] ∧ HexDenotes s n ∧ n < 2 ^ 32 := by
  unfold hexToFloat32 parseUint
  split_ifs with h
  · simp [h]
  · rw [parseLoop_hex]
    exact ⟨fun ⟨h1, h2⟩ => ⟨h, h1, h2 h⟩, fun ⟨_, h1, h2⟩ => ⟨h1, fun _ => h2⟩⟩

/-- **C52** Different pairs of coordinates give different lines. -/
theorem C52_line_injective {a c a' c' : ℕ} (h : hexLine a c = hexLine a' c') : a = a' ∧ c = c' := by
  unfold hexLine floatToHex at h
  simp only [List.append_assoc, List.cons_append, List.nil_append] at h
  obtain ⟨h1, h2⟩ := append_sep_inj (fun x hx => (formatUint_noblank a x hx).1) (fun x hx => (formatUint_noblank a' x hx).1) h
  obtain ⟨h3, -⟩ := append_sep_inj (fun x hx => (formatUint_noblank c x hx).2) (fun x hx => (formatUint_noblank c' x hx).2) h2
  exact ⟨hexDenotes_unique (formatHex_denotes a) (h1 ▸ formatHex_denotes a'), hexDenotes_unique (formatHex_denotes c) (h3 ▸ formatHex_denotes c')⟩

/-- **C52** (violated for single precision) The files written with `useFloat32` contain the doubles equal to the single-precision values; `HexToFloat32` rejects every such
text except that of `+0`. -/
theorem C52_float32_files_unreadable {n v : ℕ} (h : Ieee.decodeBits ⟨11, 52⟩ n = Ieee.decodeBits ⟨8, 23⟩ v) (h0 : Ieee.decodeBits ⟨8, 23⟩ v ≠ .fin false 0) :
    hexToFloat32 (floatToHex n) = none := by
  rw [Option.eq_none_iff_forall_ne_some]
  intro m hm
  obtain ⟨-, h1, h2⟩ := C52_hexToFloat32.1 hm
  have := hexDenotes_unique h1 (formatHex_denotes n)
  subst this
  rw [decode_small h2] at h
  have h3 : (m : ℝ) * 2 ^ (-1074 : ℤ) = 0 := by
    by_contra h3
    have := decode_single_ge h.symm h3
    have h4 : (m : ℝ) ≤ 2 ^ 32 := by exact_mod_cast h2.le
    have h5 : (m : ℝ) * 2 ^ (-1074 : ℤ) ≤ 2 ^ 32 * 2 ^ (-1074 : ℤ) := mul_le_mul_of_nonneg_right h4 (by positivity)
    have h6 : (2:ℝ) ^ 32 * 2 ^ (-1074 : ℤ) < 2 ^ (-149 : ℤ) := by
      rw [← zpow_natCast, ← zpow_add₀ (by norm_num)]
      exact zpow_lt_zpow_right₀ (by norm_num) (by norm_num)
    linarith
  rw [h3] at h
  exact h0 h.symm

/-- `-1.5` is written as `bff8000000000000`; upper case and leading zeros are accepted too. -/
example : floatToHex 0xBFF8000000000000 = "bff8000000000000".toList := by decide +kernel
example : hexToFloat (floatToHex 0xBFF8000000000000) = some 0xBFF8000000000000 := C52_hex_roundtrip (by norm_num)
example : hexToFloat "00BFF8".toList = some 0xBFF8 ∧ hexToFloat "0x1".toList = none ∧ hexToFloat [] = none := by decide +kernel
/-- `1.5` in both formats: the hypotheses of `C52_float32_files_unreadable`. -/
example : hexToFloat32 (floatToHex 0x3FF8000000000000) = none := by
  have e1 : Ieee.decodeBits ⟨11, 52⟩ 0x3FF8000000000000 = .fin false (3 / 2) := by
    have t : (0x3FF8000000000000 : ℕ).testBit 63 = false := by decide
    norm_num [Ieee.decodeBits, Ieee.Format.bias, t]
  have e2 : Ieee.decodeBits ⟨8, 23⟩ 0x3FC00000 = .fin false (3 / 2) := by
    have t : (0x3FC00000 : ℕ).testBit 31 = false := by decide
    norm_num [Ieee.decodeBits, Ieee.Format.bias, t]
  refine C52_float32_files_unreadable (v := 0x3FC00000) (by rw [e1, e2]) ?_
  rw [e2]
  intro h
  simp only [Ieee.Datum.fin.injEq] at h
  norm_num at h

/-! ### C53: `StrToIntSlice` -/

/-- **C53** With hexadecimal representation, `StrToIntSlice` returns the bytes that the text denotes. -/
theorem C53_hex_bytes {s : List Char} {l : List ℕ} (h : HexBytes s l) : strToIntSlice s true = l := by
  have := decodeHex_hexBytes h []
  rw [List.append_nil] at this
  simp [strToIntSlice, this, decodeHex]

/-- **C53** Every list of bytes is recovered from its hexadecimal notation. -/
theorem C53_hex_roundtrip {l : List ℕ} (h : ∀ n ∈ l, n < 256) : strToIntSlice (l.flatMap hexByte) true = l := C53_hex_bytes (hexBytes_print h)

/-- **C53** (violated: malformed text is not rejected) From the first malformed pair on, the text is dropped silently. -/
theorem C53_malformed_truncated {s t : List Char} {l : List ℕ} (h : HexBytes s l) (ht : BadPair t) : strToIntSlice (s ++ t) true = l := by
  simp [strToIntSlice, decodeHex_hexBytes h t, decodeHex_bad ht]

/-- **C53** In either representation, every element is a byte for ASCII text, and the length is at most that of the text. -/
theorem C53_bytes (s : List Char) (hx : Bool) (h : ∀ c ∈ s, c.toNat < 128) : (∀ n ∈ strToIntSlice s hx, n < 256) ∧ (strToIntSlice s hx).length ≤ s.length := by
  cases hx with
  | true =>
    have := decodeHex_bytes _ s le_rfl
    refine ⟨by simpa [strToIntSlice] using this.1, ?_⟩
    simp only [strToIntSlice, if_true]; omega
  | false =>
    refine ⟨fun n hn => ?_, by simp [strToIntSlice]⟩
    simp only [strToIntSlice, Bool.false_eq_true, if_false, List.mem_map] at hn
    obtain ⟨c, hc, rfl⟩ := hn
    have := h c hc; omega

/-- **C53** Without hexadecimal representation no two texts give the same list. -/
theorem C53_plain_injective {s t : List Char} (h : strToIntSlice s false = strToIntSlice t false) : s = t := by
  simp only [strToIntSlice, Bool.false_eq_true, if_false] at h
  exact List.map_injective_iff.2 (fun a c h => Char.toNat_inj.1 h) h

example : strToIntSlice "00fFa1".toList true = [0, 255, 161] := by decide +kernel
example : HexBytes "00".toList [0] ∧ BadPair "0x12".toList ∧ strToIntSlice ("00".toList ++ "0x12".toList) true = [0] := by
  have h : HexBytes "00".toList [0] := .cons (x := 0) (y := 0) ⟨by norm_num, by decide⟩ ⟨by norm_num, by decide⟩ .nil
  have h' : BadPair ['0', 'x', '1', '2'] := .inr (fun d => by rw [hexDigit_iff]; rintro ⟨h, h'⟩; rw [show digitVal 'x' = some 33 by decide] at h; simp at h; omega)
  exact ⟨h, h', C53_malformed_truncated h h'⟩

/-! ### C54: the cell printed by `latLngToCell` -/

/-- **C54** The parser finds the printed coordinates in any output whose text before them has no `I` and whose text after them does not begin with a digit; coordinates that
do not fit an `int` are replaced by the largest one. -/
theorem C54_parse_print {pre post : List Char} (i j k : ℕ) (hp : 'I' ∉ pre) (h : ∀ c ∈ post.head?, c ∉ "0123456789".toList) :
    parseIJK (pre ++ printIJK i j k ++ post) = some (min i (2 ^ 63 - 1), min j (2 ^ 63 - 1), min k (2 ^ 63 - 1)) := by
  unfold parseIJK
  rw [findIJK_print i j k hp (fun c hc => by
    have := h c hc
    rw [← isDig_iff] at this
    simpa using this)]
  simp only [Option.map_some, atoi_decimal]

/-- **C54** A negative coordinate is not found: the parser fails. -/
theorem C54_negative_rejected {pre rest : List Char} (hp : 'I' ∉ pre) (hr : 'I' ∉ rest) : parseIJK (pre ++ "I: -".toList ++ rest) = none := by
  unfold parseIJK
  rw [List.append_assoc, findIJK_skip hp]
  have e : "I: -".toList ++ rest = ['I', ':', ' ', '-'] ++ rest := by rfl
  have h1 : matchIJK (['I', ':', ' ', '-'] ++ rest) = none := by
    unfold matchIJK
    have : lit ['I', ':', ' '] (['I', ':', ' ', '-'] ++ rest) = some ('-' :: rest) := lit_append ['I', ':', ' '] ('-' :: rest)
    rw [this]
    simp only [Option.bind_eq_bind, Option.bind_some]
    rw [run1_ends (fun c hc => by simp at hc; subst hc; rfl)]
    rfl
  have h2 : findIJK rest = none := by
    have := findIJK_skip (s := []) hr
    rw [List.append_nil] at this
    rw [this]; rfl
  rw [e]
  have h3 : findIJK (['I', ':', ' ', '-'] ++ rest) = findIJK ([':', ' ', '-'] ++ rest) := by
    rw [List.cons_append] at h1 ⊢
    rw [findIJK, h1]
  rw [h3, findIJK_skip (by decide), h2]; rfl

example : parseIJK "cell 8a2a\nI: 12, J: 0, K: 345\n".toList = some (12, 0, 345) := by decide +kernel
example : parseIJK ("cell\n".toList ++ printIJK 12 0 345 ++ "\n".toList) = some (12, 0, 345) := by
  rw [C54_parse_print 12 0 345 (by decide) (by decide)]; rfl
example : parseIJK ([] ++ "I: -".toList ++ "1, J: 0, K: 3".toList) = none := C54_negative_rejected (by decide) (by decide)

/-! ### C55: the boundary printed by `cellToBoundary` -/

/-- **C55** What the parser of `cellToBoundary` finds in any sequence of decimal numbers separated by white space, between texts without digits: the digits, without their
signs, of neighbours whose second number has no minus sign, greedily from the left. -/
theorem C55_parse_numbers {pre post : List Char} (l : List (Dec × List Char)) (hpre : ∀ c ∈ pre, isDig c = false) (hpost : ∀ c ∈ post, isDig c = false)
    (hs : ∀ c ∈ post.head?, isSpc c = false) (hl : ∀ q ∈ l, q.1.Valid ∧ q.2 ≠ [] ∧ ∀ c ∈ q.2, isSpc c = true) :
    parseBoundary (pre ++ printSeq l ++ post) = (pairUp (l.map Prod.fst)).map (fun q => (q.1.digits, q.2.digits)) := by
  rw [List.append_assoc, parseBoundary_nondigits hpre]
  exact parse_seq hpost hs _ l le_rfl hl

/-- The points as a sequence of numbers. -/
private def seqOf (indent : ℕ) : List (Dec × Dec) → List (Dec × List Char)
  | [] => []
  | [q] => [(q.1, [' ']), (q.2, ['\n'])]
  | q :: l => (q.1, [' ']) :: (q.2, '\n' :: List.replicate indent ' ') :: seqOf indent l

private theorem printSeq_seqOf (indent : ℕ) : ∀ (q : Dec × Dec) (l : List (Dec × Dec)), printPoints indent (q :: l) = List.replicate indent ' ' ++ printSeq (seqOf indent (q :: l))
  | q, [] => by simp [seqOf, printSeq, printPoints]
  | q, q' :: l => by
    have ih := printSeq_seqOf indent q' l
    have e : seqOf indent (q :: q' :: l) = (q.1, [' ']) :: (q.2, '\n' :: List.replicate indent ' ') :: seqOf indent (q' :: l) := rfl
    rw [e, printPoints, ih]
    simp [printSeq]

private theorem seqOf_fst (indent : ℕ) : ∀ l : List (Dec × Dec), (seqOf indent l).map Prod.fst = l.flatMap (fun q => [q.1, q.2])
  | [] => rfl
  | [_] => rfl
  | q :: q' :: l => by
    have ih := seqOf_fst indent (q' :: l)
    rw [seqOf, List.map_cons, List.map_cons, ih]
    · simp
    · simp

private theorem seqOf_valid (indent : ℕ) : ∀ l : List (Dec × Dec), (∀ q ∈ l, q.1.Valid ∧ q.2.Valid) → ∀ q ∈ seqOf indent l, q.1.Valid ∧ q.2 ≠ [] ∧ ∀ c ∈ q.2, isSpc c = true
  | [], _, q, hq => by simp [seqOf] at hq
  | [x], h, q, hq => by
    have := h x (by simp)
    simp only [seqOf, List.mem_cons, List.not_mem_nil, or_false] at hq
    rcases hq with rfl | rfl
    · exact ⟨this.1, by simp, by simp [isSpc]⟩
    · exact ⟨this.2, by simp, by simp [isSpc]⟩
  | x :: x' :: l, h, q, hq => by
    have h1 := h x (by simp)
    have ih := seqOf_valid indent (x' :: l) (fun y hy => h y (List.mem_cons_of_mem _ hy))
    rw [seqOf] at hq
    · simp only [List.mem_cons] at hq
      rcases hq with rfl | rfl | hq
      · exact ⟨h1.1, by simp, by simp [isSpc]⟩
      · refine ⟨h1.2, by simp, fun c hc => ?_⟩
        simp only [List.mem_cons, List.mem_replicate] at hc
        rcases hc with rfl | ⟨-, rfl⟩ <;> decide
      · exact ih q hq
    · simp

private theorem parse_points (indent : ℕ) {pre post : List Char} {l : List (Dec × Dec)} (hpre : ∀ c ∈ pre, isDig c = false) (hpost : ∀ c ∈ post, isDig c = false)
    (hs : ∀ c ∈ post.head?, isSpc c = false) (hl : ∀ q ∈ l, q.1.Valid ∧ q.2.Valid) :
    parseBoundary (pre ++ printPoints indent l ++ post) = (pairUp (l.flatMap (fun q => [q.1, q.2]))).map (fun q => (q.1.digits, q.2.digits)) := by
  cases l with
  | nil =>
    have := C55_parse_numbers [] hpre hpost hs (by simp)
    simpa [printSeq, printPoints] using this
  | cons q l =>
    have := C55_parse_numbers (pre := pre ++ List.replicate indent ' ') (seqOf indent (q :: l)) (fun c hc => by
      rw [List.mem_append, List.mem_replicate] at hc
      rcases hc with hc | ⟨-, rfl⟩
      · exact hpre c hc
      · rfl) hpost hs (seqOf_valid indent _ hl)
    rw [seqOf_fst] at this
    rw [printSeq_seqOf, ← List.append_assoc, this]

/-- **C55** (missing: negative coordinates, see the next theorems) A boundary all of whose coordinates are printed without a sign is read back. -/
theorem C55_parse_print_partial (indent : ℕ) {pre post : List Char} {l : List (Dec × Dec)} (hpre : ∀ c ∈ pre, isDig c = false) (hpost : ∀ c ∈ post, isDig c = false)
    (hs : ∀ c ∈ post.head?, isSpc c = false) (hl : ∀ q ∈ l, q.1.Valid ∧ q.2.Valid) (h0 : ∀ q ∈ l, q.1.neg = false ∧ q.2.neg = false) :
    (parseBoundary (pre ++ printPoints indent l ++ post)).map (fun q => ((⟨false, q.1.1, q.1.2⟩ : Dec), (⟨false, q.2.1, q.2.2⟩ : Dec))) = l := by
  rw [parse_points indent hpre hpost hs hl, List.map_map]
  clear hl
  induction l with
  | nil => rfl
  | cons q l ih =>
    have hq := h0 q (by simp)
    have ih := ih (fun x hx => h0 x (List.mem_cons_of_mem _ hx))
    obtain ⟨⟨n1, i1, f1⟩, ⟨n2, i2, f2⟩⟩ := q
    simp only at hq
    obtain ⟨rfl, rfl⟩ := hq
    simpa [pairUp, Dec.digits] using ih

/-- **C55** (violated) The sign of every latitude is dropped: south of the equator the boundary is that of the mirrored latitudes. -/
theorem C55_latitude_sign_dropped (indent : ℕ) {pre post : List Char} {l : List (Dec × Dec)} (hpre : ∀ c ∈ pre, isDig c = false) (hpost : ∀ c ∈ post, isDig c = false)
    (hs : ∀ c ∈ post.head?, isSpc c = false) (hl : ∀ q ∈ l, q.1.Valid ∧ q.2.Valid) (h0 : ∀ q ∈ l, q.2.neg = false) :
    parseBoundary (pre ++ printPoints indent l ++ post) = l.map (fun q => (q.1.digits, q.2.digits)) := by
  rw [parse_points indent hpre hpost hs hl]
  clear hl
  induction l with
  | nil => rfl
  | cons q l ih =>
    have hq := h0 q (by simp)
    have ih := ih (fun x hx => h0 x (List.mem_cons_of_mem _ hx))
    simpa [pairUp, hq] using ih

/-- **C55** (violated) North of the equator and west of the prime meridian every pair consists of the longitude, without its sign, of one point and the latitude of the
next one, and one point is lost. -/
theorem C55_west_misaligned (indent : ℕ) {pre post : List Char} {l : List (Dec × Dec)} (hpre : ∀ c ∈ pre, isDig c = false) (hpost : ∀ c ∈ post, isDig c = false)
    (hs : ∀ c ∈ post.head?, isSpc c = false) (hl : ∀ q ∈ l, q.1.Valid ∧ q.2.Valid) (h0 : ∀ q ∈ l, q.1.neg = false ∧ q.2.neg = true) :
    parseBoundary (pre ++ printPoints indent l ++ post) = (l.zip l.tail).map (fun q => (q.1.2.digits, q.2.1.digits)) := by
  rw [parse_points indent hpre hpost hs hl]
  clear hl
  have key : ∀ (l : List (Dec × Dec)) (d : Dec), (∀ q ∈ l, q.1.neg = false ∧ q.2.neg = true) → ∀ a : Dec,
      pairUp (d :: l.flatMap (fun q => [q.1, q.2])) = (((a, d) :: l).zip l).map (fun q => (q.1.2, q.2.1)) := by
    intro l
    induction l with
    | nil => intro d _ a; rfl
    | cons q l ih =>
      intro d h a
      have hq := h q (by simp)
      have := ih q.2 (fun x hx => h x (List.mem_cons_of_mem _ hx)) q.1
      simp only [List.flatMap_cons, List.cons_append, List.nil_append, pairUp, hq.1, Bool.false_eq_true, if_false, this, List.zip_cons_cons, List.map_cons]
  cases l with
  | nil => rfl
  | cons q l =>
    have hq := h0 q (by simp)
    have := key l q.2 (fun x hx => h0 x (List.mem_cons_of_mem _ hx)) q.1
    simp only [List.flatMap_cons, List.cons_append, List.nil_append, pairUp, hq.2, if_true, this, List.tail_cons, List.map_map]
    rfl

/-- **C55** (violated) South of the equator and west of the prime meridian no point is found. -/
theorem C55_southwest_empty (indent : ℕ) {pre post : List Char} {l : List (Dec × Dec)} (hpre : ∀ c ∈ pre, isDig c = false) (hpost : ∀ c ∈ post, isDig c = false)
    (hs : ∀ c ∈ post.head?, isSpc c = false) (hl : ∀ q ∈ l, q.1.Valid ∧ q.2.Valid) (h0 : ∀ q ∈ l, q.1.neg = true ∧ q.2.neg = true) :
    parseBoundary (pre ++ printPoints indent l ++ post) = [] := by
  rw [parse_points indent hpre hpost hs hl]
  have key : ∀ l : List Dec, (∀ d ∈ l, d.neg = true) → pairUp l = [] := by
    intro l
    induction l with
    | nil => intro _; rfl
    | cons d l ih =>
      intro h
      cases l with
      | nil => rfl
      | cons d' l =>
        rw [pairUp, if_pos (h d' (by simp))]
        exact ih (fun x hx => h x (List.mem_cons_of_mem _ hx))
  rw [key]
  · rfl
  · intro d hd
    rw [List.mem_flatMap] at hd
    obtain ⟨q, hq, hd⟩ := hd
    simp only [List.mem_cons, List.not_mem_nil, or_false] at hd
    rcases hd with rfl | rfl
    · exact (h0 q hq).1
    · exact (h0 q hq).2

/-- Three points in New York: the code gets `(73.9, 40.7)`, `(74.0, 40.8)`. -/
example : parseBoundary "{\n   40.6 -73.9\n   40.7 -74.0\n   40.8 -74.1\n}\n".toList =
    [(("73".toList, "9".toList), ("40".toList, "7".toList)), (("74".toList, "0".toList), ("40".toList, "8".toList))] := by decide +kernel
private def ny : List (Dec × Dec) := [(⟨false, ['4', '0'], ['6']⟩, ⟨true, ['7', '3'], ['9']⟩), (⟨false, ['4', '0'], ['7']⟩, ⟨true, ['7', '4'], ['0']⟩)]
example : parseBoundary ("{\n".toList ++ printPoints 3 ny ++ "}\n".toList) = [((['7', '3'], ['9']), (['4', '0'], ['7']))] :=
  C55_west_misaligned 3 (by decide) (by decide) (by decide) (by unfold Dec.Valid; decide) (by decide)
private def munich : List (Dec × Dec) := [(⟨false, ['4', '8'], ['1']⟩, ⟨false, ['1', '1'], ['5']⟩), (⟨false, ['4', '8'], ['2']⟩, ⟨false, ['1', '1'], ['6']⟩)]
example : (parseBoundary ("{\n".toList ++ printPoints 3 munich ++ "}\n".toList)).map (fun q => ((⟨false, q.1.1, q.1.2⟩ : Dec), (⟨false, q.2.1, q.2.2⟩ : Dec))) = munich :=
  C55_parse_print_partial 3 (by decide) (by decide) (by decide) (by unfold Dec.Valid; decide) (by decide)

/-! ### C56: the closest boundary point -/

/-- **C56** After any positive number of executions the result is the least of the initial value and the distances, whatever the number. -/
theorem C56_closest_is_minimum {D : Type} [LinearOrder D] (init : D) (ds : List D) (n : ℕ) (hn : 0 < n) :
    closest init ds n ∈ init :: ds ∧ ∀ d ∈ init :: ds, closest init ds n ≤ d := by
  obtain ⟨m, rfl⟩ : ∃ m, n = m + 1 := ⟨n - 1, by omega⟩
  exact closest_spec ds init m

/-- **C56** If no distance exceeds the initial value (the largest double), the result is the distance of a closest boundary point, provided the boundary is not empty. -/
theorem C56_closest_point {P D : Type} [LinearOrder D] (init : D) (dist : P → D) (points : List P) (n : ℕ) (hn : 0 < n) (h0 : points ≠ [])
    (hi : ∀ q ∈ points, dist q ≤ init) : ∃ q ∈ points, closest init (points.map dist) n = dist q ∧ ∀ q' ∈ points, dist q ≤ dist q' := by
  obtain ⟨h1, h2⟩ := C56_closest_is_minimum init (points.map dist) n hn
  have key : ∃ q ∈ points, closest init (points.map dist) n = dist q := by
    rw [List.mem_cons] at h1
    rcases h1 with h1 | h1
    · obtain ⟨q, hq⟩ := List.exists_mem_of_ne_nil _ h0
      refine ⟨q, hq, ?_⟩
      have := h2 (dist q) (List.mem_cons_of_mem _ (List.mem_map_of_mem hq))
      rw [h1] at this ⊢
      exact le_antisymm this (hi q hq)
    · rw [List.mem_map] at h1
      obtain ⟨q, hq, e⟩ := h1
      exact ⟨q, hq, e.symm⟩
  obtain ⟨q, hq, e⟩ := key
  exact ⟨q, hq, e, fun q' hq' => e ▸ h2 _ (List.mem_cons_of_mem _ (List.mem_map_of_mem hq'))⟩

/-- **C56** (violated) For an empty boundary the initial value, the largest double, is reported as the distance. -/
theorem C56_empty_boundary {D : Type} [LinearOrder D] (init : D) (n : ℕ) : closest init [] n = init := by
  induction n with
  | zero => rfl
  | succ n ih => rw [closest, ih]; rfl

example : closest 100 [7, 3, 9] 20 = 3 := by decide +kernel

/-! ### C57: `OldHaversine` -/

/-- **C57** In exact arithmetic `OldHaversine` is the length of the great circle arc on a sphere of radius 6371 km: the radius times the angle between the two directions. -/
theorem C57_haversine (lat1 lon1 lat2 lon2 : ℝ) : oldHaversine lat1 lon1 lat2 lon2 =
    6371000 * Real.arccos (Real.sin (lat1 * Real.pi / 180) * Real.sin (lat2 * Real.pi / 180) +
      Real.cos (lat1 * Real.pi / 180) * Real.cos (lat2 * Real.pi / 180) * Real.cos ((lon2 - lon1) * Real.pi / 180)) := by
  set f := lat1 * Real.pi / 180 with hf
  set g := lat2 * Real.pi / 180 with hg
  set d := (lon2 - lon1) * Real.pi / 180 with hd
  have e1 : degreesToRadians (lat2 - lat1) = g - f := by unfold degreesToRadians; ring
  have e2 : degreesToRadians (lon2 - lon1) = d := by unfold degreesToRadians; ring
  have e3 : degreesToRadians lat1 = f := by unfold degreesToRadians; ring
  have e4 : degreesToRadians lat2 = g := by unfold degreesToRadians; ring
  have half : ∀ x : ℝ, Real.sin (x / 2) ^ 2 = (1 - Real.cos x) / 2 := fun x => by
    have := Real.cos_sq (x / 2)
    rw [mul_div_cancel₀ _ (by norm_num : (2:ℝ) ≠ 0)] at this
    have h := Real.sin_sq_add_cos_sq (x / 2)
    linarith
  have ea : Real.sin ((g - f) / 2) ^ 2 + Real.cos f * Real.cos g * Real.sin (d / 2) ^ 2 =
      (1 - (Real.sin f * Real.sin g + Real.cos f * Real.cos g * Real.cos d)) / 2 := by
    rw [half, half, Real.cos_sub]; ring
  unfold oldHaversine
  simp only [e1, e2, e3, e4, ea]
  obtain ⟨h1, h2⟩ := dot_bounds f g d
  rw [haversine_arg h1 h2]

/-- **C57** The distance is symmetric. -/
theorem C57_haversine_symm (lat1 lon1 lat2 lon2 : ℝ) : oldHaversine lat1 lon1 lat2 lon2 = oldHaversine lat2 lon2 lat1 lon1 := by
  rw [C57_haversine, C57_haversine]
  have : (lon1 - lon2) * Real.pi / 180 = -((lon2 - lon1) * Real.pi / 180) := by ring
  rw [this, Real.cos_neg]
  congr 2
  ring

/-- **C57** The distance is between zero and half the circumference. -/
theorem C57_haversine_bounds (lat1 lon1 lat2 lon2 : ℝ) : 0 ≤ oldHaversine lat1 lon1 lat2 lon2 ∧ oldHaversine lat1 lon1 lat2 lon2 ≤ 6371000 * Real.pi := by
  rw [C57_haversine]
  exact ⟨mul_nonneg (by norm_num) (Real.arccos_nonneg _), mul_le_mul_of_nonneg_left (Real.arccos_le_pi _) (by norm_num)⟩

/-- A quarter of the equator. -/
example : oldHaversine 0 0 0 90 = 6371000 * (Real.pi / 2) := by
  rw [C57_haversine]
  have : (90 : ℝ) * Real.pi / 180 = Real.pi / 2 := by ring
  simp [this]

end ZkLoc.Text
