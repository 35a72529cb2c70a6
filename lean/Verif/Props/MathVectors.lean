import Verif.MathVectors
import Verif.VectorsSpec
import Verif.Props.Vectors
import Verif.Props.TrigCircuits

/-!
# Property C69: the table tests of /repo/math/math_test.go

What a passing row says, for every table, and which correct rows cannot pass: all those with a negative output and bounds, as in the repository's own tables.
-/

namespace ZkLoc.Vectors
open ZkLoc.Bench ZkLoc.Text _root_.Text _root_.Vectors Ieee

/-! ### From rows to circuits -/

theorem honest_func {op : FloatVar bn254 → Circ bn254 (FloatVar bn254)} (hs : ∃ l q, ∀ x, HasShape f64.pow2Size (op x) l q)
    (hw : ∀ be, baseLength be 0 (funcCircuit f64 op 0 0).widths = 8) (X Z : ZMod bn254) :
    succeedsGroth16 f64 (funcCircuit f64 op X Z) ↔ (funcCircuit f64 op X Z).run 8 = some () := by
  obtain ⟨l, q, h⟩ := shape_func (f := f64) hs
  unfold succeedsGroth16
  rw [acceptsHonest_iff (h X Z), acceptsHonest_iff (h X Z), (h 0 0).widths, hw, hw, and_self]

theorem honest_ulp {f : Fmt} {op : FloatVar bn254 → Circ bn254 (FloatVar bn254)} (hs : ∃ l q, ∀ x, HasShape f.pow2Size (op x) l q)
    (hw : ∀ be, baseLength be 0 (ulpCircuit f op 0 0 0 0).widths = 8) (X Z L U : ZMod bn254) :
    succeedsGroth16 f (ulpCircuit f op X Z L U) ↔ (ulpCircuit f op X Z L U).run 8 = some () := by
  obtain ⟨l, q, h⟩ := shape_ulp (f := f) hs
  unfold succeedsGroth16
  rw [acceptsHonest_iff (h X Z L U), acceptsHonest_iff (h X Z L U), (h 0 0 0 0).widths, hw, hw, and_self]

theorem val_nat {f : Fmt} (hf : GoodField bn254 f) {n : ℕ} (hn : n < 2 ^ (1 + f.E + f.M)) : (((n : ℕ) : ℤ) : ZMod bn254).val = n := by
  have G := hf 4 width4
  rw [Int.cast_natCast]
  exact ZMod.val_natCast_of_lt (G.lt_of_lt_pow hn (by have := G.hEM; omega))

theorem funcLine_iff {op : FloatVar bn254 → Circ bn254 (FloatVar bn254)} {ws : List (List Char)} {x z : ℕ} (h : Row2 64 ws x z) :
    funcLine f64 op ([' '].intercalate ws) ↔ succeedsGroth16 f64 (funcCircuit f64 op ((x : ℤ) : ZMod bn254) ((z : ℤ) : ZMod bn254)) := by
  obtain ⟨hw, hx, hz, wx, wz, rest, rfl, h1, h2⟩ := h
  unfold funcLine
  rw [fields_words hw]
  simp only [hex_setString h1, hex_setString h2]

theorem ulpLine_iff {f : Fmt} {op : FloatVar bn254 → Circ bn254 (FloatVar bn254)} {ws : List (List Char)} {x z l u : ℕ} (h : Row4 (1 + f.E + f.M) ws x z l u) :
    ulpLine f op ([' '].intercalate ws) ↔
      succeedsGroth16 f (ulpCircuit f op ((x : ℤ) : ZMod bn254) ((z : ℤ) : ZMod bn254) ((l : ℤ) : ZMod bn254) ((u : ℤ) : ZMod bn254)) := by
  obtain ⟨hw, -, wx, wz, wl, wu, rest, rfl, h1, h2, h3, h4⟩ := h
  unfold ulpLine
  rw [fields_words hw]
  simp only [hex_setString h1, hex_setString h2, hex_setString h3, hex_setString h4]

/-! ### Rows that pass -/

/-- **C69** A row of `TestATanCircuit` that passes lists the arc tangent of its input, but for the sign and `25 * 2^-53`; and for every finite input some row passes. -/
theorem C69_atan_row {ws : List (List Char)} {x z : ℕ} (h : Row2 64 ws x z) {s : Bool} {a : ℝ} (hx : decodeBits ⟨11, 52⟩ x = .fin s a) :
    (funcLine f64 atanRemez64 ([' '].intercalate ws) → ∃ t c, decodeBits ⟨11, 52⟩ z = .fin t c ∧ |c - (|Real.arctan (signed s a)|)| ≤ 25 / 2 ^ 53) ∧
    ∃ z' < 2 ^ 64, ∀ ws', Row2 64 ws' x z' → funcLine f64 atanRemez64 ([' '].intercalate ws') := by
  have hp := goodField_bn254.2
  have h2 := h.2
  obtain ⟨px, ex⟩ := pattern_nat (p := bn254) (f := f64) hp h2.1
  obtain ⟨pz, ez⟩ := pattern_nat (p := bn254) (f := f64) hp h2.2.1
  have hX : datumOf f64 ((x : ℤ) : ZMod bn254) = .fin s a := ex.trans hx
  constructor
  · intro hl
    rw [funcLine_iff h, honest_func (op := atanRemez64) shape_atan width_atan64] at hl
    obtain ⟨t, c, h3, h4⟩ := C59_atan64_sound .r1cs true hX ((C59_width_atan64 _ _ _ _).2 (Circ.sat_of_run _ _ hl))
    exact ⟨t, c, ez.symm.trans h3, h4⟩
  · have G : Good bn254 8 f64 := goodField_bn254.2 8 ⟨by norm_num, by norm_num⟩
    obtain ⟨r, w, h3, h4, -⟩ := C50_atan_accuracy64 (b := 8) G ⟨s, a, hX ▸ wiresOf_encodes G (by decide) px, rfl⟩
    obtain ⟨Z, h5, rfl⟩ := exists_pattern G (by decide) h4
    refine ⟨Z.val, h5, fun ws' h' => ?_⟩
    rw [funcLine_iff h', honest_func (op := atanRemez64) shape_atan width_atan64]
    have hZ : ((Z.val : ℤ) : ZMod bn254) = Z := by rw [Int.cast_natCast]; exact ZMod.natCast_zmod_val Z
    rw [hZ]
    exact (func_run G (by decide)).2 ⟨px, h5, _, h3, rfl, rfl⟩

/-- **C69** A row of the arc tangent tests with bounds that passes: the arc tangent is between the bounds, but for the sign and `25 * 2^-53` (single precision: `10 * 2^-24`), if
the bounds are normal numbers in the binade of the output. -/
theorem C69_atanUlp_row {ws : List (List Char)} {x z l u : ℕ} {s : Bool} {a : ℝ} :
    (Row4 64 ws x z l u → decodeBits ⟨11, 52⟩ x = .fin s a → IsNormal f64 l → IsNormal f64 u → l / 2 ^ 52 % 2 ^ 11 = z / 2 ^ 52 % 2 ^ 11 →
      u / 2 ^ 52 % 2 ^ 11 = z / 2 ^ 52 % 2 ^ 11 → ulpLine f64 atanRemez64 ([' '].intercalate ws) →
      ∃ s' c t d, decodeBits ⟨11, 52⟩ l = .fin s' c ∧ decodeBits ⟨11, 52⟩ u = .fin t d ∧ c - 25 / 2 ^ 53 ≤ |Real.arctan (signed s a)| ∧
        |Real.arctan (signed s a)| ≤ d + 25 / 2 ^ 53) ∧
    (Row4 32 ws x z l u → decodeBits ⟨8, 23⟩ x = .fin s a → IsNormal f32 l → IsNormal f32 u → l / 2 ^ 23 % 2 ^ 8 = z / 2 ^ 23 % 2 ^ 8 →
      u / 2 ^ 23 % 2 ^ 8 = z / 2 ^ 23 % 2 ^ 8 → ulpLine f32 atanRemez32 ([' '].intercalate ws) →
      ∃ s' c t d, decodeBits ⟨8, 23⟩ l = .fin s' c ∧ decodeBits ⟨8, 23⟩ u = .fin t d ∧ c - 10 / 2 ^ 24 ≤ |Real.arctan (signed s a)| ∧
        |Real.arctan (signed s a)| ≤ d + 10 / 2 ^ 24) := by
  constructor
  · intro h hx nl nu el eu hl
    have hp := goodField_bn254.2
    obtain ⟨hX, hZ, hL, hU⟩ := h.2.1
    rw [ulpLine_iff (f := f64) h, honest_ulp (op := atanRemez64) shape_atan width_atan64Ulp] at hl
    have vZ := val_nat hp hZ
    have vL := val_nat hp hL
    have vU := val_nat hp hU
    obtain ⟨s', c, t, d, h1, h2, h3, h4⟩ := C59_atan64Ulp_sound .r1cs true (((pattern_nat hp hX).2).trans hx) ((C59_width_atan64Ulp _ _ _ _ _ _).2 (Circ.sat_of_run _ _ hl))
      (by rw [vL]; exact nl) (by rw [vU]; exact nu) (by rw [vL, vZ]; exact el) (by rw [vU, vZ]; exact eu)
    exact ⟨s', c, t, d, ((pattern_nat hp hL).2).symm.trans h1, ((pattern_nat hp hU).2).symm.trans h2, h3, h4⟩
  · intro h hx nl nu el eu hl
    have hp := goodField_bn254.1
    obtain ⟨hX, hZ, hL, hU⟩ := h.2.1
    rw [ulpLine_iff (f := f32) h, honest_ulp (op := atanRemez32) shape_atan width_atan32Ulp] at hl
    have vZ := val_nat hp hZ
    have vL := val_nat hp hL
    have vU := val_nat hp hU
    obtain ⟨s', c, t, d, h1, h2, h3, h4⟩ := C59_atan32Ulp_sound .r1cs true (((pattern_nat hp hX).2).trans hx) ((C59_width_atan32Ulp _ _ _ _ _ _).2 (Circ.sat_of_run _ _ hl))
      (by rw [vL]; exact nl) (by rw [vU]; exact nu) (by rw [vL, vZ]; exact el) (by rw [vU, vZ]; exact eu)
    exact ⟨s', c, t, d, ((pattern_nat hp hL).2).symm.trans h1, ((pattern_nat hp hU).2).symm.trans h2, h3, h4⟩

/-- **C69** The same for the sine, for inputs of magnitude at most the largest double below π. -/
theorem C69_sinUlp_row {ws : List (List Char)} {x z l u : ℕ} {s : Bool} {a : ℝ} (h : Row4 64 ws x z l u) (hx : decodeBits ⟨11, 52⟩ x = .fin s a)
    (ha : a ≤ 884279719003555 / 2 ^ 48) (nl : IsNormal f64 l) (nu : IsNormal f64 u) (el : l / 2 ^ 52 % 2 ^ 11 = z / 2 ^ 52 % 2 ^ 11)
    (eu : u / 2 ^ 52 % 2 ^ 11 = z / 2 ^ 52 % 2 ^ 11) (hl : ulpLine f64 sinTaylor64 ([' '].intercalate ws)) :
    ∃ s' c t d, decodeBits ⟨11, 52⟩ l = .fin s' c ∧ decodeBits ⟨11, 52⟩ u = .fin t d ∧ c - 72 / 2 ^ 53 ≤ |Real.sin (signed s a)| ∧
      |Real.sin (signed s a)| ≤ d + 72 / 2 ^ 53 := by
  have hp := goodField_bn254.2
  obtain ⟨hX, hZ, hL, hU⟩ := h.2.1
  rw [ulpLine_iff (f := f64) h, honest_ulp (op := sinTaylor64) shape_sinTaylor width_sin64Ulp] at hl
  have vZ := val_nat hp hZ
  have vL := val_nat hp hL
  have vU := val_nat hp hU
  obtain ⟨s', c, t, d, h1, h2, h3, h4⟩ := C59_sin64Ulp_sound .r1cs true (((pattern_nat hp hX).2).trans hx) ha ((C59_width_sin64Ulp _ _ _ _ _ _).2 (Circ.sat_of_run _ _ hl))
    (by rw [vL]; exact nl) (by rw [vU]; exact nu) (by rw [vL, vZ]; exact el) (by rw [vU, vZ]; exact eu)
  exact ⟨s', c, t, d, ((pattern_nat hp hL).2).symm.trans h1, ((pattern_nat hp hU).2).symm.trans h2, h3, h4⟩

/-! ### Rows that fail -/

/-- **C69** (violated) The bounds are compared by their fractions, which for a negative output are in the other order: no row of a negative output (inside its binade) with its two
neighbours as bounds passes, whatever the function, the output and the prover. -/
theorem C69_negative_row_fails {f : Fmt} (hf : f = f32 ∨ f = f64) (op : FloatVar bn254 → Circ bn254 (FloatVar bn254)) (hs : ∃ l q, ∀ x, HasShape f.pow2Size (op x) l q)
    (hw : ∀ be, baseLength be 0 (ulpCircuit f op 0 0 0 0).widths = 8) {ws : List (List Char)} {x z l u : ℕ} (h : Row4 (1 + f.E + f.M) ws x z l u)
    (hn : NegativeNeighbours f.E f.M z l u) : ¬ ulpLine f op ([' '].intercalate ws) := by
  have h64 : 1 + f.E + f.M ≤ 64 := by rcases hf with rfl | rfl <;> decide
  have hp : GoodField bn254 f := by rcases hf with rfl | rfl; exacts [goodField_bn254.1, goodField_bn254.2]
  obtain ⟨hX, hZ, hL, hU⟩ := h.2.1
  obtain ⟨h1, rfl, rfl, h3, h4, h5, h6⟩ := hn
  have G : Good bn254 8 f := hp 8 ⟨by norm_num, by norm_num⟩
  have vL := val_nat hp hL
  have vU := val_nat hp hU
  have hpos : 0 < 2 ^ f.M := by positivity
  have e := Nat.div_add_mod (u + 1) (2 ^ f.M)
  have dU : u / 2 ^ f.M = (u + 1) / 2 ^ f.M ∧ u % 2 ^ f.M = (u + 1) % 2 ^ f.M - 1 := by
    rw [Nat.div_mod_unique hpos]; constructor <;> omega
  have dL : (u + 1 + 1) / 2 ^ f.M = (u + 1) / 2 ^ f.M ∧ (u + 1 + 1) % 2 ^ f.M = (u + 1) % 2 ^ f.M + 1 := by
    rw [Nat.div_mod_unique hpos]; constructor <;> omega
  rw [ulpLine_iff h, honest_ulp hs hw]
  intro hl
  refine C59_ulp_binade_rejected G h64 op true ?_ ?_ ?_ (Circ.sat_of_run _ _ hl)
  · rw [vL]; unfold IsNormal; rw [dL.1]; exact ⟨h5, h6⟩
  · rw [vU]; unfold IsNormal; rw [dU.1]; exact ⟨h5, h6⟩
  · rw [vL, vU, dL.2, dU.2]; omega

/-- **C69** (violated) So the three tests with bounds fail on every table with such a row. -/
theorem C69_negative_rows_fail {dir : List Char → Option (List Char)} {text : List Char} {ws : List (List Char)} {x z l u : ℕ} (hline : [' '].intercalate ws ∈ scanLines text) :
    (Row4 64 ws x z l u → NegativeNeighbours 11 52 z l u → dir "atan_ulp".toList = some text → ¬ atan64UlpTest dir) ∧
    (Row4 64 ws x z l u → NegativeNeighbours 11 52 z l u → dir "sin_ulp".toList = some text → ¬ sin64UlpTest dir) ∧
    (Row4 32 ws x z l u → NegativeNeighbours 8 23 z l u → dir "atan_ulp".toList = some text → ¬ atan32UlpTest dir) := by
  refine ⟨fun h hn hd ht => ?_, fun h hn hd ht => ?_, fun h hn hd ht => ?_⟩
  · exact C69_negative_row_fails (Or.inr rfl) _ shape_atan width_atan64Ulp h hn (ht _ (by rw [hd]; exact hline))
  · exact C69_negative_row_fails (Or.inr rfl) _ shape_sinTaylor width_sin64Ulp h hn (ht _ (by rw [hd]; exact hline))
  · exact C69_negative_row_fails (Or.inl rfl) _ shape_atan width_atan32Ulp h hn (ht _ (by rw [hd]; exact hline))

/-- **C69** (violated) `TestCircuitSin` looks at the first line of its table only. -/
theorem C69_sin_first_line {dir dir' : List Char → Option (List Char)} (h : (linesOf (dir "sin".toList)).head? = (linesOf (dir' "sin".toList)).head?) :
    sinTest dir ↔ sinTest dir' := by
  have key : ∀ d : List Char → Option (List Char), sinTest d ↔ ∀ line, (linesOf (d "sin".toList)).head? = some line → funcLine f64 sinTaylor64 line := by
    intro d
    unfold sinTest
    cases linesOf (d "sin".toList) <;> simp
  rw [key, key, h]

theorem row4_of {N : ℕ} {wx wz wl wu : List Char} {x z l u : ℕ}
    (hw : ([wx, wz, wl, wu].all fun w => !w.isEmpty && w.all fun c => !([' ', '\t', '\n', '\x0b', '\x0c', '\r'].contains c)) = true)
    (hx : setString16 wx = some (x : ℤ) ∧ wx.head? ≠ some '+' ∧ wx.head? ≠ some '-' ∧ x < 2 ^ N)
    (hz : setString16 wz = some (z : ℤ) ∧ wz.head? ≠ some '+' ∧ wz.head? ≠ some '-' ∧ z < 2 ^ N)
    (hl : setString16 wl = some (l : ℤ) ∧ wl.head? ≠ some '+' ∧ wl.head? ≠ some '-' ∧ l < 2 ^ N)
    (hu : setString16 wu = some (u : ℤ) ∧ wu.head? ≠ some '+' ∧ wu.head? ≠ some '-' ∧ u < 2 ^ N) : Row4 N [wx, wz, wl, wu] x z l u :=
  ⟨wordCheck hw, ⟨hx.2.2.2, hz.2.2.2, hl.2.2.2, hu.2.2.2⟩, wx, wz, wl, wu, [], rfl, hex_of hx.1 ⟨hx.2.1, hx.2.2.1⟩, hex_of hz.1 ⟨hz.2.1, hz.2.2.1⟩,
    hex_of hl.1 ⟨hl.2.1, hl.2.2.1⟩, hex_of hu.1 ⟨hu.2.1, hu.2.2.1⟩⟩

/-- **C69** (violated) Lines of the repository's own tables on which the tests fail: line 1 of data/f64/sin_ulp, line 101 of data/f64/atan_ulp and of data/f32/atan_ulp. -/
theorem C69_repository_ulp_rows_fail (dir : List Char → Option (List Char)) {text : List Char} :
    (dir "sin_ulp".toList = some text → "405452B2900E620A BFD849CC25E0A25B BFD849CC25E0A25C BFD849CC25E0A25A".toList ∈ scanLines text → ¬ sin64UlpTest dir) ∧
    (dir "atan_ulp".toList = some text → "C05015AFCDD78468 BFF8E252EE716F1B BFF8E252EE716F1C BFF8E252EE716F1A".toList ∈ scanLines text → ¬ atan64UlpTest dir) ∧
    (dir "atan_ulp".toList = some text → "C190345A BFC1F7DA BFC1F7DB BFC1F7D9".toList ∈ scanLines text → ¬ atan32UlpTest dir) := by
  refine ⟨fun hd hl => ?_, fun hd hl => ?_, fun hd hl => ?_⟩
  · exact (C69_negative_rows_fail (ws := ["405452B2900E620A".toList, "BFD849CC25E0A25B".toList, "BFD849CC25E0A25C".toList, "BFD849CC25E0A25A".toList]) hl).2.1
      (row4_of (x := 0x405452B2900E620A) (z := 0xBFD849CC25E0A25B) (l := 0xBFD849CC25E0A25C) (u := 0xBFD849CC25E0A25A) (by decide) (by decide) (by decide) (by decide) (by decide))
      (by unfold NegativeNeighbours; decide) hd
  · exact (C69_negative_rows_fail (ws := ["C05015AFCDD78468".toList, "BFF8E252EE716F1B".toList, "BFF8E252EE716F1C".toList, "BFF8E252EE716F1A".toList]) hl).1
      (row4_of (x := 0xC05015AFCDD78468) (z := 0xBFF8E252EE716F1B) (l := 0xBFF8E252EE716F1C) (u := 0xBFF8E252EE716F1A) (by decide) (by decide) (by decide) (by decide) (by decide))
      (by unfold NegativeNeighbours; decide) hd
  · exact (C69_negative_rows_fail (ws := ["C190345A".toList, "BFC1F7DA".toList, "BFC1F7DB".toList, "BFC1F7D9".toList]) hl).2.2
      (row4_of (x := 0xC190345A) (z := 0xBFC1F7DA) (l := 0xBFC1F7DB) (u := 0xBFC1F7D9) (by decide) (by decide) (by decide) (by decide) (by decide))
      (by unfold NegativeNeighbours; decide) hd

/-- **C69** (violated) `TestATanCircuit` fails on line 2 of data/f64/atan and `TestCircuitSin` on the only line of data/f64/sin that it reads: the circuits compute a neighbouring double. -/
theorem C69_repository_rows_fail (dir : List Char → Option (List Char)) {text : List Char} :
    (dir "atan".toList = some text → "3FF82259745FB5D8 3FEF881A4D9C7A41".toList ∈ scanLines text → ¬ atanTest dir) ∧
    (dir "sin".toList = some text → (scanLines text).head? = some "400378279F6AEAE6 3FE4CEE8D05A5BBE".toList → ¬ sinTest dir) := by
  refine ⟨fun hd hl ht => ?_, fun hd hl ht => ?_⟩
  · have h := ht _ (by rw [hd]; exact hl)
    have row : Row2 64 ["3FF82259745FB5D8".toList, "3FEF881A4D9C7A41".toList] 0x3FF82259745FB5D8 0x3FEF881A4D9C7A41 :=
      ⟨wordCheck (by decide), by norm_num, by norm_num, _, _, [], rfl, hex_of (by decide) (by decide), hex_of (by decide) (by decide)⟩
    rw [show "3FF82259745FB5D8 3FEF881A4D9C7A41".toList = [' '].intercalate ["3FF82259745FB5D8".toList, "3FEF881A4D9C7A41".toList] by decide,
      funcLine_iff row, honest_func (op := atanRemez64) shape_atan width_atan64] at h
    exact absurd h (by decide +kernel)
  · have h := ht "400378279F6AEAE6 3FE4CEE8D05A5BBE".toList (by
      rw [hd, linesOf]
      cases hs : scanLines text with
      | nil => rw [hs] at hl; simp at hl
      | cons a t => rw [hs] at hl; simp at hl; simp [hl])
    have row : Row2 64 ["400378279F6AEAE6".toList, "3FE4CEE8D05A5BBE".toList] 0x400378279F6AEAE6 0x3FE4CEE8D05A5BBE :=
      ⟨wordCheck (by decide), by norm_num, by norm_num, _, _, [], rfl, hex_of (by decide) (by decide), hex_of (by decide) (by decide)⟩
    rw [show "400378279F6AEAE6 3FE4CEE8D05A5BBE".toList = [' '].intercalate ["400378279F6AEAE6".toList, "3FE4CEE8D05A5BBE".toList] by decide,
      funcLine_iff row, honest_func (op := sinTaylor64) shape_sinTaylor width_sin64] at h
    exact absurd h (by decide +kernel)

/-- Line 1 of data/f64/atan passes, and line 1 of data/f64/atan_ulp. -/
example : funcLine f64 atanRemez64 "3FDB98673E909250 3FDA0DC7201202C6".toList ∧
    ulpLine f64 atanRemez64 "4053B77CF8978801 3FF8EE0C8B68E4F1 3FF8EE0C8B68E4F0 3FF8EE0C8B68E4F2".toList := by
  have row : Row2 64 ["3FDB98673E909250".toList, "3FDA0DC7201202C6".toList] 0x3FDB98673E909250 0x3FDA0DC7201202C6 :=
    ⟨wordCheck (by decide), by norm_num, by norm_num, _, _, [], rfl, hex_of (by decide) (by decide), hex_of (by decide) (by decide)⟩
  have row' := row4_of (N := 1 + f64.E + f64.M) (wx := "4053B77CF8978801".toList) (wz := "3FF8EE0C8B68E4F1".toList) (wl := "3FF8EE0C8B68E4F0".toList) (wu := "3FF8EE0C8B68E4F2".toList)
    (x := 0x4053B77CF8978801) (z := 0x3FF8EE0C8B68E4F1) (l := 0x3FF8EE0C8B68E4F0) (u := 0x3FF8EE0C8B68E4F2) (by decide) (by decide) (by decide) (by decide) (by decide)
  constructor
  · rw [show "3FDB98673E909250 3FDA0DC7201202C6".toList = [' '].intercalate ["3FDB98673E909250".toList, "3FDA0DC7201202C6".toList] by decide,
      funcLine_iff row, honest_func (op := atanRemez64) shape_atan width_atan64]
    decide +kernel
  · rw [show "4053B77CF8978801 3FF8EE0C8B68E4F1 3FF8EE0C8B68E4F0 3FF8EE0C8B68E4F2".toList =
        [' '].intercalate ["4053B77CF8978801".toList, "3FF8EE0C8B68E4F1".toList, "3FF8EE0C8B68E4F0".toList, "3FF8EE0C8B68E4F2".toList] by decide,
      ulpLine_iff row', honest_ulp (op := atanRemez64) shape_atan width_atan64Ulp]
    decide +kernel

end ZkLoc.Vectors
