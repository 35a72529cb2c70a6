import Verif.VectorsSpec
import Verif.Props.AnyWidth
import Verif.Props.Bench

/-!
# Property C67: the tests of /repo/float/float_test.go

When the tests pass, for every text of the test-data files: exactly if the lines list results of IEEE-754, but for exact cancellation in the top binade,
where addition and subtraction must be listed as `+Inf`. The repository's own files list zero there. A missing file makes its test pass.
-/

namespace ZkLoc.Vectors
open ZkLoc.Bench ZkLoc.Text _root_.Text _root_.Vectors Ieee

variable {p : ℕ} [Fact p.Prime] {f : Fmt}

/-! ### From rows to circuits -/

theorem pattern_nat (hp : GoodField p f) {n : ℕ} (hn : n < 2 ^ (1 + f.E + f.M)) :
    IsPattern f (((n : ℕ) : ℤ) : ZMod p) ∧ datumOf f (((n : ℕ) : ℤ) : ZMod p) = decodeBits ⟨f.E, f.M⟩ n := by
  have G := hp 4 width4
  have : ((n : ℕ) : ZMod p).val = n := ZMod.val_natCast_of_lt (G.lt_of_lt_pow hn (by have := G.hEM; omega))
  unfold IsPattern datumOf
  rw [Int.cast_natCast, this]
  exact ⟨hn, rfl⟩

theorem succeeds_iff (hp : GoodField p f) {c : Circ p Unit} {l : List (ℕ × Mode)} {q : ℕ} (hs : HasShape f.pow2Size c l q)
    (hr : nbR1CSConstraints 2 (l.map Prod.fst) < 2 ^ 63 - 1 ∧ nbPLONKConstraints 2 (l.map Prod.fst) < 2 ^ 63 - 1) {P : Prop}
    (h : ∀ w, Good p w f → (c.run w = some () ↔ P)) : succeeds f c ↔ P := by
  have key : ∀ be, AcceptsHonest be 0 f.pow2Size c () ↔ P := fun be => by
    rw [acceptsHonest_iff hs]; exact h _ (hp _ (width_auto hr.1 hr.2))
  unfold succeeds
  exact ⟨fun h => (key .r1cs).1 (h _), fun h be => (key be).2 h⟩

/-- The widths are chosen in range. -/
theorem costs (hf : f = f32 ∨ f = f64) :
    (∀ l ∈ [sqrtShape f, truncShape f], nbR1CSConstraints 2 ((newFloatShape f ++ newFloatShape f ++ l).map Prod.fst) < 2 ^ 63 - 1 ∧
      nbPLONKConstraints 2 ((newFloatShape f ++ newFloatShape f ++ l).map Prod.fst) < 2 ^ 63 - 1) ∧
    (∀ l ∈ [addShape f, mulShape f, divShape f], nbR1CSConstraints 2 ((newFloatShape f ++ newFloatShape f ++ newFloatShape f ++ l).map Prod.fst) < 2 ^ 63 - 1 ∧
      nbPLONKConstraints 2 ((newFloatShape f ++ newFloatShape f ++ newFloatShape f ++ l).map Prod.fst) < 2 ^ 63 - 1) ∧
    (nbR1CSConstraints 2 ((newFloatShape f ++ newFloatShape f ++ lessShape f).map Prod.fst) < 2 ^ 63 - 1 ∧
      nbPLONKConstraints 2 ((newFloatShape f ++ newFloatShape f ++ lessShape f).map Prod.fst) < 2 ^ 63 - 1) ∧
    (nbR1CSConstraints 2 ((newFloatShape f).map Prod.fst) < 2 ^ 63 - 1 ∧ nbPLONKConstraints 2 ((newFloatShape f).map Prod.fst) < 2 ^ 63 - 1) ∧
    (nbR1CSConstraints 2 ((newFloatShape f ++ truncShape f ++ [(f.pow2Size, Mode.loose)]).map Prod.fst) < 2 ^ 63 - 1 ∧
      nbPLONKConstraints 2 ((newFloatShape f ++ truncShape f ++ [(f.pow2Size, Mode.loose)]).map Prod.fst) < 2 ^ 63 - 1) := by
  rcases hf with rfl | rfl <;> decide +kernel

/-- What the addition test requires of a row: the IEEE sum, or `+Inf` if the summands cancel and belong to the top binade. -/
def AddRow (f : Fmt) (dx dy dz : Datum) : Prop :=
  (¬ TopCancel f dx dy ∧ Ieee.Add ⟨f.E, f.M⟩ dx dy dz) ∨ (TopCancel f dx dy ∧ dz = .inf false)

/-- The same for subtraction. -/
def SubRow (f : Fmt) (dx dy dz : Datum) : Prop :=
  (¬ TopCancel f dx dy.neg ∧ Ieee.Sub ⟨f.E, f.M⟩ dx dy dz) ∨ (TopCancel f dx dy.neg ∧ dz = .inf false)

theorem sub_run (G : Good p b f) (h64 : 1 + f.E + f.M ≤ 64) (X Y Z : ZMod p) :
    (binaryCircuit f (fSub f) X Y Z).run b = some () ↔
      IsPattern f X ∧ IsPattern f Y ∧ IsPattern f Z ∧ SubRow f (datumOf f X) (datumOf f Y) (datumOf f Z) := by
  rw [binary_run G h64]
  refine and_congr_right fun h1 => and_congr_right fun h2 => and_congr_right fun h3 => ?_
  have eX := wiresOf_encodes G h64 h1
  have eY := wiresOf_encodes G h64 h2
  have eZ := wiresOf_encodes G h64 h3
  unfold SubRow
  by_cases htc : TopCancel f (datumOf f X) (datumOf f Y).neg
  · obtain ⟨r, h4, h5, -⟩ := C15_add_top_cancel_gives_inf (b := b) G eX (encodes_neg eY) htc
    constructor
    · rintro ⟨r', h6, h7⟩
      rw [show fSub f (wiresOf f X) (wiresOf f Y) = _ from rfl] at h6
      rw [show (fAdd f (wiresOf f X) _).run b = _ from h6] at h4; cases h4
      exact Or.inr ⟨htc, ((C28_assertIsEqual G h5 eZ).1.1 h7).symm⟩
    · rintro (h | ⟨-, h⟩)
      · exact absurd htc h.1
      · exact ⟨r, h4, (C28_assertIsEqual G h5 eZ).1.2 h.symm⟩
  · obtain ⟨r, h4, h5⟩ := C17_sub_complete (b := b) G eX eY
    obtain ⟨d, h6, h7⟩ := h5 htc
    constructor
    · rintro ⟨r', h8, h9⟩
      rw [h4] at h8; cases h8
      left; refine ⟨htc, ?_⟩
      rw [← (C28_assertIsEqual G h6 eZ).1.1 h9]; exact h7
    · rintro (h | h)
      · exact ⟨r, h4, (C28_assertIsEqual G h6 eZ).1.2 (h7.unique h.2)⟩
      · exact absurd h.1 htc

/-! ### One row -/

/-- **C67** A row of a table for `Sqrt`, `Trunc`, `Floor` or `Ceil` passes exactly if it lists the IEEE result. -/
theorem C67_unary_row (hf : f = f32 ∨ f = f64) (hp : GoodField p f) {ws : List (List Char)} {x y : ℕ} (h : Row2 (1 + f.E + f.M) ws x y) :
    (unaryLine f (fSqrt (p := p) f) ([' '].intercalate ws) ↔ Sqrt ⟨f.E, f.M⟩ (decodeBits ⟨f.E, f.M⟩ x) (decodeBits ⟨f.E, f.M⟩ y)) ∧
    (unaryLine f (fTrunc (p := p) f) ([' '].intercalate ws) ↔ Integral Ieee.truncZ (decodeBits ⟨f.E, f.M⟩ x) (decodeBits ⟨f.E, f.M⟩ y)) ∧
    (unaryLine f (fFloor (p := p) f) ([' '].intercalate ws) ↔ Integral (fun v => ⌊v⌋) (decodeBits ⟨f.E, f.M⟩ x) (decodeBits ⟨f.E, f.M⟩ y)) ∧
    (unaryLine f (fCeil (p := p) f) ([' '].intercalate ws) ↔ Integral (fun v => ⌈v⌉) (decodeBits ⟨f.E, f.M⟩ x) (decodeBits ⟨f.E, f.M⟩ y)) := by
  have h64 : 1 + f.E + f.M ≤ 64 := by rcases hf with rfl | rfl <;> decide
  obtain ⟨hw, hx, hy, wx, wy, rest, rfl, h1, h2⟩ := h
  obtain ⟨px, ex⟩ := pattern_nat (p := p) hp hx
  obtain ⟨py, ey⟩ := pattern_nat (p := p) hp hy
  have key : ∀ (op : FloatVar p → Circ p (FloatVar p)) (l : List (ℕ × Mode)) (q : ℕ), (∀ x, HasShape f.pow2Size (op x) l q) → l ∈ [sqrtShape f, truncShape f] →
      ∀ R : Datum → Datum → Prop, (∀ w, Good p w f → ∀ X Y : ZMod p, (unaryCircuit f op X Y).run w = some () ↔ IsPattern f X ∧ IsPattern f Y ∧ R (datumOf f X) (datumOf f Y)) →
      (unaryLine f op ([' '].intercalate (wx :: wy :: rest)) ↔ R (decodeBits ⟨f.E, f.M⟩ x) (decodeBits ⟨f.E, f.M⟩ y)) := by
    intro op l q hs hl R hR
    unfold unaryLine
    rw [fields_words hw]
    simp only [hex_setString h1, hex_setString h2]
    refine succeeds_iff hp (shape_unary hs _ _) ((costs hf).1 l hl) fun w G => ?_
    rw [hR w G, ex, ey]
    exact ⟨fun h => h.2.2, fun h => ⟨px, py, h⟩⟩
  exact ⟨key _ _ _ shape_sqrt (by simp) (Sqrt ⟨f.E, f.M⟩) fun w G X Y => (C41_honest G h64 X Y 0).2.2.1,
    key _ _ _ shape_trunc (by simp) (Integral Ieee.truncZ) fun w G X Y => (C41_honest G h64 X Y 0).2.2.2.1,
    key _ _ _ shape_floor (by simp) (Integral (fun v => ⌊v⌋)) fun w G X Y => (C41_honest G h64 X Y 0).2.2.2.2.1,
    key _ _ _ shape_ceil (by simp) (Integral (fun v => ⌈v⌉)) fun w G X Y => (C41_honest G h64 X Y 0).2.2.2.2.2⟩

/-- **C67** A row of a table for `Add`, `Sub`, `Mul` or `Div`. -/
theorem C67_binary_row (hf : f = f32 ∨ f = f64) (hp : GoodField p f) {ws : List (List Char)} {x y z : ℕ} (h : Row3 (1 + f.E + f.M) ws x y z) :
    (binaryLine f (fAdd (p := p) f) ([' '].intercalate ws) ↔
      AddRow f (decodeBits ⟨f.E, f.M⟩ x) (decodeBits ⟨f.E, f.M⟩ y) (decodeBits ⟨f.E, f.M⟩ z)) ∧
    (binaryLine f (fSub (p := p) f) ([' '].intercalate ws) ↔
      SubRow f (decodeBits ⟨f.E, f.M⟩ x) (decodeBits ⟨f.E, f.M⟩ y) (decodeBits ⟨f.E, f.M⟩ z)) ∧
    (binaryLine f (fMul (p := p) f) ([' '].intercalate ws) ↔
      Mul ⟨f.E, f.M⟩ (decodeBits ⟨f.E, f.M⟩ x) (decodeBits ⟨f.E, f.M⟩ y) (decodeBits ⟨f.E, f.M⟩ z)) ∧
    (binaryLine f (fDiv (p := p) f) ([' '].intercalate ws) ↔
      Div ⟨f.E, f.M⟩ (decodeBits ⟨f.E, f.M⟩ x) (decodeBits ⟨f.E, f.M⟩ y) (decodeBits ⟨f.E, f.M⟩ z)) := by
  have h64 : 1 + f.E + f.M ≤ 64 := by rcases hf with rfl | rfl <;> decide
  obtain ⟨hw, hx, hy, hz, wx, wy, wz, rest, rfl, h1, h2, h3⟩ := h
  obtain ⟨px, ex⟩ := pattern_nat (p := p) hp hx
  obtain ⟨py, ey⟩ := pattern_nat (p := p) hp hy
  obtain ⟨pz, ez⟩ := pattern_nat (p := p) hp hz
  have key : ∀ (op : FloatVar p → FloatVar p → Circ p (FloatVar p)) (l : List (ℕ × Mode)) (q : ℕ), (∀ x y, HasShape f.pow2Size (op x y) l q) →
      l ∈ [addShape f, mulShape f, divShape f] → ∀ R : Datum → Datum → Datum → Prop,
      (∀ w, Good p w f → ∀ X Y Z : ZMod p, (binaryCircuit f op X Y Z).run w = some () ↔
        IsPattern f X ∧ IsPattern f Y ∧ IsPattern f Z ∧ R (datumOf f X) (datumOf f Y) (datumOf f Z)) →
      (binaryLine f op ([' '].intercalate (wx :: wy :: wz :: rest)) ↔
        R (decodeBits ⟨f.E, f.M⟩ x) (decodeBits ⟨f.E, f.M⟩ y) (decodeBits ⟨f.E, f.M⟩ z)) := by
    intro op l q hs hl R hR
    unfold binaryLine
    rw [fields_words hw]
    simp only [hex_setString h1, hex_setString h2, hex_setString h3]
    refine succeeds_iff hp (shape_binary hs _ _ _) ((costs hf).2.1 l hl) fun w G => ?_
    rw [hR w G, ex, ey, ez]
    exact ⟨fun h => h.2.2.2, fun h => ⟨px, py, pz, h⟩⟩
  exact ⟨key _ _ _ shape_add (by simp) (AddRow f) fun w G X Y Z => C41_honest_add G h64 X Y Z,
    key _ _ _ shape_sub (by simp) (SubRow f) fun w G X Y Z => sub_run G h64 X Y Z,
    key _ _ _ shape_mul (by simp) (Mul ⟨f.E, f.M⟩) fun w G X Y Z => (C41_honest G h64 X Y Z).1,
    key _ _ _ shape_div (by simp) (Div ⟨f.E, f.M⟩) fun w G X Y Z => (C41_honest G h64 X Y Z).2.1⟩

theorem setString2_bit (t : Bool) : setString2 (if t then ['1'] else ['0']) = some (if t then 1 else 0) := by cases t <;> decide

/-- **C67** A row of a table for a comparison passes exactly if it lists the truth value. -/
theorem C67_comparison_row (hf : f = f32 ∨ f = f64) (hp : GoodField p f) {ws : List (List Char)} {x y : ℕ} {t : Bool} (h : RowB (1 + f.E + f.M) ws x y t) :
    (comparisonLine f (fIsLt (p := p) f) ([' '].intercalate ws) ↔ (t = true ↔ Lt (decodeBits ⟨f.E, f.M⟩ x) (decodeBits ⟨f.E, f.M⟩ y))) ∧
    (comparisonLine f (fIsLe (p := p) f) ([' '].intercalate ws) ↔ (t = true ↔ Le (decodeBits ⟨f.E, f.M⟩ x) (decodeBits ⟨f.E, f.M⟩ y))) ∧
    (comparisonLine f (fIsGt (p := p) f) ([' '].intercalate ws) ↔ (t = true ↔ Lt (decodeBits ⟨f.E, f.M⟩ y) (decodeBits ⟨f.E, f.M⟩ x))) ∧
    (comparisonLine f (fIsGe (p := p) f) ([' '].intercalate ws) ↔ (t = true ↔ Le (decodeBits ⟨f.E, f.M⟩ y) (decodeBits ⟨f.E, f.M⟩ x))) := by
  have h64 : 1 + f.E + f.M ≤ 64 := by rcases hf with rfl | rfl <;> decide
  obtain ⟨hw, hx, hy, wx, wy, rest, rfl, h1, h2⟩ := h
  obtain ⟨px, ex⟩ := pattern_nat (p := p) hp hx
  obtain ⟨py, ey⟩ := pattern_nat (p := p) hp hy
  have key : ∀ (op : FloatVar p → FloatVar p → Circ p (ZMod p)), (∀ x y, HasShape f.pow2Size (op x y) (lessShape f) 0) →
      ∀ R : Datum → Datum → Prop,
      (∀ w, Good p w f → ∀ {x y dx dy}, Encodes f x dx → Encodes f y dy → (op x y).run w = some (wireOf (R dx dy))) →
      (comparisonLine f op ([' '].intercalate (wx :: wy :: (if t then ['1'] else ['0']) :: rest)) ↔
        (t = true ↔ R (decodeBits ⟨f.E, f.M⟩ x) (decodeBits ⟨f.E, f.M⟩ y))) := by
    intro op hs R hR
    unfold comparisonLine
    rw [fields_words hw]
    simp only [hex_setString h1, hex_setString h2, setString2_bit]
    refine succeeds_iff hp (shape_comparison hs _ _ _) (costs hf).2.2.1 fun w G => ?_
    rw [comparison_run G h64 (hR w G), ex, ey]
    have e : ((if t then 1 else 0 : ℤ) : ZMod p) = wireOf (R (decodeBits ⟨f.E, f.M⟩ x) (decodeBits ⟨f.E, f.M⟩ y)) ↔
        (t = true ↔ R (decodeBits ⟨f.E, f.M⟩ x) (decodeBits ⟨f.E, f.M⟩ y)) := by
      unfold wireOf
      by_cases hR : R (decodeBits ⟨f.E, f.M⟩ x) (decodeBits ⟨f.E, f.M⟩ y) <;> cases t <;> simp [hR]
    rw [e]
    exact ⟨fun h => h.2.2, fun h => ⟨px, py, h⟩⟩
  exact ⟨key _ (fun x y => shape_less x y 0) Lt fun w G _ _ _ _ ex ey => (C24_isLt G ex ey).1,
    key _ (fun x y => shape_less x y 1) Le fun w G _ _ _ _ ex ey => (C24_isLe G ex ey).1,
    key _ (fun x y => shape_less y x 0) (fun a c => Lt c a) fun w G _ _ _ _ ex ey => (C24_isGt G ex ey).1,
    key _ (fun x y => shape_less y x 1) (fun a c => Le c a) fun w G _ _ _ _ ex ey => (C24_isGe G ex ey).1⟩

/-- **C67** Every row that begins with a bit pattern passes the allocation test. -/
theorem C67_allocation_row (hf : f = f32 ∨ f = f64) (hp : GoodField p f) {w : List Char} {ws : List (List Char)} {x : ℕ} (hw : ∀ v ∈ w :: ws, Word v)
    (hx : Hex w x) (hlt : x < 2 ^ (1 + f.E + f.M)) : allocationLine (p := p) f ([' '].intercalate (w :: ws)) := by
  have h64 : 1 + f.E + f.M ≤ 64 := by rcases hf with rfl | rfl <;> decide
  obtain ⟨px, ex⟩ := pattern_nat (p := p) hp hlt
  unfold allocationLine
  rw [fields_words hw]
  simp only [hex_setString hx, Int.natAbs_natCast]
  rw [Nat.mod_eq_of_lt (lt_of_lt_of_le hlt (Nat.pow_le_pow_right (by norm_num) h64))]
  refine (succeeds_iff (P := True) hp (shape_allocation _ _) (costs hf).2.2.2.1 fun w G => ?_).2 trivial
  rw [allocation_run G h64 _ hlt, ex]
  exact ⟨fun _ => trivial, fun _ => ⟨px, rfl⟩⟩

theorem decode_nonneg (hp : GoodField p f) (h64 : 1 + f.E + f.M ≤ 64) {x : ℕ} (hx : x < 2 ^ (1 + f.E + f.M)) {s : Bool} {a : ℝ}
    (h : decodeBits ⟨f.E, f.M⟩ x = .fin s a) : 0 ≤ a := by
  have G := hp 4 width4
  obtain ⟨px, ex⟩ := pattern_nat (p := p) hp hx
  have := wiresOf_encodes G h64 px
  rw [ex, h] at this
  obtain ⟨y, -, hd, -⟩ := encodes_iff.1 this
  obtain ⟨-, -, rfl⟩ := datum_fin_iff.1 hd
  unfold Flt.mag
  positivity

/-- **C67** A row of a table of conversions passes exactly if it is marked as exception or lists the rounded number in two's complement. -/
theorem C67_conversion_row (hf : f = f32 ∨ f = f64) (hp : GoodField p f) {ws : List (List Char)} {x y : ℕ} {flags : List Char}
    (h : RowF (1 + f.E + f.M) ws x y flags) :
    (conversionLine f (1 + f.E + f.M) (fTrunc (p := p) f) ([' '].intercalate ws) ↔ flags = ['1', '0'] ∨
      ∃ s a, decodeBits ⟨f.E, f.M⟩ x = .fin s a ∧ TwosComplement (1 + f.E + f.M) y (Ieee.truncZ (signed s a))) ∧
    (conversionLine f (1 + f.E + f.M) (fFloor (p := p) f) ([' '].intercalate ws) ↔ flags = ['1', '0'] ∨
      ∃ s a, decodeBits ⟨f.E, f.M⟩ x = .fin s a ∧ TwosComplement (1 + f.E + f.M) y ⌊signed s a⌋) ∧
    (conversionLine f (1 + f.E + f.M) (fCeil (p := p) f) ([' '].intercalate ws) ↔ flags = ['1', '0'] ∨
      ∃ s a, decodeBits ⟨f.E, f.M⟩ x = .fin s a ∧ TwosComplement (1 + f.E + f.M) y ⌈signed s a⌉) := by
  have h64 : 1 + f.E + f.M ≤ 64 := by rcases hf with rfl | rfl <;> decide
  have hsz : (f.pow2Size : ℤ) ≤ 2 ^ (f.E - 1) := by rcases hf with rfl | rfl <;> decide
  obtain ⟨hw, hx, hy, wx, wy, rest, rfl, h1, h2⟩ := h
  obtain ⟨px, ex⟩ := pattern_nat (p := p) hp hx
  have hps : f.pow2Size = 1 + f.E + f.M := by show f.M + f.E + 1 = _; omega
  have hbig : 2 ^ (1 + f.E + f.M + 2) ≤ p := by
    have G := hp 4 width4
    exact le_trans (Nat.pow_le_pow_right (by norm_num) (by have := G.hEM; omega)) G.hp
  have hcast : ∀ v u : ℤ, |v| ≤ 2 ^ (1 + f.E + f.M) → |u| ≤ 2 ^ (1 + f.E + f.M) → ((v : ZMod p) = u ↔ v = u) := by
    intro v u hv hu
    refine ⟨fun h => ?_, fun h => by rw [h]⟩
    rw [ZMod.intCast_eq_intCast_iff_dvd_sub] at h
    have hb : (2:ℤ) ^ (1 + f.E + f.M) * 4 ≤ p := by
      have : (2:ℤ) ^ (1 + f.E + f.M + 2) ≤ p := by exact_mod_cast hbig
      rw [pow_add] at this; linarith
    have h0 : (0:ℤ) < 2 ^ (1 + f.E + f.M) := by positivity
    rw [abs_le] at hv hu
    have := Int.eq_zero_of_abs_lt_dvd h (by rw [abs_lt]; constructor <;> linarith)
    linarith
  have key : ∀ (op : FloatVar p → Circ p (FloatVar p)), (∀ x, HasShape f.pow2Size (op x) (truncShape f) 1) → ∀ g : ℝ → ℤ, (∀ a, 0 ≤ a → 0 ≤ g a ∧ g (-a) ≤ 0) →
      (∀ w, Good p w f → ∀ {x dx}, Encodes f x dx → ∃ r d, (op x).run w = some r ∧ Encodes f r d ∧ Integral g dx d) →
      (conversionLine f (1 + f.E + f.M) op ([' '].intercalate (wx :: wy :: flags :: rest)) ↔ flags = ['1', '0'] ∨
        ∃ s a, decodeBits ⟨f.E, f.M⟩ x = .fin s a ∧ TwosComplement (1 + f.E + f.M) y (g (signed s a))) := by
    intro op hs g hg hR
    unfold conversionLine
    rw [fields_words hw]
    simp only [hex_setString h1, hex_parseUint h2 hy]
    by_cases hfl : flags = ['1', '0']
    · simp [hfl]
    rw [if_neg hfl, or_iff_right hfl]
    have hv0 := (wrapInt_iff (bits := 1 + f.E + f.M) (by omega) hy).1 rfl
    have hwrap := fun v => wrapInt_iff (bits := 1 + f.E + f.M) (n := y) (by omega) hy (v := v)
    generalize wrapInt (1 + f.E + f.M) y = v0 at hv0 hwrap
    simp only [← hwrap]
    have h0 : (0:ℤ) < 2 ^ (1 + f.E + f.M) := by positivity
    refine succeeds_iff hp (shape_conversion hs _ _) (costs hf).2.2.2.2 fun w G => ?_
    rw [conversion_run G h64 hsz (R := Integral g) Integral.unique (hR w G) int_nat, ex, hps]
    have hsgn : ∀ (s : Bool) (a : ℝ) (n : ℕ), 0 ≤ a → (n:ℝ) = |((g (signed s a) : ℤ) : ℝ)| → (signedNat s n : ZMod p) = ((g (signed s a) : ℤ) : ZMod p) := by
      intro s a n ha hn
      have hn' : (n:ℤ) = |g (signed s a)| := by exact_mod_cast hn
      unfold signedNat
      cases s
      · simp only [signed, Bool.false_eq_true, if_false] at hn' ⊢
        rw [abs_of_nonneg (hg a ha).1] at hn'
        rw [← hn']; simp
      · simp only [signed, if_true] at hn' ⊢
        rw [abs_of_nonpos (hg a ha).2] at hn'
        rw [show g (-a) = -(n:ℤ) by omega]; simp
    have hv0' : |v0| ≤ 2 ^ (1 + f.E + f.M) := by
      rw [abs_le]; obtain ⟨a1, a2, -⟩ := hv0; constructor <;> linarith
    constructor
    · rintro ⟨-, s, n, hn, hI, hY⟩
      cases hdx : decodeBits ⟨f.E, f.M⟩ x with
      | nan => rw [hdx] at hI; simp [Integral] at hI
      | inf t => rw [hdx] at hI; simp [Integral] at hI
      | fin t a =>
        rw [hdx] at hI
        simp only [Integral, Datum.fin.injEq] at hI
        obtain ⟨rfl, hI⟩ := hI
        refine ⟨s, a, rfl, ?_⟩
        rw [hsgn s a n (decode_nonneg hp h64 hx hdx) hI, hcast _ _ hv0'] at hY
        · exact hY
        · have : (n:ℤ) = |g (signed s a)| := by exact_mod_cast hI
          rw [← this]; exact_mod_cast hn.le
    · rintro ⟨s, a, hdx, hv⟩
      refine ⟨px, s, (g (signed s a)).natAbs, ?_, ?_, ?_⟩
      · have : |v0| < 2 ^ (1 + f.E + f.M) := by
          obtain ⟨a1, a2, -⟩ := hv0
          rw [abs_lt]; constructor <;> linarith
        rw [hv, Int.abs_eq_natAbs] at this
        exact_mod_cast this
      · rw [hdx]
        simp only [Integral, Datum.fin.injEq, true_and]
        rw [Nat.cast_natAbs, Int.cast_abs]
      · rw [hsgn s a _ (decode_nonneg hp h64 hx hdx) (by rw [Nat.cast_natAbs, Int.cast_abs]), hv]
  refine ⟨key _ shape_trunc Ieee.truncZ (fun a ha => ?_) fun w G _ _ ex => C26_trunc_complete G ex,
    key _ shape_floor (fun v => ⌊v⌋) (fun a ha => ⟨Int.floor_nonneg.2 ha, ?_⟩) fun w G _ _ ex => C26_floor_complete G ex,
    key _ shape_ceil (fun v => ⌈v⌉) (fun a ha => ⟨Int.ceil_nonneg ha, ?_⟩) fun w G _ _ ex => C26_ceil_complete G ex⟩
  · unfold Ieee.truncZ
    rw [if_pos ha]
    refine ⟨Int.floor_nonneg.2 ha, ?_⟩
    split_ifs with h
    · have : a = 0 := by linarith
      simp [this]
    · exact Int.ceil_le.2 (by simpa using ha)
  · have : ((⌊-a⌋ : ℤ) : ℝ) ≤ 0 := le_trans (Int.floor_le _) (by linarith)
    exact_mod_cast this
  · exact Int.ceil_le.2 (by simpa using ha)

/-! ### Whole tests -/

/-- A table whose rows all pass or fail by the listed relation passes exactly if the relation holds of every row. -/
theorem table_iff {rows : List (List (List Char))} {ι : Type} {Row : List (List Char) → ι → Prop} (hw : ∀ ws i, Row ws i → ∀ w ∈ ws, Word w)
    (hrow : ∀ ws ∈ rows, ∃ i, Row ws i) {P : List Char → Prop} {R : ι → Prop} (h : ∀ ws i, Row ws i → (P ([' '].intercalate ws) ↔ R i)) :
    (∀ line ∈ linesOf (some (printTable rows)), P line) ↔ ∀ ws ∈ rows, ∀ i, Row ws i → R i := by
  rw [table_lines fun ws hws => by obtain ⟨i, hi⟩ := hrow ws hws; exact hw ws i hi]
  constructor
  · intro hh ws hws i hi; exact (h ws i hi).1 (hh ws hws)
  · intro hh ws hws
    obtain ⟨i, hi⟩ := hrow ws hws
    exact (h ws i hi).2 (hh ws hws i hi)

/-- **C67** `TestF32UnaryCircuit` and `TestF64UnaryCircuit` pass on a directory of tables exactly if every row lists the IEEE result. -/
theorem C67_unary_test (hf : f = f32 ∨ f = f64) (hp : GoodField p f) {dir : List Char → Option (List Char)} {t : List Char → List (List (List Char))}
    (ht : ∀ n ∈ ["sqrt".toList, "trunc".toList, "floor".toList, "ceil".toList],
      dir n = some (printTable (t n)) ∧ ∀ ws ∈ t n, ∃ i : ℕ × ℕ, Row2 (1 + f.E + f.M) ws i.1 i.2) :
    unaryTest f (unaryOps (p := p) f) dir ↔
      (∀ ws ∈ t "sqrt".toList, ∀ i : ℕ × ℕ, Row2 (1 + f.E + f.M) ws i.1 i.2 → Sqrt ⟨f.E, f.M⟩ (decodeBits ⟨f.E, f.M⟩ i.1) (decodeBits ⟨f.E, f.M⟩ i.2)) ∧
      (∀ ws ∈ t "trunc".toList, ∀ i : ℕ × ℕ, Row2 (1 + f.E + f.M) ws i.1 i.2 →
        Integral Ieee.truncZ (decodeBits ⟨f.E, f.M⟩ i.1) (decodeBits ⟨f.E, f.M⟩ i.2)) ∧
      (∀ ws ∈ t "floor".toList, ∀ i : ℕ × ℕ, Row2 (1 + f.E + f.M) ws i.1 i.2 →
        Integral (fun v => ⌊v⌋) (decodeBits ⟨f.E, f.M⟩ i.1) (decodeBits ⟨f.E, f.M⟩ i.2)) ∧
      (∀ ws ∈ t "ceil".toList, ∀ i : ℕ × ℕ, Row2 (1 + f.E + f.M) ws i.1 i.2 →
        Integral (fun v => ⌈v⌉) (decodeBits ⟨f.E, f.M⟩ i.1) (decodeBits ⟨f.E, f.M⟩ i.2)) := by
  simp only [List.mem_cons, List.not_mem_nil, or_false, forall_eq_or_imp, forall_eq] at ht
  obtain ⟨⟨d1, r1⟩, ⟨d2, r2⟩, ⟨d3, r3⟩, d4, r4⟩ := ht
  simp only [unaryTest, unaryOps, List.mem_cons, List.not_mem_nil, or_false, forall_eq_or_imp, forall_eq]
  rw [show lower "Sqrt".toList = "sqrt".toList by decide, show lower "Trunc".toList = "trunc".toList by decide,
    show lower "Floor".toList = "floor".toList by decide, show lower "Ceil".toList = "ceil".toList by decide, d1, d2, d3, d4]
  have hw : ∀ ws (i : ℕ × ℕ), Row2 (1 + f.E + f.M) ws i.1 i.2 → ∀ w ∈ ws, Word w := fun _ _ h => h.1
  rw [table_iff hw r1 fun ws i h => (C67_unary_row hf hp h).1, table_iff hw r2 fun ws i h => (C67_unary_row hf hp h).2.1,
    table_iff hw r3 fun ws i h => (C67_unary_row hf hp h).2.2.1, table_iff hw r4 fun ws i h => (C67_unary_row hf hp h).2.2.2]

/-- **C67** `TestF32BinaryCircuit` and `TestF64BinaryCircuit`. -/
theorem C67_binary_test (hf : f = f32 ∨ f = f64) (hp : GoodField p f) {dir : List Char → Option (List Char)} {t : List Char → List (List (List Char))}
    (ht : ∀ n ∈ ["add".toList, "sub".toList, "mul".toList, "div".toList],
      dir n = some (printTable (t n)) ∧ ∀ ws ∈ t n, ∃ i : ℕ × ℕ × ℕ, Row3 (1 + f.E + f.M) ws i.1 i.2.1 i.2.2) :
    binaryTest f (binaryOps (p := p) f) dir ↔
      (∀ ws ∈ t "add".toList, ∀ i : ℕ × ℕ × ℕ, Row3 (1 + f.E + f.M) ws i.1 i.2.1 i.2.2 →
        AddRow f (decodeBits ⟨f.E, f.M⟩ i.1) (decodeBits ⟨f.E, f.M⟩ i.2.1) (decodeBits ⟨f.E, f.M⟩ i.2.2)) ∧
      (∀ ws ∈ t "sub".toList, ∀ i : ℕ × ℕ × ℕ, Row3 (1 + f.E + f.M) ws i.1 i.2.1 i.2.2 →
        SubRow f (decodeBits ⟨f.E, f.M⟩ i.1) (decodeBits ⟨f.E, f.M⟩ i.2.1) (decodeBits ⟨f.E, f.M⟩ i.2.2)) ∧
      (∀ ws ∈ t "mul".toList, ∀ i : ℕ × ℕ × ℕ, Row3 (1 + f.E + f.M) ws i.1 i.2.1 i.2.2 →
        Mul ⟨f.E, f.M⟩ (decodeBits ⟨f.E, f.M⟩ i.1) (decodeBits ⟨f.E, f.M⟩ i.2.1) (decodeBits ⟨f.E, f.M⟩ i.2.2)) ∧
      (∀ ws ∈ t "div".toList, ∀ i : ℕ × ℕ × ℕ, Row3 (1 + f.E + f.M) ws i.1 i.2.1 i.2.2 →
        Div ⟨f.E, f.M⟩ (decodeBits ⟨f.E, f.M⟩ i.1) (decodeBits ⟨f.E, f.M⟩ i.2.1) (decodeBits ⟨f.E, f.M⟩ i.2.2)) := by
  simp only [List.mem_cons, List.not_mem_nil, or_false, forall_eq_or_imp, forall_eq] at ht
  obtain ⟨⟨d1, r1⟩, ⟨d2, r2⟩, ⟨d3, r3⟩, d4, r4⟩ := ht
  simp only [binaryTest, binaryOps, List.mem_cons, List.not_mem_nil, or_false, forall_eq_or_imp, forall_eq]
  rw [show lower "Add".toList = "add".toList by decide, show lower "Sub".toList = "sub".toList by decide,
    show lower "Mul".toList = "mul".toList by decide, show lower "Div".toList = "div".toList by decide, d1, d2, d3, d4]
  have hw : ∀ ws (i : ℕ × ℕ × ℕ), Row3 (1 + f.E + f.M) ws i.1 i.2.1 i.2.2 → ∀ w ∈ ws, Word w := fun _ _ h => h.1
  rw [table_iff hw r1 fun ws i h => (C67_binary_row hf hp h).1, table_iff hw r2 fun ws i h => (C67_binary_row hf hp h).2.1,
    table_iff hw r3 fun ws i h => (C67_binary_row hf hp h).2.2.1, table_iff hw r4 fun ws i h => (C67_binary_row hf hp h).2.2.2]

/-- **C67** `TestF32ComparisonCircuit` and `TestF64ComparisonCircuit`, if all four tables exist. -/
theorem C67_comparison_test (hf : f = f32 ∨ f = f64) (hp : GoodField p f) {dir : List Char → Option (List Char)} {t : List Char → List (List (List Char))}
    (ht : ∀ n ∈ ["lt".toList, "le".toList, "gt".toList, "ge".toList],
      dir n = some (printTable (t n)) ∧ ∀ ws ∈ t n, ∃ i : ℕ × ℕ × Bool, RowB (1 + f.E + f.M) ws i.1 i.2.1 i.2.2) :
    comparisonTest f (comparisonOps (p := p) f) dir ↔
      (∀ ws ∈ t "lt".toList, ∀ i : ℕ × ℕ × Bool, RowB (1 + f.E + f.M) ws i.1 i.2.1 i.2.2 →
        (i.2.2 = true ↔ Lt (decodeBits ⟨f.E, f.M⟩ i.1) (decodeBits ⟨f.E, f.M⟩ i.2.1))) ∧
      (∀ ws ∈ t "le".toList, ∀ i : ℕ × ℕ × Bool, RowB (1 + f.E + f.M) ws i.1 i.2.1 i.2.2 →
        (i.2.2 = true ↔ Le (decodeBits ⟨f.E, f.M⟩ i.1) (decodeBits ⟨f.E, f.M⟩ i.2.1))) ∧
      (∀ ws ∈ t "gt".toList, ∀ i : ℕ × ℕ × Bool, RowB (1 + f.E + f.M) ws i.1 i.2.1 i.2.2 →
        (i.2.2 = true ↔ Lt (decodeBits ⟨f.E, f.M⟩ i.2.1) (decodeBits ⟨f.E, f.M⟩ i.1))) ∧
      (∀ ws ∈ t "ge".toList, ∀ i : ℕ × ℕ × Bool, RowB (1 + f.E + f.M) ws i.1 i.2.1 i.2.2 →
        (i.2.2 = true ↔ Le (decodeBits ⟨f.E, f.M⟩ i.2.1) (decodeBits ⟨f.E, f.M⟩ i.1))) := by
  simp only [List.mem_cons, List.not_mem_nil, or_false, forall_eq_or_imp, forall_eq] at ht
  obtain ⟨⟨d1, r1⟩, ⟨d2, r2⟩, ⟨d3, r3⟩, d4, r4⟩ := ht
  simp only [comparisonTest, comparisonOps, List.mem_cons, List.not_mem_nil, or_false, forall_eq_or_imp, forall_eq]
  rw [show lower ("IsLt".toList.drop 2) = "lt".toList by decide, show lower ("IsLe".toList.drop 2) = "le".toList by decide,
    show lower ("IsGt".toList.drop 2) = "gt".toList by decide, show lower ("IsGe".toList.drop 2) = "ge".toList by decide, d1, d2, d3, d4]
  have hw : ∀ ws (i : ℕ × ℕ × Bool), RowB (1 + f.E + f.M) ws i.1 i.2.1 i.2.2 → ∀ w ∈ ws, Word w := fun _ _ h => h.1
  rw [table_iff hw r1 fun ws i h => (C67_comparison_row hf hp h).1, table_iff hw r2 fun ws i h => (C67_comparison_row hf hp h).2.1,
    table_iff hw r3 fun ws i h => (C67_comparison_row hf hp h).2.2.1, table_iff hw r4 fun ws i h => (C67_comparison_row hf hp h).2.2.2]

/-- **C67** `TestF32ConversionCircuit` and `TestF64ConversionCircuit`. -/
theorem C67_conversion_test (hf : f = f32 ∨ f = f64) (hp : GoodField p f) {dir : List Char → Option (List Char)} {t : List Char → List (List (List Char))}
    {pre : List Char} (hpre : pre = if f = f32 then "to_i32_".toList else "to_i64_".toList)
    (ht : ∀ n ∈ ["trunc".toList, "floor".toList, "ceil".toList],
      dir (pre ++ n) = some (printTable (t n)) ∧ ∀ ws ∈ t n, ∃ i : ℕ × ℕ × List Char, RowF (1 + f.E + f.M) ws i.1 i.2.1 i.2.2) :
    conversionTest f (1 + f.E + f.M) (conversionOps (p := p) f) dir ↔
      (∀ ws ∈ t "trunc".toList, ∀ i : ℕ × ℕ × List Char, RowF (1 + f.E + f.M) ws i.1 i.2.1 i.2.2 → i.2.2 = ['1', '0'] ∨
        ∃ s a, decodeBits ⟨f.E, f.M⟩ i.1 = .fin s a ∧ TwosComplement (1 + f.E + f.M) i.2.1 (Ieee.truncZ (signed s a))) ∧
      (∀ ws ∈ t "floor".toList, ∀ i : ℕ × ℕ × List Char, RowF (1 + f.E + f.M) ws i.1 i.2.1 i.2.2 → i.2.2 = ['1', '0'] ∨
        ∃ s a, decodeBits ⟨f.E, f.M⟩ i.1 = .fin s a ∧ TwosComplement (1 + f.E + f.M) i.2.1 ⌊signed s a⌋) ∧
      (∀ ws ∈ t "ceil".toList, ∀ i : ℕ × ℕ × List Char, RowF (1 + f.E + f.M) ws i.1 i.2.1 i.2.2 → i.2.2 = ['1', '0'] ∨
        ∃ s a, decodeBits ⟨f.E, f.M⟩ i.1 = .fin s a ∧ TwosComplement (1 + f.E + f.M) i.2.1 ⌈signed s a⌉) := by
  have hpre' : (if 1 + f.E + f.M = 32 then "to_i32_".toList else "to_i64_".toList) = pre := by
    rw [hpre]; rcases hf with rfl | rfl <;> decide
  simp only [List.mem_cons, List.not_mem_nil, or_false, forall_eq_or_imp, forall_eq] at ht
  obtain ⟨⟨d1, r1⟩, ⟨d2, r2⟩, d3, r3⟩ := ht
  simp only [conversionTest, conversionOps, List.mem_cons, List.not_mem_nil, or_false, forall_eq_or_imp, forall_eq, hpre']
  rw [show lower "Trunc".toList = "trunc".toList by decide, show lower "Floor".toList = "floor".toList by decide,
    show lower "Ceil".toList = "ceil".toList by decide, d1, d2, d3]
  have hw : ∀ ws (i : ℕ × ℕ × List Char), RowF (1 + f.E + f.M) ws i.1 i.2.1 i.2.2 → ∀ w ∈ ws, Word w := fun _ _ h => h.1
  rw [table_iff hw r1 fun ws i h => (C67_conversion_row hf hp h).1, table_iff hw r2 fun ws i h => (C67_conversion_row hf hp h).2.1,
    table_iff hw r3 fun ws i h => (C67_conversion_row hf hp h).2.2]

/-- **C67** `TestF32ConstantAllocation` and `TestF64ConstantAllocation` pass on every table of additions. -/
theorem C67_allocation_test (hf : f = f32 ∨ f = f64) (hp : GoodField p f) {dir : List Char → Option (List Char)} {t : List (List (List Char))}
    (hd : dir "add".toList = some (printTable t)) (ht : ∀ ws ∈ t, ∃ i : ℕ × ℕ × ℕ, Row3 (1 + f.E + f.M) ws i.1 i.2.1 i.2.2) :
    allocationTest p f dir := by
  unfold allocationTest
  rw [hd, table_lines fun ws hws => by obtain ⟨i, hi⟩ := ht ws hws; exact hi.1]
  intro ws hws
  obtain ⟨⟨x, y, z⟩, hw, hx, -, -, wx, wy, wz, rest, rfl, h1, -, -⟩ := ht ws hws
  exact C67_allocation_row hf hp hw h1 hx

/-! ### What is not tested, and what fails -/

omit [Fact p.Prime] in
/-- **C67** (violated) /repo/data/f32 and /repo/data/f64 contain no files `gt` and `ge`: the comparison tests pass or fail whatever `IsGt` and `IsGe` do. -/
theorem C67_greater_untested (f : Fmt) (gt ge : FloatVar p → FloatVar p → Circ p (ZMod p)) {dir : List Char → Option (List Char)} (h1 : dir "gt".toList = none)
    (h2 : dir "ge".toList = none) :
    comparisonTest f [("IsLt".toList, fIsLt f), ("IsLe".toList, fIsLe f), ("IsGt".toList, gt), ("IsGe".toList, ge)] dir ↔
      comparisonTest f (comparisonOps (p := p) f) dir := by
  simp only [comparisonTest, comparisonOps, List.mem_cons, List.not_mem_nil, or_false, forall_eq_or_imp, forall_eq]
  rw [show lower ("IsGt".toList.drop 2) = "gt".toList by decide, show lower ("IsGe".toList.drop 2) = "ge".toList by decide, h1, h2]
  simp [linesOf]

/-- **C67** (violated) Tables of correct results on which the tests fail: any table with an exact cancellation in the top binade. -/
theorem C67_cancellation_fails (hf : f = f32 ∨ f = f64) (hp : GoodField p f) {dir : List Char → Option (List Char)} {text : List Char} {ws : List (List Char)} {x y z : ℕ}
    (h : Row3 (1 + f.E + f.M) ws x y z) (hl : [' '].intercalate ws ∈ scanLines text)
    (hbad : (dir "add".toList = some text ∧ TopCancel f (decodeBits ⟨f.E, f.M⟩ x) (decodeBits ⟨f.E, f.M⟩ y) ∧
        Ieee.Add ⟨f.E, f.M⟩ (decodeBits ⟨f.E, f.M⟩ x) (decodeBits ⟨f.E, f.M⟩ y) (decodeBits ⟨f.E, f.M⟩ z)) ∨
      (dir "sub".toList = some text ∧ TopCancel f (decodeBits ⟨f.E, f.M⟩ x) (decodeBits ⟨f.E, f.M⟩ y).neg ∧
        Ieee.Sub ⟨f.E, f.M⟩ (decodeBits ⟨f.E, f.M⟩ x) (decodeBits ⟨f.E, f.M⟩ y) (decodeBits ⟨f.E, f.M⟩ z))) :
    ¬ binaryTest f (binaryOps (p := p) f) dir := by
  have hadd : ∀ {dx dy dz : Datum}, TopCancel f dx dy → Ieee.Add ⟨f.E, f.M⟩ dx dy dz → dz ≠ .inf false := by
    rintro _ _ dz ⟨s, t, a, rfl, rfl, hst, -⟩ h rfl
    have : signed s a + signed t a = 0 := by cases s <;> cases t <;> simp_all [signed]
    simp only [Ieee.Add, this] at h
    simp at h
  intro ht
  simp only [binaryTest, binaryOps, List.mem_cons, List.not_mem_nil, or_false, forall_eq_or_imp, forall_eq] at ht
  rw [show lower "Add".toList = "add".toList by decide, show lower "Sub".toList = "sub".toList by decide] at ht
  rcases hbad with ⟨hd, hc, hs⟩ | ⟨hd, hc, hs⟩
  · have := ht.1; rw [hd] at this
    rcases (C67_binary_row hf hp h).1.1 (this _ hl) with ⟨h1, -⟩ | ⟨-, h1⟩
    · exact h1 hc
    · exact hadd hc hs h1
  · have := ht.2.1; rw [hd] at this
    rcases (C67_binary_row hf hp h).2.1.1 (this _ hl) with ⟨h1, -⟩ | ⟨-, h1⟩
    · exact h1 hc
    · exact hadd hc (sub_iff_add_neg.1 hs) h1

/-! ### Concrete rows -/

theorem hex_of {w : List Char} {n : ℕ} (h : setString16 w = some (n : ℤ)) (hh : w.head? ≠ some '+' ∧ w.head? ≠ some '-') : Hex w n := by
  obtain ⟨t, m, h1, h2, ⟨rfl | rfl, h4⟩ | ⟨rfl, -⟩⟩ := C63_setString.1 h
  · rw [show n = m by exact_mod_cast h4]; exact ⟨h1, h2⟩
  · exact absurd rfl hh.1
  · exact absurd rfl hh.2

theorem wordCheck {ws : List (List Char)} (h : (ws.all fun w => !w.isEmpty && w.all fun c => !([' ', '\t', '\n', '\x0b', '\x0c', '\r'].contains c)) = true) : ∀ w ∈ ws, Word w := by
  intro w hw
  have := List.all_eq_true.1 h w hw
  simp only [Bool.and_eq_true, Bool.not_eq_true', List.isEmpty_eq_false_iff, List.all_eq_true, List.contains_eq_mem, decide_eq_false_iff_not] at this
  exact this

theorem row3_of {N : ℕ} {wx wy wz wf : List Char} {x y z : ℕ} (hw : ([wx, wy, wz, wf].all fun w => !w.isEmpty && w.all fun c => !([' ', '\t', '\n', '\x0b', '\x0c', '\r'].contains c)) = true)
    (hx : setString16 wx = some (x : ℤ) ∧ wx.head? ≠ some '+' ∧ wx.head? ≠ some '-' ∧ x < 2 ^ N)
    (hy : setString16 wy = some (y : ℤ) ∧ wy.head? ≠ some '+' ∧ wy.head? ≠ some '-' ∧ y < 2 ^ N)
    (hz : setString16 wz = some (z : ℤ) ∧ wz.head? ≠ some '+' ∧ wz.head? ≠ some '-' ∧ z < 2 ^ N) : Row3 N [wx, wy, wz, wf] x y z :=
  ⟨wordCheck hw, hx.2.2.2, hy.2.2.2, hz.2.2.2, wx, wy, wz, [wf], rfl, hex_of hx.1 ⟨hx.2.1, hx.2.2.1⟩, hex_of hy.1 ⟨hy.2.1, hy.2.2.1⟩, hex_of hz.1 ⟨hz.2.1, hz.2.2.1⟩⟩

/-- **C67** (violated) Line 19230 of /repo/data/f32/sub, line 19230 of /repo/data/f64/sub and line 19494 of /repo/data/f64/add are correct by IEEE-754, and make
`TestF32BinaryCircuit` and `TestF64BinaryCircuit` fail, whatever the other lines are. -/
theorem C67_repository_rows_fail (dir : List Char → Option (List Char)) {text : List Char} :
    (dir "sub".toList = some text → "7F000000 7F000000 00000000 00".toList ∈ scanLines text → ¬ binaryTest f32 (binaryOps (p := bn254) f32) dir) ∧
    (dir "sub".toList = some text → "7FE0000000000000 7FE0000000000000 0000000000000000 00".toList ∈ scanLines text →
      ¬ binaryTest f64 (binaryOps (p := bn254) f64) dir) ∧
    (dir "add".toList = some text → "7FE0000000000000 FFE0000000000000 0000000000000000 00".toList ∈ scanLines text →
      ¬ binaryTest f64 (binaryOps (p := bn254) f64) dir) := by
  have a32 : decodeBits ⟨f32.E, f32.M⟩ 0x7F000000 = .fin false (2 ^ 127) := by
    unfold decodeBits; norm_num [Format.bias, f32]; decide
  have z32 : decodeBits ⟨f32.E, f32.M⟩ 0 = .fin false 0 := by unfold decodeBits; norm_num [f32]
  have a64 : decodeBits ⟨f64.E, f64.M⟩ 0x7FE0000000000000 = .fin false (2 ^ 1023) := by
    unfold decodeBits; norm_num [Format.bias, f64]
    exact ⟨by decide, by rw [show (4503599627370496 : ℝ) = 2 ^ 52 by norm_num, ← pow_add]⟩
  have n64 : decodeBits ⟨f64.E, f64.M⟩ 0xFFE0000000000000 = .fin true (2 ^ 1023) := by
    unfold decodeBits; norm_num [Format.bias, f64]
    exact ⟨by decide, by rw [show (4503599627370496 : ℝ) = 2 ^ 52 by norm_num, ← pow_add]⟩
  have z64 : decodeBits ⟨f64.E, f64.M⟩ 0 = .fin false 0 := by unfold decodeBits; norm_num [f64]
  refine ⟨fun hd hl => ?_, fun hd hl => ?_, fun hd hl => ?_⟩
  · refine C67_cancellation_fails (Or.inl rfl) goodField_bn254.1 (x := 0x7F000000) (y := 0x7F000000) (z := 0)
      (ws := ["7F000000".toList, "7F000000".toList, "00000000".toList, "00".toList]) (row3_of (by decide) (by decide) (by decide) (by decide)) hl (Or.inr ⟨hd, ?_⟩)
    rw [a32, z32]
    refine ⟨⟨false, true, 2 ^ 127, rfl, rfl, by decide, le_of_eq (by norm_num [f32])⟩, ?_⟩
    simp [Ieee.Sub]
  · refine C67_cancellation_fails (Or.inr rfl) goodField_bn254.2 (x := 0x7FE0000000000000) (y := 0x7FE0000000000000) (z := 0)
      (ws := ["7FE0000000000000".toList, "7FE0000000000000".toList, "0000000000000000".toList, "00".toList]) (row3_of (by decide) (by decide) (by decide) (by decide)) hl
      (Or.inr ⟨hd, ?_⟩)
    rw [a64, z64]
    refine ⟨⟨false, true, 2 ^ 1023, rfl, rfl, by decide, le_of_eq (by norm_num [f64])⟩, ?_⟩
    simp [Ieee.Sub]
  · refine C67_cancellation_fails (Or.inr rfl) goodField_bn254.2 (x := 0x7FE0000000000000) (y := 0xFFE0000000000000) (z := 0)
      (ws := ["7FE0000000000000".toList, "FFE0000000000000".toList, "0000000000000000".toList, "00".toList]) (row3_of (by decide) (by decide) (by decide) (by decide)) hl
      (Or.inl ⟨hd, ?_⟩)
    rw [a64, n64, z64]
    refine ⟨⟨false, true, 2 ^ 1023, rfl, rfl, by decide, le_of_eq (by norm_num [f64])⟩, ?_⟩
    simp [Ieee.Add, signed]

/-- The first row of /repo/data/f32/to_i32_trunc and the second: `-3.99…` is truncated to `-3`. -/
example : TwosComplement 32 0xFFFFFFFD (-3) := ⟨by norm_num, by norm_num, -1, by norm_num⟩
example : RowF 32 ["C07F3FFF".toList, "FFFFFFFD".toList, "00".toList] 0xC07F3FFF 0xFFFFFFFD "00".toList :=
  ⟨wordCheck (by decide), by norm_num, by norm_num, _, _, [], rfl, hex_of (by decide) (by decide), hex_of (by decide) (by decide)⟩
example : RowB 32 ["8683F7FF".toList, "C07F3FFF".toList, "0".toList, "00".toList] 0x8683F7FF 0xC07F3FFF false :=
  ⟨wordCheck (by decide), by norm_num, by norm_num, _, _, _, rfl, hex_of (by decide) (by decide), hex_of (by decide) (by decide)⟩
example : Row2 32 ["8683F7FF".toList, "FFC00000".toList, "10".toList] 0x8683F7FF 0xFFC00000 :=
  ⟨wordCheck (by decide), by norm_num, by norm_num, _, _, _, rfl, hex_of (by decide) (by decide), hex_of (by decide) (by decide)⟩

/-- A directory with one row per table, and the outcome of the test. -/
example : ¬ unaryTest f32 (unaryOps (p := bn254) f32) fun _ => some (printTable [["3F800000".toList, "40000000".toList, "00".toList]]) := by
  have row : Row2 (1 + f32.E + f32.M) ["3F800000".toList, "40000000".toList, "00".toList] 0x3F800000 0x40000000 :=
    ⟨wordCheck (by decide), by decide, by decide, _, _, _, rfl, hex_of (by decide) (by decide), hex_of (by decide) (by decide)⟩
  rw [C67_unary_test (Or.inl rfl) goodField_bn254.1 (t := fun _ => [["3F800000".toList, "40000000".toList, "00".toList]])
    fun n _ => ⟨rfl, fun ws hws => ⟨(0x3F800000, 0x40000000), by rw [List.mem_singleton.1 hws]; exact row⟩⟩]
  intro h
  have h1 := h.2.1 _ (List.mem_singleton.2 rfl) (0x3F800000, 0x40000000) row
  have one : decodeBits ⟨f32.E, f32.M⟩ 0x3F800000 = .fin false 1 := by unfold decodeBits; norm_num [Format.bias, f32]; decide
  have two : decodeBits ⟨f32.E, f32.M⟩ 0x40000000 = .fin false 2 := by unfold decodeBits; norm_num [Format.bias, f32]; decide
  simp only [one, two, Integral, signed, Ieee.truncZ] at h1
  norm_num at h1

end ZkLoc.Vectors
