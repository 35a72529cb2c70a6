import Verif.R1csTests
import Verif.Props.FloorAny
import Verif.Props.Counts

/-!
# Property C83: the compiled constraint systems

The circuits of /repo/float/float_test.go are compiled to rank-1 constraints and lookups by a model of gnark's builder, with its treatment of constants, its record of expressions that are known to be boolean and the
constraints it emits for each call. The numbers of constraints are the published ones; and the systems have a solution for exactly the inputs that the rest of the model says.
-/

namespace ZkLoc

open Ieee (Datum)

/-! ### The numbers of constraints -/

/-- The first numbers of the columns Init, Add, Sub, Mul, Div, Sqrt, Cmp of /repo/benchmarks/float/constraints.csv, the same in all six rows. -/
def Published.native : List ℕ := [13, 42, 42, 31, 38, 23, 26]

/-- **C83** The published numbers of native constraints are those of the compiled circuit, in every row of the table: `FloatCircuit` over the BN254 scalar field. -/
theorem C83_native_counts : ∀ row ∈ Published.table, ((R1cs.floatCircuit ⟨row.E, row.M⟩ : R1cs.Bld bn254 (List ℕ)) ⟨2, [], [], [], []⟩).map (·.1) = some Published.native := by
  have h32 : ((R1cs.floatCircuit ⟨8, 23⟩ : R1cs.Bld bn254 (List ℕ)) ⟨2, [], [], [], []⟩).map (·.1) = some Published.native := by decide +kernel
  have h64 : ((R1cs.floatCircuit ⟨11, 52⟩ : R1cs.Bld bn254 (List ℕ)) ⟨2, [], [], [], []⟩).map (·.1) = some Published.native := by decide +kernel
  intro row hr
  simp only [Published.table, List.mem_cons, List.not_mem_nil, or_false] at hr
  rcases hr with rfl | rfl | rfl | rfl | rfl | rfl
  · exact h32
  · exact h32
  · exact h32
  · exact h64
  · exact h64
  · exact h64

variable {p b : ℕ} [Fact p.Prime] {f : Fmt}

/-! ### Inputs for which the circuits are satisfiable -/

/-- A pattern of NaN. -/
theorem nan_pattern (G : Good p b f) : ∃ X : ZMod p, IsPattern f X ∧ datumOf f X = .nan := by
  have hM := G.hEM
  have hE := G.hE
  have h1 : 1 < 2 ^ f.M := Nat.one_lt_two_pow (by omega)
  have h2 : 1 < 2 ^ f.E := Nat.one_lt_two_pow (by omega)
  have hlt : (2 ^ f.E - 1) * 2 ^ f.M + 1 < 2 ^ (1 + f.E + f.M) := by
    rw [pow_add, pow_add]
    have : (2 ^ f.E - 1) * 2 ^ f.M + 2 ^ f.M = 2 ^ f.E * 2 ^ f.M := by rw [← Nat.succ_mul]; congr 1; omega
    nlinarith
  have hv : (((2 ^ f.E - 1) * 2 ^ f.M + 1 : ℕ) : ZMod p).val = (2 ^ f.E - 1) * 2 ^ f.M + 1 := ZMod.val_natCast_of_lt (G.lt_of_lt_pow hlt (by omega))
  refine ⟨(((2 ^ f.E - 1) * 2 ^ f.M + 1 : ℕ) : ZMod p), by unfold IsPattern; rw [hv]; exact hlt, ?_⟩
  unfold datumOf
  rw [hv]
  have e1 : ((2 ^ f.E - 1) * 2 ^ f.M + 1) / 2 ^ f.M % 2 ^ f.E = 2 ^ f.E - 1 := by
    rw [Nat.add_comm, Nat.add_mul_div_right _ _ (by omega), Nat.div_eq_of_lt h1, Nat.zero_add, Nat.mod_eq_of_lt (by omega)]
  have e2 : ((2 ^ f.E - 1) * 2 ^ f.M + 1) % 2 ^ f.M = 1 := by rw [Nat.add_comm, Nat.add_mul_mod_self_right, Nat.mod_eq_of_lt h1]
  simp only [Ieee.decodeBits, e1, e2]
  simp

/-- The pattern of zero. -/
theorem zero_pattern (G : Good p b f) : IsPattern f (0 : ZMod p) ∧ datumOf f (0 : ZMod p) = .fin false 0 := by
  have hE := G.hE
  have h2 : 2 ^ 1 < 2 ^ f.E := Nat.pow_lt_pow_right (by norm_num) (by omega)
  refine ⟨by unfold IsPattern; rw [ZMod.val_zero]; positivity, ?_⟩
  unfold datumOf
  rw [ZMod.val_zero]
  simp only [Ieee.decodeBits]
  rw [if_neg (by simp; omega)]
  simp

theorem nan_binary (G : Good p b f) (h64 : 1 + f.E + f.M ≤ 64) {op : FloatVar p → FloatVar p → Circ p (FloatVar p)}
    (h : ∀ {x y : FloatVar p}, Encodes f x .nan → Encodes f y .nan → ∃ r, (op x y).run b = some r ∧ Encodes f r .nan) : ∃ X Y Z, (binaryCircuit f op X Y Z).Sat b true () := by
  obtain ⟨N, hN, hd⟩ := nan_pattern G
  have e := wiresOf_encodes G h64 hN
  rw [hd] at e
  obtain ⟨r, h1, h2⟩ := h e e
  exact ⟨N, N, N, (binary_sat G h64).2 ⟨hN, hN, hN, r, Circ.sat_of_run _ _ h1, ((C28_assertIsEqual G h2 e).2 true).2 rfl⟩⟩

theorem nan_unary (G : Good p b f) (h64 : 1 + f.E + f.M ≤ 64) {op : FloatVar p → Circ p (FloatVar p)}
    (h : ∀ {x : FloatVar p}, Encodes f x .nan → ∃ r, (op x).run b = some r ∧ Encodes f r .nan) : ∃ X Y, (unaryCircuit f op X Y).Sat b true () := by
  obtain ⟨N, hN, hd⟩ := nan_pattern G
  have e := wiresOf_encodes G h64 hN
  rw [hd] at e
  obtain ⟨r, h1, h2⟩ := h e
  exact ⟨N, N, (unary_sat G h64).2 ⟨hN, hN, r, Circ.sat_of_run _ _ h1, ((C28_assertIsEqual G h2 e).2 true).2 rfl⟩⟩

theorem sat_add (G : Good p b f) (h64 : 1 + f.E + f.M ≤ 64) : ∃ X Y Z : ZMod p, (binaryCircuit f (fAdd f) X Y Z).Sat b true () := nan_binary G h64 fun ex ey => by
  obtain ⟨r, h1, h2⟩ := C15_add_complete (b := b) G ex ey
  obtain ⟨d, h3, h4⟩ := h2 fun ⟨_, _, _, h, _⟩ => by cases h
  obtain rfl : d = .nan := h4
  exact ⟨r, h1, h3⟩
theorem sat_sub (G : Good p b f) (h64 : 1 + f.E + f.M ≤ 64) : ∃ X Y Z : ZMod p, (binaryCircuit f (fSub f) X Y Z).Sat b true () := nan_binary G h64 fun ex ey => by
  obtain ⟨r, h1, h2⟩ := C17_sub_complete (b := b) G ex ey
  obtain ⟨d, h3, h4⟩ := h2 fun ⟨_, _, _, h, _⟩ => by cases h
  obtain rfl : d = .nan := h4
  exact ⟨r, h1, h3⟩
theorem sat_mul (G : Good p b f) (h64 : 1 + f.E + f.M ≤ 64) : ∃ X Y Z : ZMod p, (binaryCircuit f (fMul f) X Y Z).Sat b true () := nan_binary G h64 fun ex ey => by
  obtain ⟨r, d, h1, h3, h4⟩ := C18_mul_complete (b := b) G ex ey
  obtain rfl : d = .nan := h4
  exact ⟨r, h1, h3⟩
theorem sat_div (G : Good p b f) (h64 : 1 + f.E + f.M ≤ 64) : ∃ X Y Z : ZMod p, (binaryCircuit f (fDiv f) X Y Z).Sat b true () := nan_binary G h64 fun ex ey => by
  obtain ⟨r, d, h1, h3, h4⟩ := C20_div_complete (b := b) G ex ey
  obtain rfl : d = .nan := h4
  exact ⟨r, h1, h3⟩
theorem sat_sqrt (G : Good p b f) (h64 : 1 + f.E + f.M ≤ 64) : ∃ X Y : ZMod p, (unaryCircuit f (fSqrt f) X Y).Sat b true () := nan_unary G h64 fun ex => by
  obtain ⟨r, d, h1, h3, h4⟩ := C22_sqrt_complete (b := b) G ex
  obtain rfl : d = .nan := h4
  exact ⟨r, h1, h3⟩
theorem sat_trunc (G : Good p b f) (h64 : 1 + f.E + f.M ≤ 64) : ∃ X Y : ZMod p, (unaryCircuit f (fTrunc f) X Y).Sat b true () := nan_unary G h64 fun ex => by
  obtain ⟨r, d, h1, h3, h4⟩ := C26_trunc_complete (b := b) G ex
  obtain rfl : d = .nan := h4
  exact ⟨r, h1, h3⟩
theorem sat_floor (G : Good p b f) (h64 : 1 + f.E + f.M ≤ 64) : ∃ X Y : ZMod p, (unaryCircuit f (fFloor f) X Y).Sat b true () := nan_unary G h64 fun ex => by
  obtain ⟨r, d, h1, h3, h4⟩ := C26_floor_complete (b := b) G ex
  obtain rfl : d = .nan := h4
  exact ⟨r, h1, h3⟩
theorem sat_ceil (G : Good p b f) (h64 : 1 + f.E + f.M ≤ 64) : ∃ X Y : ZMod p, (unaryCircuit f (fCeil f) X Y).Sat b true () := nan_unary G h64 fun ex => by
  obtain ⟨r, d, h1, h3, h4⟩ := C26_ceil_complete (b := b) G ex
  obtain rfl : d = .nan := h4
  exact ⟨r, h1, h3⟩

/-! ### The compiled systems have the meaning of the calls -/

/-- **C83** `F32BinaryCircuit` and `F64BinaryCircuit` with each of the four operations, at every width of the range table: the circuit compiles, and the system has a solution for inputs `X`, `Y`, `Z` exactly if the
circuit, read with the documented meaning of gnark's calls, is satisfiable. -/
theorem C83_binary (G : Good p b f) (h64 : 1 + f.E + f.M ≤ 64) :
    (∃ s, R1cs.compile b 3 (R1cs.binaryCircuit f (R1cs.fAdd f) (.wire 0) (.wire 1) (.wire 2)) = some s ∧
      ∀ X Y Z : ZMod p, s.Accepts b [X, Y, Z] ↔ (binaryCircuit f (fAdd f) X Y Z).Sat b true ()) ∧
    (∃ s, R1cs.compile b 3 (R1cs.binaryCircuit f (R1cs.fSub f) (.wire 0) (.wire 1) (.wire 2)) = some s ∧
      ∀ X Y Z : ZMod p, s.Accepts b [X, Y, Z] ↔ (binaryCircuit f (fSub f) X Y Z).Sat b true ()) ∧
    (∃ s, R1cs.compile b 3 (R1cs.binaryCircuit f (R1cs.fMul f) (.wire 0) (.wire 1) (.wire 2)) = some s ∧
      ∀ X Y Z : ZMod p, s.Accepts b [X, Y, Z] ↔ (binaryCircuit f (fMul f) X Y Z).Sat b true ()) ∧
    (∃ s, R1cs.compile b 3 (R1cs.binaryCircuit f (R1cs.fDiv f) (.wire 0) (.wire 1) (.wire 2)) = some s ∧
      ∀ X Y Z : ZMod p, s.Accepts b [X, Y, Z] ↔ (binaryCircuit f (fDiv f) X Y Z).Sat b true ()) := by
  refine ⟨R1cs.accepts3 (fun X Y Z => ?_) (sat_add G h64), R1cs.accepts3 (fun X Y Z => ?_) (sat_sub G h64), R1cs.accepts3 (fun X Y Z => ?_) (sat_mul G h64), R1cs.accepts3 (fun X Y Z => ?_) (sat_div G h64)⟩
  · rw [← R1cs.eq_binaryCircuit f (R1cs.eq_fAdd f)]; exact R1cs.ref_binaryCircuit R1cs.binary_fAdd X Y Z
  · rw [← R1cs.eq_binaryCircuit f (R1cs.eq_fSub f)]; exact R1cs.ref_binaryCircuit R1cs.binary_fSub X Y Z
  · rw [← R1cs.eq_binaryCircuit f (R1cs.eq_fMul f)]; exact R1cs.ref_binaryCircuit R1cs.binary_fMul X Y Z
  · rw [← R1cs.eq_binaryCircuit f (R1cs.eq_fDiv f)]; exact R1cs.ref_binaryCircuit R1cs.binary_fDiv X Y Z

/-- **C83** The unary circuits. -/
theorem C83_unary (G : Good p b f) (h64 : 1 + f.E + f.M ≤ 64) :
    (∃ s, R1cs.compile b 2 (R1cs.unaryCircuit f (R1cs.fSqrt f) (.wire 0) (.wire 1)) = some s ∧
      ∀ X Y : ZMod p, s.Accepts b [X, Y] ↔ (unaryCircuit f (fSqrt f) X Y).Sat b true ()) ∧
    (∃ s, R1cs.compile b 2 (R1cs.unaryCircuit f (R1cs.fTrunc f) (.wire 0) (.wire 1)) = some s ∧
      ∀ X Y : ZMod p, s.Accepts b [X, Y] ↔ (unaryCircuit f (fTrunc f) X Y).Sat b true ()) ∧
    (∃ s, R1cs.compile b 2 (R1cs.unaryCircuit f (R1cs.fFloor f) (.wire 0) (.wire 1)) = some s ∧
      ∀ X Y : ZMod p, s.Accepts b [X, Y] ↔ (unaryCircuit f (fFloor f) X Y).Sat b true ()) ∧
    (∃ s, R1cs.compile b 2 (R1cs.unaryCircuit f (R1cs.fCeil f) (.wire 0) (.wire 1)) = some s ∧
      ∀ X Y : ZMod p, s.Accepts b [X, Y] ↔ (unaryCircuit f (fCeil f) X Y).Sat b true ()) := by
  refine ⟨R1cs.accepts2 (fun X Y => ?_) (sat_sqrt G h64), R1cs.accepts2 (fun X Y => ?_) (sat_trunc G h64), R1cs.accepts2 (fun X Y => ?_) (sat_floor G h64), R1cs.accepts2 (fun X Y => ?_) (sat_ceil G h64)⟩
  · rw [← R1cs.eq_unaryCircuit f (R1cs.eq_fSqrt f)]; exact R1cs.ref_unaryCircuit R1cs.unary_fSqrt X Y
  · rw [← R1cs.eq_unaryCircuit f (R1cs.eq_fTrunc f)]; exact R1cs.ref_unaryCircuit R1cs.unary_fTrunc X Y
  · rw [← R1cs.eq_unaryCircuit f (R1cs.eq_fFloor f)]; exact R1cs.ref_unaryCircuit R1cs.unary_fFloor X Y
  · rw [← R1cs.eq_unaryCircuit f (R1cs.eq_fCeil f)]; exact R1cs.ref_unaryCircuit R1cs.unary_fCeil X Y

/-- **C83** The comparison circuits. -/
theorem C83_comparison (G : Good p b f) (h64 : 1 + f.E + f.M ≤ 64) :
    (∃ s, R1cs.compile b 3 (R1cs.comparisonCircuit f (R1cs.fIsLt f) (.wire 0) (.wire 1) (.wire 2)) = some s ∧
      ∀ X Y Z : ZMod p, s.Accepts b [X, Y, Z] ↔ (comparisonCircuit f (fIsLt f) X Y Z).Sat b true ()) ∧
    (∃ s, R1cs.compile b 3 (R1cs.comparisonCircuit f (R1cs.fIsLe f) (.wire 0) (.wire 1) (.wire 2)) = some s ∧
      ∀ X Y Z : ZMod p, s.Accepts b [X, Y, Z] ↔ (comparisonCircuit f (fIsLe f) X Y Z).Sat b true ()) ∧
    (∃ s, R1cs.compile b 3 (R1cs.comparisonCircuit f (R1cs.fIsGt f) (.wire 0) (.wire 1) (.wire 2)) = some s ∧
      ∀ X Y Z : ZMod p, s.Accepts b [X, Y, Z] ↔ (comparisonCircuit f (fIsGt f) X Y Z).Sat b true ()) ∧
    (∃ s, R1cs.compile b 3 (R1cs.comparisonCircuit f (R1cs.fIsGe f) (.wire 0) (.wire 1) (.wire 2)) = some s ∧
      ∀ X Y Z : ZMod p, s.Accepts b [X, Y, Z] ↔ (comparisonCircuit f (fIsGe f) X Y Z).Sat b true ()) := by
  obtain ⟨N, hN, hd⟩ := nan_pattern G
  refine ⟨R1cs.accepts3 (fun X Y Z => ?_) ⟨N, N, _, (C41_comparison G h64 N N _ true).1.2 ⟨hN, hN, rfl⟩⟩, R1cs.accepts3 (fun X Y Z => ?_) ⟨N, N, _, (C41_comparison G h64 N N _ true).2.1.2 ⟨hN, hN, rfl⟩⟩,
    R1cs.accepts3 (fun X Y Z => ?_) ⟨N, N, _, (C41_comparison G h64 N N _ true).2.2.1.2 ⟨hN, hN, rfl⟩⟩, R1cs.accepts3 (fun X Y Z => ?_) ⟨N, N, _, (C41_comparison G h64 N N _ true).2.2.2.2 ⟨hN, hN, rfl⟩⟩⟩
  · rw [← R1cs.eq_comparisonCircuit f (R1cs.eq_fIsLt f)]; exact R1cs.ref_comparisonCircuit R1cs.binary_fIsLt X Y Z
  · rw [← R1cs.eq_comparisonCircuit f (R1cs.eq_fIsLe f)]; exact R1cs.ref_comparisonCircuit R1cs.binary_fIsLe X Y Z
  · rw [← R1cs.eq_comparisonCircuit f (R1cs.eq_fIsGt f)]; exact R1cs.ref_comparisonCircuit R1cs.binary_fIsGt X Y Z
  · rw [← R1cs.eq_comparisonCircuit f (R1cs.eq_fIsGe f)]; exact R1cs.ref_comparisonCircuit R1cs.binary_fIsGe X Y Z

/-- **C83** The allocation circuits. -/
theorem C83_allocation (G : Good p b f) (h64 : 1 + f.E + f.M ≤ 64) {y : ℕ} (hy : y < 2 ^ (1 + f.E + f.M)) :
    ∃ s, R1cs.compile b 1 (R1cs.allocationCircuit f y (.wire 0)) = some s ∧ ∀ X : ZMod p, s.Accepts b [X] ↔ (allocationCircuit f X y).Sat b true () := by
  have hv : ((y : ℕ) : ZMod p).val = y := ZMod.val_natCast_of_lt (G.lt_of_lt_pow hy (by have := G.hEM; omega))
  refine R1cs.accepts1 (fun X => ?_) ⟨(y : ZMod p), (C41_allocation G h64 _ hy true).2 ⟨by unfold IsPattern; rw [hv]; exact hy, by unfold datumOf; rw [hv]⟩⟩
  rw [← R1cs.eq_allocationCircuit]; exact R1cs.ref_allocationCircuit y X

theorem sat_conversion (G : Good p b f) (h64 : 1 + f.E + f.M ≤ 64) {op : FloatVar p → Circ p (FloatVar p)}
    (h : ∀ {x : FloatVar p}, Encodes f x (.fin false 0) → ∃ r t, (op x).run b = some r ∧ Encodes f r (.fin t 0)) : ∃ X Y, (conversionCircuit f op X Y).Sat b true () := by
  obtain ⟨h0, hd⟩ := zero_pattern (b := b) (f := f) (p := p) G
  have e := wiresOf_encodes G h64 h0
  rw [hd] at e
  obtain ⟨r, t, h1, h2⟩ := h e
  obtain ⟨y, h3, -⟩ := C27_toInt_complete (b := b) G h2 (Or.inl rfl)
  refine ⟨0, y, ?_⟩
  unfold conversionCircuit
  simp only [Circ.bind_eq, Circ.sat_bind, newFloat_sat_iff G h64]
  exact ⟨_, ⟨h0, rfl⟩, r, Circ.sat_of_run _ _ h1, y, Circ.sat_of_run _ _ h3, by simp [assertIsEqual, Circ.Sat]⟩

/-- **C83** The circuits that convert to an integer. -/
theorem C83_conversion (G : Good p b f) (h64 : 1 + f.E + f.M ≤ 64) :
    (∃ s, R1cs.compile b 2 (R1cs.conversionCircuit f (R1cs.fTrunc f) (.wire 0) (.wire 1)) = some s ∧
      ∀ X Y : ZMod p, s.Accepts b [X, Y] ↔ (conversionCircuit f (fTrunc f) X Y).Sat b true ()) ∧
    (∃ s, R1cs.compile b 2 (R1cs.conversionCircuit f (R1cs.fFloor f) (.wire 0) (.wire 1)) = some s ∧
      ∀ X Y : ZMod p, s.Accepts b [X, Y] ↔ (conversionCircuit f (fFloor f) X Y).Sat b true ()) ∧
    (∃ s, R1cs.compile b 2 (R1cs.conversionCircuit f (R1cs.fCeil f) (.wire 0) (.wire 1)) = some s ∧
      ∀ X Y : ZMod p, s.Accepts b [X, Y] ↔ (conversionCircuit f (fCeil f) X Y).Sat b true ()) := by
  refine ⟨R1cs.accepts2 (fun X Y => ?_) (sat_conversion G h64 fun ex => ?_), R1cs.accepts2 (fun X Y => ?_) (sat_conversion G h64 fun ex => ?_),
    R1cs.accepts2 (fun X Y => ?_) (sat_conversion G h64 fun ex => ?_)⟩
  · rw [← R1cs.eq_conversionCircuit f (R1cs.eq_fTrunc f)]; exact R1cs.ref_conversionCircuit R1cs.unary_fTrunc X Y
  · obtain ⟨r, d, h1, h2, h3⟩ := C26_trunc_complete (b := b) G ex
    simp [Ieee.Integral, Ieee.signed, Ieee.truncZ] at h3
    exact ⟨r, _, h1, h3 ▸ h2⟩
  · rw [← R1cs.eq_conversionCircuit f (R1cs.eq_fFloor f)]; exact R1cs.ref_conversionCircuit R1cs.unary_fFloor X Y
  · obtain ⟨r, d, h1, h2, h3⟩ := C26_floor_complete (b := b) G ex
    simp [Ieee.Integral, Ieee.signed, Ieee.truncZ] at h3
    exact ⟨r, _, h1, h3 ▸ h2⟩
  · rw [← R1cs.eq_conversionCircuit f (R1cs.eq_fCeil f)]; exact R1cs.ref_conversionCircuit R1cs.unary_fCeil X Y
  · obtain ⟨r, d, h1, h2, h3⟩ := C26_ceil_complete (b := b) G ex
    simp [Ieee.Integral, Ieee.signed, Ieee.truncZ] at h3
    exact ⟨r, _, h1, h3 ▸ h2⟩

/-! ### At the width that the compiler selects -/

theorem auto_some {m : R1cs.Bld p Unit} {be : Backend} {n w : ℕ} (h1 : R1cs.widthOf be 0 n m = some w) {P : R1cs.System p → Prop} (h2 : ∃ s, R1cs.compile w n m = some s ∧ P s) :
    ∃ s, R1cs.compileAuto be 0 n m = some (w, s) ∧ P s := by
  obtain ⟨s, h, hP⟩ := h2
  exact ⟨s, by simp [R1cs.compileAuto, h1, h], hP⟩

/-- **C83** The binary circuits of both formats over BN254, with the table width that the compiler selects (`size = 0`), under every back-end: the compiled system accepts exactly the inputs that `Accepts`, on which the theorems on the circuits (C41) are stated, allows. -/
theorem C83_binary_auto (f : Fmt) (hf : f = f32 ∨ f = f64) (be : Backend) :
    (∃ w s, R1cs.compileAuto be 0 3 (R1cs.binaryCircuit f (R1cs.fAdd f) (.wire 0) (.wire 1) (.wire 2)) = some (w, s) ∧
      ∀ X Y Z : ZMod bn254, s.Accepts w [X, Y, Z] ↔ Accepts be true 0 f.pow2Size (binaryCircuit f (fAdd f) X Y Z) ()) ∧
    (∃ w s, R1cs.compileAuto be 0 3 (R1cs.binaryCircuit f (R1cs.fSub f) (.wire 0) (.wire 1) (.wire 2)) = some (w, s) ∧
      ∀ X Y Z : ZMod bn254, s.Accepts w [X, Y, Z] ↔ Accepts be true 0 f.pow2Size (binaryCircuit f (fSub f) X Y Z) ()) ∧
    (∃ w s, R1cs.compileAuto be 0 3 (R1cs.binaryCircuit f (R1cs.fMul f) (.wire 0) (.wire 1) (.wire 2)) = some (w, s) ∧
      ∀ X Y Z : ZMod bn254, s.Accepts w [X, Y, Z] ↔ Accepts be true 0 f.pow2Size (binaryCircuit f (fMul f) X Y Z) ()) ∧
    (∃ w s, R1cs.compileAuto be 0 3 (R1cs.binaryCircuit f (R1cs.fDiv f) (.wire 0) (.wire 1) (.wire 2)) = some (w, s) ∧
      ∀ X Y Z : ZMod bn254, s.Accepts w [X, Y, Z] ↔ Accepts be true 0 f.pow2Size (binaryCircuit f (fDiv f) X Y Z) ()) := by
  have h64 : 1 + f.E + f.M ≤ 64 := by rcases hf with rfl | rfl <;> decide
  have G : ∀ w, 3 ≤ w ∧ w ≤ 6 → Good bn254 w f := by
    rintro w ⟨h1, h2⟩
    rcases hf with rfl | rfl
    · exact goodField_bn254.1 w ⟨by omega, by omega⟩
    · exact goodField_bn254.2 w ⟨by omega, by omega⟩
  refine ⟨?_, ?_, ?_, ?_⟩
  · have hw : ∃ w, (3 ≤ w ∧ w ≤ 6) ∧ R1cs.widthOf be 0 3 (R1cs.binaryCircuit f (R1cs.fAdd f) (.wire 0) (.wire 1) (.wire 2) : R1cs.Bld bn254 Unit) = some w ∧ baseLength be 0 ((newFloatShape f ++ newFloatShape f ++ newFloatShape f ++ addShape f).map Prod.fst) = w := by
      refine ⟨_, ?_, ?_, rfl⟩ <;> rcases hf with rfl | rfl <;> cases be <;> decide +kernel
    obtain ⟨w, hw, h1, h2⟩ := hw
    obtain ⟨s, h3, h4⟩ := auto_some h1 (C83_binary (G w hw) h64).1
    refine ⟨w, s, h3, fun X Y Z => ?_⟩
    rw [accepts_iff (shape_binary shape_add X Y Z), h2]
    exact h4 X Y Z
  · have hw : ∃ w, (3 ≤ w ∧ w ≤ 6) ∧ R1cs.widthOf be 0 3 (R1cs.binaryCircuit f (R1cs.fSub f) (.wire 0) (.wire 1) (.wire 2) : R1cs.Bld bn254 Unit) = some w ∧ baseLength be 0 ((newFloatShape f ++ newFloatShape f ++ newFloatShape f ++ addShape f).map Prod.fst) = w := by
      refine ⟨_, ?_, ?_, rfl⟩ <;> rcases hf with rfl | rfl <;> cases be <;> decide +kernel
    obtain ⟨w, hw, h1, h2⟩ := hw
    obtain ⟨s, h3, h4⟩ := auto_some h1 (C83_binary (G w hw) h64).2.1
    refine ⟨w, s, h3, fun X Y Z => ?_⟩
    rw [accepts_iff (shape_binary shape_sub X Y Z), h2]
    exact h4 X Y Z
  · have hw : ∃ w, (3 ≤ w ∧ w ≤ 6) ∧ R1cs.widthOf be 0 3 (R1cs.binaryCircuit f (R1cs.fMul f) (.wire 0) (.wire 1) (.wire 2) : R1cs.Bld bn254 Unit) = some w ∧ baseLength be 0 ((newFloatShape f ++ newFloatShape f ++ newFloatShape f ++ mulShape f).map Prod.fst) = w := by
      refine ⟨_, ?_, ?_, rfl⟩ <;> rcases hf with rfl | rfl <;> cases be <;> decide +kernel
    obtain ⟨w, hw, h1, h2⟩ := hw
    obtain ⟨s, h3, h4⟩ := auto_some h1 (C83_binary (G w hw) h64).2.2.1
    refine ⟨w, s, h3, fun X Y Z => ?_⟩
    rw [accepts_iff (shape_binary shape_mul X Y Z), h2]
    exact h4 X Y Z
  · have hw : ∃ w, (3 ≤ w ∧ w ≤ 6) ∧ R1cs.widthOf be 0 3 (R1cs.binaryCircuit f (R1cs.fDiv f) (.wire 0) (.wire 1) (.wire 2) : R1cs.Bld bn254 Unit) = some w ∧ baseLength be 0 ((newFloatShape f ++ newFloatShape f ++ newFloatShape f ++ divShape f).map Prod.fst) = w := by
      refine ⟨_, ?_, ?_, rfl⟩ <;> rcases hf with rfl | rfl <;> cases be <;> decide +kernel
    obtain ⟨w, hw, h1, h2⟩ := hw
    obtain ⟨s, h3, h4⟩ := auto_some h1 (C83_binary (G w hw) h64).2.2.2
    refine ⟨w, s, h3, fun X Y Z => ?_⟩
    rw [accepts_iff (shape_binary shape_div X Y Z), h2]
    exact h4 X Y Z

/-- **C83** The unary circuits likewise. -/
theorem C83_unary_auto (f : Fmt) (hf : f = f32 ∨ f = f64) (be : Backend) :
    (∃ w s, R1cs.compileAuto be 0 2 (R1cs.unaryCircuit f (R1cs.fSqrt f) (.wire 0) (.wire 1)) = some (w, s) ∧
      ∀ X Y : ZMod bn254, s.Accepts w [X, Y] ↔ Accepts be true 0 f.pow2Size (unaryCircuit f (fSqrt f) X Y) ()) ∧
    (∃ w s, R1cs.compileAuto be 0 2 (R1cs.unaryCircuit f (R1cs.fTrunc f) (.wire 0) (.wire 1)) = some (w, s) ∧
      ∀ X Y : ZMod bn254, s.Accepts w [X, Y] ↔ Accepts be true 0 f.pow2Size (unaryCircuit f (fTrunc f) X Y) ()) ∧
    (∃ w s, R1cs.compileAuto be 0 2 (R1cs.unaryCircuit f (R1cs.fFloor f) (.wire 0) (.wire 1)) = some (w, s) ∧
      ∀ X Y : ZMod bn254, s.Accepts w [X, Y] ↔ Accepts be true 0 f.pow2Size (unaryCircuit f (fFloor f) X Y) ()) ∧
    (∃ w s, R1cs.compileAuto be 0 2 (R1cs.unaryCircuit f (R1cs.fCeil f) (.wire 0) (.wire 1)) = some (w, s) ∧
      ∀ X Y : ZMod bn254, s.Accepts w [X, Y] ↔ Accepts be true 0 f.pow2Size (unaryCircuit f (fCeil f) X Y) ()) := by
  have h64 : 1 + f.E + f.M ≤ 64 := by rcases hf with rfl | rfl <;> decide
  have G : ∀ w, 3 ≤ w ∧ w ≤ 6 → Good bn254 w f := by
    rintro w ⟨h1, h2⟩
    rcases hf with rfl | rfl
    · exact goodField_bn254.1 w ⟨by omega, by omega⟩
    · exact goodField_bn254.2 w ⟨by omega, by omega⟩
  refine ⟨?_, ?_, ?_, ?_⟩
  · have hw : ∃ w, (3 ≤ w ∧ w ≤ 6) ∧ R1cs.widthOf be 0 2 (R1cs.unaryCircuit f (R1cs.fSqrt f) (.wire 0) (.wire 1) : R1cs.Bld bn254 Unit) = some w ∧ baseLength be 0 ((newFloatShape f ++ newFloatShape f ++ sqrtShape f).map Prod.fst) = w := by
      refine ⟨_, ?_, ?_, rfl⟩ <;> rcases hf with rfl | rfl <;> cases be <;> decide +kernel
    obtain ⟨w, hw, h1, h2⟩ := hw
    obtain ⟨s, h3, h4⟩ := auto_some h1 (C83_unary (G w hw) h64).1
    refine ⟨w, s, h3, fun X Y => ?_⟩
    rw [accepts_iff (shape_unary shape_sqrt X Y), h2]
    exact h4 X Y
  · have hw : ∃ w, (3 ≤ w ∧ w ≤ 6) ∧ R1cs.widthOf be 0 2 (R1cs.unaryCircuit f (R1cs.fTrunc f) (.wire 0) (.wire 1) : R1cs.Bld bn254 Unit) = some w ∧ baseLength be 0 ((newFloatShape f ++ newFloatShape f ++ truncShape f).map Prod.fst) = w := by
      refine ⟨_, ?_, ?_, rfl⟩ <;> rcases hf with rfl | rfl <;> cases be <;> decide +kernel
    obtain ⟨w, hw, h1, h2⟩ := hw
    obtain ⟨s, h3, h4⟩ := auto_some h1 (C83_unary (G w hw) h64).2.1
    refine ⟨w, s, h3, fun X Y => ?_⟩
    rw [accepts_iff (shape_unary shape_trunc X Y), h2]
    exact h4 X Y
  · have hw : ∃ w, (3 ≤ w ∧ w ≤ 6) ∧ R1cs.widthOf be 0 2 (R1cs.unaryCircuit f (R1cs.fFloor f) (.wire 0) (.wire 1) : R1cs.Bld bn254 Unit) = some w ∧ baseLength be 0 ((newFloatShape f ++ newFloatShape f ++ truncShape f).map Prod.fst) = w := by
      refine ⟨_, ?_, ?_, rfl⟩ <;> rcases hf with rfl | rfl <;> cases be <;> decide +kernel
    obtain ⟨w, hw, h1, h2⟩ := hw
    obtain ⟨s, h3, h4⟩ := auto_some h1 (C83_unary (G w hw) h64).2.2.1
    refine ⟨w, s, h3, fun X Y => ?_⟩
    rw [accepts_iff (shape_unary shape_floor X Y), h2]
    exact h4 X Y
  · have hw : ∃ w, (3 ≤ w ∧ w ≤ 6) ∧ R1cs.widthOf be 0 2 (R1cs.unaryCircuit f (R1cs.fCeil f) (.wire 0) (.wire 1) : R1cs.Bld bn254 Unit) = some w ∧ baseLength be 0 ((newFloatShape f ++ newFloatShape f ++ truncShape f).map Prod.fst) = w := by
      refine ⟨_, ?_, ?_, rfl⟩ <;> rcases hf with rfl | rfl <;> cases be <;> decide +kernel
    obtain ⟨w, hw, h1, h2⟩ := hw
    obtain ⟨s, h3, h4⟩ := auto_some h1 (C83_unary (G w hw) h64).2.2.2
    refine ⟨w, s, h3, fun X Y => ?_⟩
    rw [accepts_iff (shape_unary shape_ceil X Y), h2]
    exact h4 X Y

/-- **C83** The comparison circuits likewise. -/
theorem C83_comparison_auto (f : Fmt) (hf : f = f32 ∨ f = f64) (be : Backend) :
    (∃ w s, R1cs.compileAuto be 0 3 (R1cs.comparisonCircuit f (R1cs.fIsLt f) (.wire 0) (.wire 1) (.wire 2)) = some (w, s) ∧
      ∀ X Y Z : ZMod bn254, s.Accepts w [X, Y, Z] ↔ Accepts be true 0 f.pow2Size (comparisonCircuit f (fIsLt f) X Y Z) ()) ∧
    (∃ w s, R1cs.compileAuto be 0 3 (R1cs.comparisonCircuit f (R1cs.fIsLe f) (.wire 0) (.wire 1) (.wire 2)) = some (w, s) ∧
      ∀ X Y Z : ZMod bn254, s.Accepts w [X, Y, Z] ↔ Accepts be true 0 f.pow2Size (comparisonCircuit f (fIsLe f) X Y Z) ()) ∧
    (∃ w s, R1cs.compileAuto be 0 3 (R1cs.comparisonCircuit f (R1cs.fIsGt f) (.wire 0) (.wire 1) (.wire 2)) = some (w, s) ∧
      ∀ X Y Z : ZMod bn254, s.Accepts w [X, Y, Z] ↔ Accepts be true 0 f.pow2Size (comparisonCircuit f (fIsGt f) X Y Z) ()) ∧
    (∃ w s, R1cs.compileAuto be 0 3 (R1cs.comparisonCircuit f (R1cs.fIsGe f) (.wire 0) (.wire 1) (.wire 2)) = some (w, s) ∧
      ∀ X Y Z : ZMod bn254, s.Accepts w [X, Y, Z] ↔ Accepts be true 0 f.pow2Size (comparisonCircuit f (fIsGe f) X Y Z) ()) := by
  have h64 : 1 + f.E + f.M ≤ 64 := by rcases hf with rfl | rfl <;> decide
  have G : ∀ w, 3 ≤ w ∧ w ≤ 6 → Good bn254 w f := by
    rintro w ⟨h1, h2⟩
    rcases hf with rfl | rfl
    · exact goodField_bn254.1 w ⟨by omega, by omega⟩
    · exact goodField_bn254.2 w ⟨by omega, by omega⟩
  refine ⟨?_, ?_, ?_, ?_⟩
  · have hw : ∃ w, (3 ≤ w ∧ w ≤ 6) ∧ R1cs.widthOf be 0 3 (R1cs.comparisonCircuit f (R1cs.fIsLt f) (.wire 0) (.wire 1) (.wire 2) : R1cs.Bld bn254 Unit) = some w ∧ baseLength be 0 ((newFloatShape f ++ newFloatShape f ++ lessShape f).map Prod.fst) = w := by
      refine ⟨_, ?_, ?_, rfl⟩ <;> rcases hf with rfl | rfl <;> cases be <;> decide +kernel
    obtain ⟨w, hw, h1, h2⟩ := hw
    obtain ⟨s, h3, h4⟩ := auto_some h1 (C83_comparison (G w hw) h64).1
    refine ⟨w, s, h3, fun X Y Z => ?_⟩
    rw [accepts_iff (shape_comparison (op := fIsLt f) (fun x y => shape_less _ _ _) X Y Z), h2]
    exact h4 X Y Z
  · have hw : ∃ w, (3 ≤ w ∧ w ≤ 6) ∧ R1cs.widthOf be 0 3 (R1cs.comparisonCircuit f (R1cs.fIsLe f) (.wire 0) (.wire 1) (.wire 2) : R1cs.Bld bn254 Unit) = some w ∧ baseLength be 0 ((newFloatShape f ++ newFloatShape f ++ lessShape f).map Prod.fst) = w := by
      refine ⟨_, ?_, ?_, rfl⟩ <;> rcases hf with rfl | rfl <;> cases be <;> decide +kernel
    obtain ⟨w, hw, h1, h2⟩ := hw
    obtain ⟨s, h3, h4⟩ := auto_some h1 (C83_comparison (G w hw) h64).2.1
    refine ⟨w, s, h3, fun X Y Z => ?_⟩
    rw [accepts_iff (shape_comparison (op := fIsLe f) (fun x y => shape_less _ _ _) X Y Z), h2]
    exact h4 X Y Z
  · have hw : ∃ w, (3 ≤ w ∧ w ≤ 6) ∧ R1cs.widthOf be 0 3 (R1cs.comparisonCircuit f (R1cs.fIsGt f) (.wire 0) (.wire 1) (.wire 2) : R1cs.Bld bn254 Unit) = some w ∧ baseLength be 0 ((newFloatShape f ++ newFloatShape f ++ lessShape f).map Prod.fst) = w := by
      refine ⟨_, ?_, ?_, rfl⟩ <;> rcases hf with rfl | rfl <;> cases be <;> decide +kernel
    obtain ⟨w, hw, h1, h2⟩ := hw
    obtain ⟨s, h3, h4⟩ := auto_some h1 (C83_comparison (G w hw) h64).2.2.1
    refine ⟨w, s, h3, fun X Y Z => ?_⟩
    rw [accepts_iff (shape_comparison (op := fIsGt f) (fun x y => shape_less _ _ _) X Y Z), h2]
    exact h4 X Y Z
  · have hw : ∃ w, (3 ≤ w ∧ w ≤ 6) ∧ R1cs.widthOf be 0 3 (R1cs.comparisonCircuit f (R1cs.fIsGe f) (.wire 0) (.wire 1) (.wire 2) : R1cs.Bld bn254 Unit) = some w ∧ baseLength be 0 ((newFloatShape f ++ newFloatShape f ++ lessShape f).map Prod.fst) = w := by
      refine ⟨_, ?_, ?_, rfl⟩ <;> rcases hf with rfl | rfl <;> cases be <;> decide +kernel
    obtain ⟨w, hw, h1, h2⟩ := hw
    obtain ⟨s, h3, h4⟩ := auto_some h1 (C83_comparison (G w hw) h64).2.2.2
    refine ⟨w, s, h3, fun X Y Z => ?_⟩
    rw [accepts_iff (shape_comparison (op := fIsGe f) (fun x y => shape_less _ _ _) X Y Z), h2]
    exact h4 X Y Z

/-- **C83** The conversion circuits likewise. -/
theorem C83_conversion_auto (f : Fmt) (hf : f = f32 ∨ f = f64) (be : Backend) :
    (∃ w s, R1cs.compileAuto be 0 2 (R1cs.conversionCircuit f (R1cs.fTrunc f) (.wire 0) (.wire 1)) = some (w, s) ∧
      ∀ X Y : ZMod bn254, s.Accepts w [X, Y] ↔ Accepts be true 0 f.pow2Size (conversionCircuit f (fTrunc f) X Y) ()) ∧
    (∃ w s, R1cs.compileAuto be 0 2 (R1cs.conversionCircuit f (R1cs.fFloor f) (.wire 0) (.wire 1)) = some (w, s) ∧
      ∀ X Y : ZMod bn254, s.Accepts w [X, Y] ↔ Accepts be true 0 f.pow2Size (conversionCircuit f (fFloor f) X Y) ()) ∧
    (∃ w s, R1cs.compileAuto be 0 2 (R1cs.conversionCircuit f (R1cs.fCeil f) (.wire 0) (.wire 1)) = some (w, s) ∧
      ∀ X Y : ZMod bn254, s.Accepts w [X, Y] ↔ Accepts be true 0 f.pow2Size (conversionCircuit f (fCeil f) X Y) ()) := by
  have h64 : 1 + f.E + f.M ≤ 64 := by rcases hf with rfl | rfl <;> decide
  have G : ∀ w, 3 ≤ w ∧ w ≤ 6 → Good bn254 w f := by
    rintro w ⟨h1, h2⟩
    rcases hf with rfl | rfl
    · exact goodField_bn254.1 w ⟨by omega, by omega⟩
    · exact goodField_bn254.2 w ⟨by omega, by omega⟩
  refine ⟨?_, ?_, ?_⟩
  · have hw : ∃ w, (3 ≤ w ∧ w ≤ 6) ∧ R1cs.widthOf be 0 2 (R1cs.conversionCircuit f (R1cs.fTrunc f) (.wire 0) (.wire 1) : R1cs.Bld bn254 Unit) = some w ∧ baseLength be 0 ((newFloatShape f ++ truncShape f ++ [(f.pow2Size, Mode.loose)]).map Prod.fst) = w := by
      refine ⟨_, ?_, ?_, rfl⟩ <;> rcases hf with rfl | rfl <;> cases be <;> decide +kernel
    obtain ⟨w, hw, h1, h2⟩ := hw
    obtain ⟨s, h3, h4⟩ := auto_some h1 (C83_conversion (G w hw) h64).1
    refine ⟨w, s, h3, fun X Y => ?_⟩
    rw [accepts_iff (shape_conversion shape_trunc X Y), h2]
    exact h4 X Y
  · have hw : ∃ w, (3 ≤ w ∧ w ≤ 6) ∧ R1cs.widthOf be 0 2 (R1cs.conversionCircuit f (R1cs.fFloor f) (.wire 0) (.wire 1) : R1cs.Bld bn254 Unit) = some w ∧ baseLength be 0 ((newFloatShape f ++ truncShape f ++ [(f.pow2Size, Mode.loose)]).map Prod.fst) = w := by
      refine ⟨_, ?_, ?_, rfl⟩ <;> rcases hf with rfl | rfl <;> cases be <;> decide +kernel
    obtain ⟨w, hw, h1, h2⟩ := hw
    obtain ⟨s, h3, h4⟩ := auto_some h1 (C83_conversion (G w hw) h64).2.1
    refine ⟨w, s, h3, fun X Y => ?_⟩
    rw [accepts_iff (shape_conversion shape_floor X Y), h2]
    exact h4 X Y
  · have hw : ∃ w, (3 ≤ w ∧ w ≤ 6) ∧ R1cs.widthOf be 0 2 (R1cs.conversionCircuit f (R1cs.fCeil f) (.wire 0) (.wire 1) : R1cs.Bld bn254 Unit) = some w ∧ baseLength be 0 ((newFloatShape f ++ truncShape f ++ [(f.pow2Size, Mode.loose)]).map Prod.fst) = w := by
      refine ⟨_, ?_, ?_, rfl⟩ <;> rcases hf with rfl | rfl <;> cases be <;> decide +kernel
    obtain ⟨w, hw, h1, h2⟩ := hw
    obtain ⟨s, h3, h4⟩ := auto_some h1 (C83_conversion (G w hw) h64).2.2
    refine ⟨w, s, h3, fun X Y => ?_⟩
    rw [accepts_iff (shape_conversion shape_ceil X Y), h2]
    exact h4 X Y


/-! ### What is marked as boolean is boolean -/

/-- Whatever the program marks as boolean (`MarkBoolean`, or as the result of a call) is 0 or 1 in every assignment that satisfies the compiled system. gnark emits no constraint for such expressions. -/
def R1cs.MarksBool (b n : ℕ) (m : R1cs.Bld p Unit) : Prop :=
  ∀ σ s w, m ⟨n, [], [], [], []⟩ = some ((), σ) → R1cs.compile b n m = some s → s.Sat b w → ∀ x ∈ σ.bools, x.eval w = 0 ∨ x.eval w = 1

theorem marks_of_refAt {n : ℕ} {m : R1cs.Bld p Unit} {c : List (ZMod p) → Circ p Unit} (h : ∀ xs : List (ZMod p), xs.length = n → R1cs.RefAt b ⟨n, [], [], [], []⟩ (R1cs.inputs xs) m (c xs)) :
    R1cs.MarksBool b n m := by
  intro σ s w hm hs hw
  obtain ⟨σ', h1, h2⟩ := R1cs.compile_bools (h ((List.range n).map w) (by simp)) hs hw (R1cs.inputs_ev.2 fun i hi => by simp)
  rw [hm] at h1
  cases h1
  exact h2
theorem marks_of_ref {n : ℕ} {m : R1cs.Bld p Unit} {c : List (ZMod p) → Circ p Unit} (h : ∀ xs : List (ZMod p), xs.length = n → R1cs.Ref b (R1cs.inputs xs) m (c xs)) : R1cs.MarksBool b n m :=
  marks_of_refAt fun xs hl => (h xs hl).at _

theorem marks2 {m : R1cs.Bld p Unit} {c : ZMod p → ZMod p → Circ p Unit} (h : ∀ X Y : ZMod p, R1cs.Ref b (R1cs.inputs [X, Y]) m (c X Y)) : R1cs.MarksBool b 2 m :=
  marks_of_ref (c := fun xs => c (xs.getD 0 0) (xs.getD 1 0)) fun xs hl => by obtain ⟨X, Y, rfl⟩ := List.length_eq_two.1 hl; exact h X Y
theorem marks3 {m : R1cs.Bld p Unit} {c : ZMod p → ZMod p → ZMod p → Circ p Unit} (h : ∀ X Y Z : ZMod p, R1cs.Ref b (R1cs.inputs [X, Y, Z]) m (c X Y Z)) : R1cs.MarksBool b 3 m :=
  marks_of_ref (c := fun xs => c (xs.getD 0 0) (xs.getD 1 0) (xs.getD 2 0)) fun xs hl => by obtain ⟨X, Y, Z, rfl⟩ := List.length_eq_three.1 hl; exact h X Y Z

/-- **C83** In all circuits, at every width: what is marked as boolean is boolean. -/
theorem C83_marked_booleans :
    R1cs.MarksBool (p := p) b 3 (R1cs.binaryCircuit f (R1cs.fAdd f) (.wire 0) (.wire 1) (.wire 2)) ∧
    R1cs.MarksBool (p := p) b 3 (R1cs.binaryCircuit f (R1cs.fSub f) (.wire 0) (.wire 1) (.wire 2)) ∧
    R1cs.MarksBool (p := p) b 3 (R1cs.binaryCircuit f (R1cs.fMul f) (.wire 0) (.wire 1) (.wire 2)) ∧
    R1cs.MarksBool (p := p) b 3 (R1cs.binaryCircuit f (R1cs.fDiv f) (.wire 0) (.wire 1) (.wire 2)) ∧
    R1cs.MarksBool (p := p) b 2 (R1cs.unaryCircuit f (R1cs.fSqrt f) (.wire 0) (.wire 1)) ∧
    R1cs.MarksBool (p := p) b 2 (R1cs.unaryCircuit f (R1cs.fTrunc f) (.wire 0) (.wire 1)) ∧
    R1cs.MarksBool (p := p) b 2 (R1cs.unaryCircuit f (R1cs.fFloor f) (.wire 0) (.wire 1)) ∧
    R1cs.MarksBool (p := p) b 2 (R1cs.unaryCircuit f (R1cs.fCeil f) (.wire 0) (.wire 1)) ∧
    R1cs.MarksBool (p := p) b 3 (R1cs.comparisonCircuit f (R1cs.fIsLt f) (.wire 0) (.wire 1) (.wire 2)) ∧
    R1cs.MarksBool (p := p) b 3 (R1cs.comparisonCircuit f (R1cs.fIsLe f) (.wire 0) (.wire 1) (.wire 2)) ∧
    R1cs.MarksBool (p := p) b 3 (R1cs.comparisonCircuit f (R1cs.fIsGt f) (.wire 0) (.wire 1) (.wire 2)) ∧
    R1cs.MarksBool (p := p) b 3 (R1cs.comparisonCircuit f (R1cs.fIsGe f) (.wire 0) (.wire 1) (.wire 2)) ∧
    R1cs.MarksBool (p := p) b 2 (R1cs.conversionCircuit f (R1cs.fTrunc f) (.wire 0) (.wire 1)) ∧
    R1cs.MarksBool (p := p) b 2 (R1cs.conversionCircuit f (R1cs.fFloor f) (.wire 0) (.wire 1)) ∧
    R1cs.MarksBool (p := p) b 2 (R1cs.conversionCircuit f (R1cs.fCeil f) (.wire 0) (.wire 1)) :=
  ⟨marks3 (R1cs.ref_binaryCircuit R1cs.binary_fAdd),
    marks3 (R1cs.ref_binaryCircuit R1cs.binary_fSub),
    marks3 (R1cs.ref_binaryCircuit R1cs.binary_fMul),
    marks3 (R1cs.ref_binaryCircuit R1cs.binary_fDiv),
    marks2 (R1cs.ref_unaryCircuit R1cs.unary_fSqrt),
    marks2 (R1cs.ref_unaryCircuit R1cs.unary_fTrunc),
    marks2 (R1cs.ref_unaryCircuit R1cs.unary_fFloor),
    marks2 (R1cs.ref_unaryCircuit R1cs.unary_fCeil),
    marks3 (R1cs.ref_comparisonCircuit R1cs.binary_fIsLt),
    marks3 (R1cs.ref_comparisonCircuit R1cs.binary_fIsLe),
    marks3 (R1cs.ref_comparisonCircuit R1cs.binary_fIsGt),
    marks3 (R1cs.ref_comparisonCircuit R1cs.binary_fIsGe),
    marks2 (R1cs.ref_conversionCircuit R1cs.unary_fTrunc),
    marks2 (R1cs.ref_conversionCircuit R1cs.unary_fFloor),
    marks2 (R1cs.ref_conversionCircuit R1cs.unary_fCeil)⟩

/-! ### From the compiled system to IEEE 754 -/

/-- **C83** Single precision over BN254, from the compiled rank-1 system at the width the compiler selects to IEEE 754: product, sum, difference and square root. -/
theorem C83_f32_ieee :
    (∃ w s, R1cs.compileAuto .r1cs 0 3 (R1cs.binaryCircuit f32 (R1cs.fMul f32) (.wire 0) (.wire 1) (.wire 2)) = some (w, s) ∧ ∀ X Y Z : ZMod bn254, s.Accepts w [X, Y, Z] ↔
      IsPattern f32 X ∧ IsPattern f32 Y ∧ IsPattern f32 Z ∧ Ieee.Mul ⟨8, 23⟩ (datumOf f32 X) (datumOf f32 Y) (datumOf f32 Z)) ∧
    (∃ w s, R1cs.compileAuto .r1cs 0 3 (R1cs.binaryCircuit f32 (R1cs.fAdd f32) (.wire 0) (.wire 1) (.wire 2)) = some (w, s) ∧ ∀ X Y Z : ZMod bn254, s.Accepts w [X, Y, Z] ↔
      IsPattern f32 X ∧ IsPattern f32 Y ∧ IsPattern f32 Z ∧
        (Ieee.Add ⟨8, 23⟩ (datumOf f32 X) (datumOf f32 Y) (datumOf f32 Z) ∨ AddException f32 (datumOf f32 X) (datumOf f32 Y) (datumOf f32 Z))) ∧
    (∃ w s, R1cs.compileAuto .r1cs 0 3 (R1cs.binaryCircuit f32 (R1cs.fSub f32) (.wire 0) (.wire 1) (.wire 2)) = some (w, s) ∧ ∀ X Y Z : ZMod bn254, s.Accepts w [X, Y, Z] ↔
      IsPattern f32 X ∧ IsPattern f32 Y ∧ IsPattern f32 Z ∧
        (Ieee.Sub ⟨8, 23⟩ (datumOf f32 X) (datumOf f32 Y) (datumOf f32 Z) ∨ AddException f32 (datumOf f32 X) (datumOf f32 Y).neg (datumOf f32 Z))) ∧
    (∃ w s, R1cs.compileAuto .r1cs 0 2 (R1cs.unaryCircuit f32 (R1cs.fSqrt f32) (.wire 0) (.wire 1)) = some (w, s) ∧ ∀ X Y : ZMod bn254, s.Accepts w [X, Y] ↔
      IsPattern f32 X ∧ IsPattern f32 Y ∧ Ieee.Sqrt ⟨8, 23⟩ (datumOf f32 X) (datumOf f32 Y)) := by
  obtain ⟨⟨w1, s1, h1, e1⟩, ⟨w2, s2, h2, e2⟩, ⟨w3, s3, h3, e3⟩, -⟩ := C83_binary_auto f32 (Or.inl rfl) .r1cs
  obtain ⟨⟨w4, s4, h4, e4⟩, -⟩ := C83_unary_auto f32 (Or.inl rfl) .r1cs
  exact ⟨⟨w3, s3, h3, fun X Y Z => (e3 X Y Z).trans (C41_f32_mul_r1cs goodField_bn254.1 X Y Z true)⟩, ⟨w1, s1, h1, fun X Y Z => (e1 X Y Z).trans (C41_f32_add_r1cs goodField_bn254.1 X Y Z true)⟩,
    ⟨w2, s2, h2, fun X Y Z => (e2 X Y Z).trans (C41_f32_sub_r1cs goodField_bn254.1 X Y Z true)⟩, ⟨w4, s4, h4, fun X Y => (e4 X Y).trans (C41_f32_sqrt goodField_bn254.1 .r1cs X Y true)⟩⟩

/-- **C83** Double precision likewise: sum, difference, square root and the order. -/
theorem C83_f64_ieee :
    (∃ w s, R1cs.compileAuto .r1cs 0 3 (R1cs.binaryCircuit f64 (R1cs.fAdd f64) (.wire 0) (.wire 1) (.wire 2)) = some (w, s) ∧ ∀ X Y Z : ZMod bn254, s.Accepts w [X, Y, Z] ↔
      IsPattern f64 X ∧ IsPattern f64 Y ∧ IsPattern f64 Z ∧
        (Ieee.Add ⟨11, 52⟩ (datumOf f64 X) (datumOf f64 Y) (datumOf f64 Z) ∨ AddException f64 (datumOf f64 X) (datumOf f64 Y) (datumOf f64 Z))) ∧
    (∃ w s, R1cs.compileAuto .r1cs 0 3 (R1cs.binaryCircuit f64 (R1cs.fSub f64) (.wire 0) (.wire 1) (.wire 2)) = some (w, s) ∧ ∀ X Y Z : ZMod bn254, s.Accepts w [X, Y, Z] ↔
      IsPattern f64 X ∧ IsPattern f64 Y ∧ IsPattern f64 Z ∧
        (Ieee.Sub ⟨11, 52⟩ (datumOf f64 X) (datumOf f64 Y) (datumOf f64 Z) ∨ AddException f64 (datumOf f64 X) (datumOf f64 Y).neg (datumOf f64 Z))) ∧
    (∃ w s, R1cs.compileAuto .r1cs 0 2 (R1cs.unaryCircuit f64 (R1cs.fSqrt f64) (.wire 0) (.wire 1)) = some (w, s) ∧ ∀ X Y : ZMod bn254, s.Accepts w [X, Y] ↔
      IsPattern f64 X ∧ IsPattern f64 Y ∧ Ieee.Sqrt ⟨11, 52⟩ (datumOf f64 X) (datumOf f64 Y)) ∧
    (∃ w s, R1cs.compileAuto .r1cs 0 3 (R1cs.comparisonCircuit f64 (R1cs.fIsLt f64) (.wire 0) (.wire 1) (.wire 2)) = some (w, s) ∧ ∀ X Y Z : ZMod bn254, s.Accepts w [X, Y, Z] ↔
      IsPattern f64 X ∧ IsPattern f64 Y ∧ Z = wireOf (Ieee.Lt (datumOf f64 X) (datumOf f64 Y))) := by
  obtain ⟨⟨w1, s1, h1, e1⟩, ⟨w2, s2, h2, e2⟩, -⟩ := C83_binary_auto f64 (Or.inr rfl) .r1cs
  obtain ⟨⟨w4, s4, h4, e4⟩, -⟩ := C83_unary_auto f64 (Or.inr rfl) .r1cs
  obtain ⟨⟨w5, s5, h5, e5⟩, -⟩ := C83_comparison_auto f64 (Or.inr rfl) .r1cs
  exact ⟨⟨w1, s1, h1, fun X Y Z => (e1 X Y Z).trans (C41_f64_add_sub goodField_bn254.2 .r1cs X Y Z true).1⟩, ⟨w2, s2, h2, fun X Y Z => (e2 X Y Z).trans (C41_f64_add_sub goodField_bn254.2 .r1cs X Y Z true).2⟩,
    ⟨w4, s4, h4, fun X Y => (e4 X Y).trans (C41_f64_sqrt_trunc goodField_bn254.2 .r1cs X Y true).1⟩,
    ⟨w5, s5, h5, fun X Y Z => (e5 X Y Z).trans (C41_comparison_auto f64 (Or.inr rfl) goodField_bn254.2 .r1cs X Y Z true).1⟩⟩

/-! ### Concrete cases -/

/-- `C83_f32_ieee`: the compiled single-precision multiplier accepts 2.5 · 4 = 10 and rejects 2.5 · 4 = 9. -/
example : ∃ w s, R1cs.compileAuto .r1cs 0 3 (R1cs.binaryCircuit f32 (R1cs.fMul f32) (.wire 0) (.wire 1) (.wire 2)) = some (w, s) ∧ s.Accepts w [(0x40200000 : ZMod bn254), 0x40800000, 0x41200000] ∧
    ¬ s.Accepts w [(0x40200000 : ZMod bn254), 0x40800000, 0x41100000] := by
  obtain ⟨w, s, h1, h2⟩ := C83_f32_ieee.1
  refine ⟨w, s, h1, (h2 _ _ _).2 ((C41_honest good8 (by decide) _ _ _).1.1 (by decide +kernel)), fun h => ?_⟩
  have := (C41_honest good8 (by decide) _ _ _).1.2 ((h2 _ _ _).1 h)
  revert this; decide +kernel

/-- `C83_f64_ieee`: 1 < 2 in double precision has the answer 1, and not 0. -/
example : ∃ w s, R1cs.compileAuto .r1cs 0 3 (R1cs.comparisonCircuit f64 (R1cs.fIsLt f64) (.wire 0) (.wire 1) (.wire 2)) = some (w, s) ∧
    s.Accepts w [(0x3FF0000000000000 : ZMod bn254), 0x4000000000000000, 1] ∧ ¬ s.Accepts w [(0x3FF0000000000000 : ZMod bn254), 0x4000000000000000, 0] := by
  obtain ⟨w, s, h1, h2⟩ := C83_f64_ieee.2.2.2
  have G : Good bn254 4 f64 := goodField_bn254.2 4 ⟨by norm_num, by norm_num⟩
  have h := (C41_comparison G (by decide) (0x3FF0000000000000 : ZMod bn254) 0x4000000000000000 1 true).1.1 (Circ.sat_of_run _ _ (by decide +kernel))
  refine ⟨w, s, h1, (h2 _ _ _).2 h, fun h' => ?_⟩
  have h' := (h2 _ _ _).1 h'
  rw [← h.2.2] at h'
  exact absurd h'.2.2 (by decide +kernel)

/-- `C83_binary` at width 7, which divides no length of the circuit: the sum 1.5 + 2.25 = 3.75. -/
example : ∃ s, R1cs.compile 7 3 (R1cs.binaryCircuit f32 (R1cs.fAdd f32) (.wire 0) (.wire 1) (.wire 2)) = some s ∧ s.Accepts 7 [(0x3FC00000 : ZMod bn254), 0x40100000, 0x40700000] := by
  obtain ⟨s, h1, h2⟩ := (C83_binary (goodField_bn254.1 7 ⟨by norm_num, by norm_num⟩) (by decide)).1
  exact ⟨s, h1, (h2 _ _ _).2 (Circ.sat_of_run _ _ (by decide +kernel))⟩

/-- `C83_unary` and `C83_conversion`: ⌊-2.5⌋ = -3 as a float and as a field element. -/
example : (∃ s, R1cs.compile 8 2 (R1cs.unaryCircuit f32 (R1cs.fFloor f32) (.wire 0) (.wire 1)) = some s ∧ s.Accepts 8 [(0xC0200000 : ZMod bn254), 0xC0400000]) ∧
    ∃ s, R1cs.compile 8 2 (R1cs.conversionCircuit f32 (R1cs.fFloor f32) (.wire 0) (.wire 1)) = some s ∧ s.Accepts 8 [(0xC0200000 : ZMod bn254), -3] := by
  obtain ⟨s, h1, h2⟩ := (C83_unary (f := f32) good8 (by decide)).2.2.1
  obtain ⟨t, h3, h4⟩ := (C83_conversion (f := f32) good8 (by decide)).2.1
  exact ⟨⟨s, h1, (h2 _ _).2 (Circ.sat_of_run _ _ (by decide +kernel))⟩, ⟨t, h3, (h4 _ _).2 (Circ.sat_of_run _ _ (by decide +kernel))⟩⟩

/-- `C83_allocation`: the circuit for the constant 1.5 accepts its pattern and no other. -/
example : ∃ s, R1cs.compile 8 1 (R1cs.allocationCircuit f32 0x3FC00000 (.wire 0)) = some s ∧ s.Accepts 8 [(0x3FC00000 : ZMod bn254)] := by
  obtain ⟨s, h1, h2⟩ := C83_allocation (f := f32) good8 (by decide) (y := 0x3FC00000) (by decide)
  exact ⟨s, h1, (h2 _).2 (Circ.sat_of_run _ _ (by decide +kernel))⟩

/-- `C83_marked_booleans`: the single-precision multiplier over BN254 marks 37 expressions. -/
example : ∃ σ, (R1cs.binaryCircuit f32 (R1cs.fMul f32) (.wire 0) (.wire 1) (.wire 2) : R1cs.Bld bn254 Unit) ⟨3, [], [], [], []⟩ = some ((), σ) ∧ σ.bools.length = 37 := by
  have h : ((R1cs.binaryCircuit f32 (R1cs.fMul f32) (.wire 0) (.wire 1) (.wire 2) : R1cs.Bld bn254 Unit) ⟨3, [], [], [], []⟩).map (fun r => r.2.bools.length) = some 37 := by decide +kernel
  obtain ⟨⟨⟨⟩, σ⟩, h1, h2⟩ := Option.map_eq_some_iff.1 h
  exact ⟨σ, h1, h2⟩

end ZkLoc
