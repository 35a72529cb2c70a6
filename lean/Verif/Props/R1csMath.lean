import Verif.R1csMath
import Verif.Props.R1cs
import Verif.Props.Poly

/-!
# Property C86: the compiled circuits of the math package's tests

The seven circuits of /repo/math/math_test.go, compiled to rank-1 constraints and lookups by the model of gnark's builder. With them every circuit of the repository has a compiled model.
-/

namespace ZkLoc

/-! ### The circuits as the compiler sees them -/

/-- `PolynomialEvalCircuit`, /repo/math/math_test.go:19-49; wires 0 and 1 are `X` and `P`. -/
def R1cs.poly (p : ℕ) : R1cs.Bld p Unit :=
  R1cs.funcCircuit f64 (R1cs.polyEval f64 [0x4014000000000000, 0x3ff0000000000000, 0x4000000000000000, 0x4008000000000000]) (.wire 0) (.wire 1)
/-- `PolynomialEvalCircuitDegTen`, /repo/math/math_test.go:87-129; wires 0 and 1 are `X` and `P`. -/
def R1cs.degTen (p : ℕ) : R1cs.Bld p Unit :=
  R1cs.funcCircuit f64 (R1cs.evalK1 f64 [0x3ff0000000000000, 0x4022000000000000, 0x4020000000000000, 0x401c000000000000, 0x4018000000000000, 0x4014000000000000, 0x4010000000000000, 0x4008000000000000,
    0x4000000000000000, 0x3ff0000000000000, 0x3ff0000000000000]) (.wire 0) (.wire 1)
/-- `CircuitATanRemez64`, /repo/math/math_test.go:170-189; wires 0 and 1 are `X` and `Z`. -/
def R1cs.atan64 (p : ℕ) : R1cs.Bld p Unit := R1cs.funcCircuit f64 (R1cs.atanRemez f64 consts64) (.wire 0) (.wire 1)
/-- `SinCircuit`, /repo/math/math_test.go:249-267; wires 0 and 1 are `X` and `Z`. -/
def R1cs.sin64 (p : ℕ) : R1cs.Bld p Unit := R1cs.funcCircuit f64 (R1cs.sinTaylor f64 consts64 sinDenoms64) (.wire 0) (.wire 1)
/-- `CircuitATanRemez32ULP`, /repo/math/math_test.go:191-215; wires 0 to 3 are `X`, `Z`, `Z_lower` and `Z_upper`. -/
def R1cs.atan32Ulp (p : ℕ) : R1cs.Bld p Unit := R1cs.ulpCircuit (Nat.size p) f32 (R1cs.atanRemez f32 consts32) (.wire 0) (.wire 1) (.wire 2) (.wire 3)
/-- `CircuitATanRemez64ULP`, /repo/math/math_test.go:217-241; wires 0 to 3 are `X`, `Z`, `Z_lower` and `Z_upper`. -/
def R1cs.atan64Ulp (p : ℕ) : R1cs.Bld p Unit := R1cs.ulpCircuit (Nat.size p) f64 (R1cs.atanRemez f64 consts64) (.wire 0) (.wire 1) (.wire 2) (.wire 3)
/-- `CircuitSin64ULP`, /repo/math/math_test.go:269-294; wires 0 to 3 are `X`, `Z`, `Z_lower` and `Z_upper`. -/
def R1cs.sin64Ulp (p : ℕ) : R1cs.Bld p Unit := R1cs.ulpCircuit (Nat.size p) f64 (R1cs.sinTaylor f64 consts64 sinDenoms64) (.wire 0) (.wire 1) (.wire 2) (.wire 3)

section
variable {p b : ℕ} [Fact p.Prime] {f : Fmt}

/-! ### The systems mean what the circuits say -/

theorem zero_num (G : Good p b f) (h64 : 1 + f.E + f.M ≤ 64) : Num f (wiresOf f (0 : ZMod p)) 0 :=
  ⟨false, 0, (zero_pattern G).2 ▸ wiresOf_encodes G h64 (zero_pattern G).1, by simp [Ieee.signed]⟩

theorem func_compiled (G : Good p b f) (h64 : 1 + f.E + f.M ≤ 64) {op : R1cs.FV (R1cs.Lin p) → R1cs.Bld p (R1cs.FV (R1cs.Lin p))} {opZ : R1cs.FV (ZMod p) → Circ p (R1cs.FV (ZMod p))}
    {op' : FloatVar p → Circ p (FloatVar p)} (hu : R1cs.Unary b op opZ) (hm : ∀ x, R1cs.Map R1cs.FV.var (opZ x) (op' x.var))
    (hz : ∃ r, (op' (wiresOf f 0)).run b = some r ∧ ∃ w, Num f r w) :
    ∃ s, R1cs.compile b 2 (R1cs.funcCircuit f op (.wire 0) (.wire 1)) = some s ∧ ∀ X Z : ZMod p, s.Accepts b [X, Z] ↔ (funcCircuit f op' X Z).Sat b true () := by
  obtain ⟨r, h1, w, h2⟩ := hz
  obtain ⟨Z, h3, rfl⟩ := exists_pattern G h64 h2
  obtain ⟨s, h4, h5⟩ := R1cs.accepts2 (b := b) (R1cs.ref_funcCircuit (f := f) hu)
    ⟨0, Z, by rw [R1cs.eq_funcCircuit hm]; exact Circ.sat_of_run _ _ ((func_run G h64).2 ⟨(zero_pattern G).1, h3, _, h1, rfl, rfl⟩)⟩
  exact ⟨s, h4, fun X Z => (h5 X Z).trans (by rw [R1cs.eq_funcCircuit hm])⟩

theorem ulp_compiled (G : Good p b f) (h64 : 1 + f.E + f.M ≤ 64) {op : R1cs.FV (R1cs.Lin p) → R1cs.Bld p (R1cs.FV (R1cs.Lin p))} {opZ : R1cs.FV (ZMod p) → Circ p (R1cs.FV (ZMod p))}
    {op' : FloatVar p → Circ p (FloatVar p)} (hu : R1cs.Unary b op opZ) (hm : ∀ x, R1cs.Map R1cs.FV.var (opZ x) (op' x.var))
    (hz : ∃ r, (op' (wiresOf f 0)).run b = some r ∧ ∃ w, Num f r w) :
    ∃ s, R1cs.compile b 4 (R1cs.ulpCircuit (Nat.size p) f op (.wire 0) (.wire 1) (.wire 2) (.wire 3)) = some s ∧
      ∀ X Z L U : ZMod p, s.Accepts b [X, Z, L, U] ↔ (ulpCircuit f op' X Z L U).Sat b true () := by
  have hn : p ≤ 2 ^ Nat.size p := (Nat.lt_size_self p).le
  obtain ⟨r, h1, w, h2⟩ := hz
  obtain ⟨Z, h3, rfl⟩ := exists_pattern G h64 h2
  obtain ⟨s, h4, h5⟩ := R1cs.compile_accepts (b := b) (n := 4) (c := fun xs => R1cs.ulpCircuit (Nat.size p) f opZ (xs.getD 0 0) (xs.getD 1 0) (xs.getD 2 0) (xs.getD 3 0))
    (m := R1cs.ulpCircuit (Nat.size p) f op (.wire 0) (.wire 1) (.wire 2) (.wire 3))
    (fun xs hl => by
      match xs, hl with
      | [X, Z, L, U], _ => exact R1cs.ref_ulpCircuit hu X Z L U)
    ⟨[0, Z, Z, Z], rfl, (R1cs.eq_ulpCircuit hn hm _ _ _ _).2 (Circ.sat_of_run _ _ ((ulp_run G h64).2 ⟨(zero_pattern G).1, h3, h3, h3, _, h1, rfl, le_rfl, le_rfl⟩))⟩
  exact ⟨s, h4, fun X Z L U => (h5 [X, Z, L, U] rfl).trans (R1cs.eq_ulpCircuit hn hm _ _ _ _)⟩

theorem zero_atan32 (G : Good p b f32) : ∃ r, (atanRemez32 (wiresOf f32 (0 : ZMod p))).run b = some r ∧ ∃ w, Num f32 r w := by
  obtain ⟨r, w, h1, h2, -⟩ := C50_atan_accuracy32 G (zero_num G (by decide))
  exact ⟨r, h1, w, h2⟩
theorem zero_atan64 (G : Good p b f64) : ∃ r, (atanRemez64 (wiresOf f64 (0 : ZMod p))).run b = some r ∧ ∃ w, Num f64 r w := by
  obtain ⟨r, w, h1, h2, -⟩ := C50_atan_accuracy64 G (zero_num G (by decide))
  exact ⟨r, h1, w, h2⟩
theorem zero_sin64 (G : Good p b f64) : ∃ r, (sinTaylor64 (wiresOf f64 (0 : ZMod p))).run b = some r ∧ ∃ w, Num f64 r w := by
  have hP : Num f64 (newConstant f64 consts64.pi : FloatVar p) (884279719003555 / 2 ^ 48) :=
    num_exact (E := 11) (M := 52) (neg := false) (num := 884279719003555) (den := 2 ^ 48) (by norm_num) (by norm_num) (by decide) (by decide +kernel) (by norm_num [Ieee.signed])
  obtain ⟨r, w, h1, h2, -⟩ := C47_sin_accuracy (b := b) G sinConsts64 (zero_num G (by decide)) hP (by norm_num)
  exact ⟨r, h1, w, h2⟩
theorem zero_poly (G : Good p b f64) : (∃ r, (polyCubic (wiresOf f64 (0 : ZMod p))).run b = some r ∧ ∃ w, Num f64 r w) ∧ ∃ r, (polyDegTen (wiresOf f64 (0 : ZMod p))).run b = some r ∧ ∃ w, Num f64 r w := by
  obtain ⟨⟨r, h1, w, h2, -⟩, r', h3, w', h4, -⟩ := C79_polynomials (m := .honest) G (Or.inl rfl) (zero_num G (by decide)) (by norm_num)
  exact ⟨⟨r, h1, w, h2⟩, r', h3, w', h4⟩

/-- **C86** At every width of the range table, the four circuits that compare a function's value with a claimed one compile, and each system has a solution for inputs exactly if the circuit, read with the documented meaning of
the API calls, is satisfiable. -/
theorem C86_functions (G : Good p b f64) :
    (∃ s, R1cs.compile b 2 (R1cs.poly p) = some s ∧ ∀ X P : ZMod p, s.Accepts b [X, P] ↔ (polyCircuit X P).Sat b true ()) ∧
    (∃ s, R1cs.compile b 2 (R1cs.degTen p) = some s ∧ ∀ X P : ZMod p, s.Accepts b [X, P] ↔ (polyDegTenCircuit X P).Sat b true ()) ∧
    (∃ s, R1cs.compile b 2 (R1cs.atan64 p) = some s ∧ ∀ X Z : ZMod p, s.Accepts b [X, Z] ↔ (atan64Circuit X Z).Sat b true ()) ∧
    (∃ s, R1cs.compile b 2 (R1cs.sin64 p) = some s ∧ ∀ X Z : ZMod p, s.Accepts b [X, Z] ↔ (sin64Circuit X Z).Sat b true ()) :=
  ⟨func_compiled G (by decide) R1cs.unary_polyEval (R1cs.eq_polyEval _) (zero_poly G).1, func_compiled G (by decide) R1cs.unary_evalK1 (R1cs.eq_evalK1 _) (zero_poly G).2,
    func_compiled G (by decide) R1cs.unary_atanRemez (R1cs.eq_atanRemez _) (zero_atan64 G), func_compiled G (by decide) R1cs.unary_sinTaylor (R1cs.eq_sinTaylor _ _) (zero_sin64 G)⟩

/-- **C86** The same of the double-precision circuits with a tolerance, in which gnark compares mantissas that are both variables bit by bit. -/
theorem C86_tolerance64 (G : Good p b f64) :
    (∃ s, R1cs.compile b 4 (R1cs.atan64Ulp p) = some s ∧ ∀ X Z L U : ZMod p, s.Accepts b [X, Z, L, U] ↔ (atan64UlpCircuit X Z L U).Sat b true ()) ∧
    (∃ s, R1cs.compile b 4 (R1cs.sin64Ulp p) = some s ∧ ∀ X Z L U : ZMod p, s.Accepts b [X, Z, L, U] ↔ (sin64UlpCircuit X Z L U).Sat b true ()) :=
  ⟨ulp_compiled G (by decide) R1cs.unary_atanRemez (R1cs.eq_atanRemez _) (zero_atan64 G), ulp_compiled G (by decide) R1cs.unary_sinTaylor (R1cs.eq_sinTaylor _ _) (zero_sin64 G)⟩

/-- **C86** The same of the single-precision circuit with a tolerance. -/
theorem C86_tolerance32 (G : Good p b f32) :
    ∃ s, R1cs.compile b 4 (R1cs.atan32Ulp p) = some s ∧ ∀ X Z L U : ZMod p, s.Accepts b [X, Z, L, U] ↔ (atan32UlpCircuit X Z L U).Sat b true () :=
  ulp_compiled G (by decide) R1cs.unary_atanRemez (R1cs.eq_atanRemez _) (zero_atan32 G)

/-- **C86** gnark's comparison of two variables by their bits, on its own: the system has a solution exactly if the canonical representatives are in order. In particular the decompositions are the canonical ones, although all
bit strings of the length of the field would include others. -/
theorem C86_comparison (b : ℕ) : ∃ s, R1cs.compile b 2 (R1cs.lessOrEqualVar (Nat.size p) (.wire 0) (.wire 1) : R1cs.Bld p Unit) = some s ∧ ∀ X Y : ZMod p, s.Accepts b [X, Y] ↔ X.val ≤ Y.val := by
  have hn : p ≤ 2 ^ Nat.size p := (Nat.lt_size_self p).le
  have hs : ∀ X Y : ZMod p, (R1cs.lessOrEqualVar (Nat.size p) X Y : Circ p Unit).Sat b true () ↔ X.val ≤ Y.val := fun X Y => by
    rw [R1cs.lessOrEqualVar_sat hn]
    simp [assertLeVar, Circ.Sat, Circ.pure_eq]
  obtain ⟨s, h1, h2⟩ := R1cs.accepts2 (b := b) (m := R1cs.lessOrEqualVar (Nat.size p) (.wire 0) (.wire 1)) (c := fun X Y => R1cs.lessOrEqualVar (Nat.size p) X Y)
    (fun X Y => R1cs.ref_lessOrEqualVar (R1cs.der_in (i := 0) (xs := [X, Y]) (by simp)) (R1cs.der_in (i := 1) (xs := [X, Y]) (by simp))) ⟨0, 0, (hs 0 0).2 le_rfl⟩
  exact ⟨s, h1, fun X Y => (h2 X Y).trans (hs X Y)⟩

theorem marks4 {op : R1cs.FV (R1cs.Lin p) → R1cs.Bld p (R1cs.FV (R1cs.Lin p))} {opZ : R1cs.FV (ZMod p) → Circ p (R1cs.FV (ZMod p))} {n : ℕ} (hu : R1cs.Unary b op opZ) :
    R1cs.MarksBool b 4 (R1cs.ulpCircuit n f op (.wire 0) (.wire 1) (.wire 2) (.wire 3)) :=
  marks_of_ref (c := fun xs => R1cs.ulpCircuit n f opZ (xs.getD 0 0) (xs.getD 1 0) (xs.getD 2 0) (xs.getD 3 0)) fun xs hl => by
    match xs, hl with
    | [X, Z, L, U], _ => exact R1cs.ref_ulpCircuit hu X Z L U

/-- **C86** In all seven circuits, at every width: what the compiler takes for boolean is boolean in every solution. -/
theorem C86_marked_booleans (b : ℕ) : R1cs.MarksBool b 2 (R1cs.poly p) ∧ R1cs.MarksBool b 2 (R1cs.degTen p) ∧ R1cs.MarksBool b 2 (R1cs.atan64 p) ∧ R1cs.MarksBool b 2 (R1cs.sin64 p) ∧
    R1cs.MarksBool b 4 (R1cs.atan32Ulp p) ∧ R1cs.MarksBool b 4 (R1cs.atan64Ulp p) ∧ R1cs.MarksBool b 4 (R1cs.sin64Ulp p) :=
  ⟨marks2 (R1cs.ref_funcCircuit R1cs.unary_polyEval), marks2 (R1cs.ref_funcCircuit R1cs.unary_evalK1), marks2 (R1cs.ref_funcCircuit R1cs.unary_atanRemez), marks2 (R1cs.ref_funcCircuit R1cs.unary_sinTaylor),
    marks4 R1cs.unary_atanRemez, marks4 R1cs.unary_atanRemez, marks4 R1cs.unary_sinTaylor⟩

/-- The width chosen for a compiled circuit whose range checks are those of a circuit with known width. -/
theorem width_compiled {m : R1cs.Bld p Unit} {c : Circ p Unit} {n w w' : ℕ} {be : Backend} {s : R1cs.System p} (h1 : R1cs.compile w' n m = some s) (hw : R1cs.Wid m c)
    (h : baseLength be 0 c.widths = w) : R1cs.widthOf be 0 n m = some w := by
  obtain ⟨⟨u, σ⟩, hm, -⟩ := Option.bind_eq_some_iff.1 h1
  unfold R1cs.widthOf
  rw [hm, Option.map_some, Option.some.injEq, List.map_reverse, hw _ _ _ hm, List.map_nil, List.append_nil, List.reverse_reverse, h]

end

/-! ### Over the BN254 scalar field, with the width that the code selects -/

theorem good64 : Good bn254 8 f64 := goodField_bn254.2 8 ⟨by norm_num, by norm_num⟩

/-- **C86** `PolynomialEvalCircuit`: the code selects a table of width 6 or 7 depending on the back-end. -/
theorem C86_poly_auto : (∃ s, R1cs.compileAuto .r1cs 0 2 (R1cs.poly bn254) = some (6, s) ∧ ∀ X P : ZMod bn254, s.Accepts 6 [X, P] ↔ Accepts .r1cs true 0 f64.pow2Size (polyCircuit X P) ()) ∧
    ∃ s, R1cs.compileAuto .scs 0 2 (R1cs.poly bn254) = some (7, s) ∧ ∀ X P : ZMod bn254, s.Accepts 7 [X, P] ↔ Accepts .scs true 0 f64.pow2Size (polyCircuit X P) () := by
  constructor
  · obtain ⟨s, h1, h2⟩ := (C86_functions (goodField_bn254.2 6 ⟨by norm_num, by norm_num⟩ : Good bn254 6 f64)).1
    exact auto_some (width_compiled h1 (R1cs.wid_funcCircuit (X' := 0) (Z' := 0) (fun _ _ => R1cs.wid_polyEval) (R1cs.eq_polyEval _)) width_poly.1)
      ⟨s, h1, fun X P => (h2 X P).trans (C59_width_poly X P true).1.symm⟩
  · obtain ⟨s, h1, h2⟩ := (C86_functions (goodField_bn254.2 7 ⟨by norm_num, by norm_num⟩ : Good bn254 7 f64)).1
    exact auto_some (width_compiled h1 (R1cs.wid_funcCircuit (X' := 0) (Z' := 0) (fun _ _ => R1cs.wid_polyEval) (R1cs.eq_polyEval _)) width_poly.2)
      ⟨s, h1, fun X P => (h2 X P).trans (C59_width_poly X P true).2.symm⟩

/-- **C86** The other three function circuits: the code selects a table of width 8, under either back-end. -/
theorem C86_functions_auto (be : Backend) :
    (∃ s, R1cs.compileAuto be 0 2 (R1cs.degTen bn254) = some (8, s) ∧ ∀ X P : ZMod bn254, s.Accepts 8 [X, P] ↔ Accepts be true 0 f64.pow2Size (polyDegTenCircuit X P) ()) ∧
    (∃ s, R1cs.compileAuto be 0 2 (R1cs.atan64 bn254) = some (8, s) ∧ ∀ X Z : ZMod bn254, s.Accepts 8 [X, Z] ↔ Accepts be true 0 f64.pow2Size (atan64Circuit X Z) ()) ∧
    (∃ s, R1cs.compileAuto be 0 2 (R1cs.sin64 bn254) = some (8, s) ∧ ∀ X Z : ZMod bn254, s.Accepts 8 [X, Z] ↔ Accepts be true 0 f64.pow2Size (sin64Circuit X Z) ()) := by
  obtain ⟨-, ⟨s1, h1, k1⟩, ⟨s2, h2, k2⟩, ⟨s3, h3, k3⟩⟩ := C86_functions good64
  refine ⟨auto_some (width_compiled h1 (R1cs.wid_funcCircuit (X' := 0) (Z' := 0) (fun _ _ => R1cs.wid_evalK1) (R1cs.eq_evalK1 _)) (width_degTen be)) ⟨s1, h1, fun X P => (k1 X P).trans (C59_width_degTen be X P true).symm⟩,
    auto_some (width_compiled h2 (R1cs.wid_funcCircuit (X' := 0) (Z' := 0) (fun _ _ => R1cs.wid_atanRemez) (R1cs.eq_atanRemez _)) (width_atan64 be)) ⟨s2, h2, fun X P => (k2 X P).trans (C59_width_atan64 be X P true).symm⟩,
    auto_some (width_compiled h3 (R1cs.wid_funcCircuit (X' := 0) (Z' := 0) (fun _ _ => R1cs.wid_sinTaylor) (R1cs.eq_sinTaylor _ _)) (width_sin64 be)) ⟨s3, h3, fun X P => (k3 X P).trans (C59_width_sin64 be X P true).symm⟩⟩

/-- **C86** The three circuits with a tolerance: the code selects a table of width 8, under either back-end. -/
theorem C86_tolerance_auto (be : Backend) :
    (∃ s, R1cs.compileAuto be 0 4 (R1cs.atan32Ulp bn254) = some (8, s) ∧ ∀ X Z L U : ZMod bn254, s.Accepts 8 [X, Z, L, U] ↔ Accepts be true 0 f32.pow2Size (atan32UlpCircuit X Z L U) ()) ∧
    (∃ s, R1cs.compileAuto be 0 4 (R1cs.atan64Ulp bn254) = some (8, s) ∧ ∀ X Z L U : ZMod bn254, s.Accepts 8 [X, Z, L, U] ↔ Accepts be true 0 f64.pow2Size (atan64UlpCircuit X Z L U) ()) ∧
    (∃ s, R1cs.compileAuto be 0 4 (R1cs.sin64Ulp bn254) = some (8, s) ∧ ∀ X Z L U : ZMod bn254, s.Accepts 8 [X, Z, L, U] ↔ Accepts be true 0 f64.pow2Size (sin64UlpCircuit X Z L U) ()) := by
  obtain ⟨s1, h1, k1⟩ := C86_tolerance32 (goodField_bn254.1 8 ⟨by norm_num, by norm_num⟩ : Good bn254 8 f32)
  obtain ⟨⟨s2, h2, k2⟩, ⟨s3, h3, k3⟩⟩ := C86_tolerance64 good64
  refine ⟨auto_some (width_compiled h1 (R1cs.wid_ulpCircuit (X' := 0) (Z' := 0) (L' := 0) (U' := 0) (fun _ _ => R1cs.wid_atanRemez) (R1cs.eq_atanRemez _)) (width_atan32Ulp be))
      ⟨s1, h1, fun X Z L U => (k1 X Z L U).trans (C59_width_atan32Ulp be X Z L U true).symm⟩,
    auto_some (width_compiled h2 (R1cs.wid_ulpCircuit (X' := 0) (Z' := 0) (L' := 0) (U' := 0) (fun _ _ => R1cs.wid_atanRemez) (R1cs.eq_atanRemez _)) (width_atan64Ulp be))
      ⟨s2, h2, fun X Z L U => (k2 X Z L U).trans (C59_width_atan64Ulp be X Z L U true).symm⟩,
    auto_some (width_compiled h3 (R1cs.wid_ulpCircuit (X' := 0) (Z' := 0) (L' := 0) (U' := 0) (fun _ _ => R1cs.wid_sinTaylor) (R1cs.eq_sinTaylor _ _)) (width_sin64Ulp be))
      ⟨s3, h3, fun X Z L U => (k3 X Z L U).trans (C59_width_sin64Ulp be X Z L U true).symm⟩⟩

/-! ### What the compiled systems prove -/

/-- **C86** The compiled arc tangent: no assignment of the internal wires satisfies the system for a finite input unless the claimed output has the magnitude of the arc tangent up to `25 * 2^-53`; for every finite input
there is an output with a solution. -/
theorem C86_atan64 (be : Backend) {w : ℕ} {sys : R1cs.System bn254} (hs : R1cs.compileAuto be 0 2 (R1cs.atan64 bn254) = some (w, sys)) {X : ZMod bn254} {s : Bool} {a : ℝ} (hX : datumOf f64 X = .fin s a) :
    (∀ Z, sys.Accepts w [X, Z] → ∃ t c, datumOf f64 Z = .fin t c ∧ |c - (|Real.arctan (Ieee.signed s a)|)| ≤ 25 / 2 ^ 53) ∧ (IsPattern f64 X → ∃ Z, sys.Accepts w [X, Z]) := by
  obtain ⟨s', h1, h2⟩ := (C86_functions_auto be).2.1
  obtain ⟨rfl, rfl⟩ := Prod.mk.inj (Option.some.inj (h1.symm.trans hs))
  exact ⟨fun Z h => C59_atan64_sound be true hX ((h2 X Z).1 h), fun hp => (C59_atan64_complete be true hp hX).imp fun Z h => (h2 X Z).2 h⟩

/-- **C86** The compiled sine, for inputs up to the double next to π: error at most `72 * 2^-53`. -/
theorem C86_sin64 (be : Backend) {w : ℕ} {sys : R1cs.System bn254} (hs : R1cs.compileAuto be 0 2 (R1cs.sin64 bn254) = some (w, sys)) {X : ZMod bn254} {s : Bool} {a : ℝ} (hX : datumOf f64 X = .fin s a)
    (ha : a ≤ 884279719003555 / 2 ^ 48) :
    (∀ Z, sys.Accepts w [X, Z] → ∃ t c, datumOf f64 Z = .fin t c ∧ |c - (|Real.sin (Ieee.signed s a)|)| ≤ 72 / 2 ^ 53) ∧ (IsPattern f64 X → ∃ Z, sys.Accepts w [X, Z]) := by
  obtain ⟨s', h1, h2⟩ := (C86_functions_auto be).2.2
  obtain ⟨rfl, rfl⟩ := Prod.mk.inj (Option.some.inj (h1.symm.trans hs))
  exact ⟨fun Z h => C59_sin64_sound be true hX ha ((h2 X Z).1 h), fun hp => (C59_sin64_complete be true hp hX ha).imp fun Z h => (h2 X Z).2 h⟩

/-- **C86** The compiled polynomial of degree ten, for inputs up to `2^16`. -/
theorem C86_degTen (be : Backend) {w : ℕ} {sys : R1cs.System bn254} (hs : R1cs.compileAuto be 0 2 (R1cs.degTen bn254) = some (w, sys)) {X : ZMod bn254} {s : Bool} {a : ℝ} (hX : datumOf f64 X = .fin s a)
    (ha : a ≤ 2 ^ 16) :
    (∀ P, sys.Accepts w [X, P] → ∃ t c, datumOf f64 P = .fin t c ∧ |c - (|Poly.value Poly.degTen (Ieee.signed s a)|)| ≤ 23 / 2 ^ 53 * Poly.size Poly.degTen (Ieee.signed s a)) ∧
    (IsPattern f64 X → ∃ P, sys.Accepts w [X, P]) := by
  obtain ⟨s', h1, h2⟩ := (C86_functions_auto be).1
  obtain ⟨rfl, rfl⟩ := Prod.mk.inj (Option.some.inj (h1.symm.trans hs))
  exact ⟨fun Z h => C79_degTen_sound be true hX ha ((h2 X Z).1 h), fun hp => (C79_degTen_complete be true hp hX ha).imp fun Z h => (h2 X Z).2 h⟩

/-- **C86** (violated) The compiled systems do not look at the sign of the claimed output: with a value they accept its negative, for each of the four functions. -/
theorem C86_sign_ignored {m : R1cs.Bld bn254 Unit} (hm : m ∈ [R1cs.poly bn254, R1cs.degTen bn254, R1cs.atan64 bn254, R1cs.sin64 bn254]) {b : ℕ} (G : Good bn254 b f64) {sys : R1cs.System bn254}
    (hs : R1cs.compile b 2 m = some sys) (X : ZMod bn254) {v : ℕ} (hv : v < 2 ^ 63) : sys.Accepts b [X, (v : ZMod bn254)] ↔ sys.Accepts b [X, ((v + 2 ^ 63 : ℕ) : ZMod bn254)] := by
  obtain ⟨⟨s1, h1, k1⟩, ⟨s2, h2, k2⟩, ⟨s3, h3, k3⟩, ⟨s4, h4, k4⟩⟩ := C86_functions G
  simp only [List.mem_cons, List.not_mem_nil, or_false] at hm
  rcases hm with rfl | rfl | rfl | rfl
  · obtain rfl := Option.some.inj (h1.symm.trans hs)
    rw [k1, k1]; exact C59_sign_ignored G (by decide) _ true X hv
  · obtain rfl := Option.some.inj (h2.symm.trans hs)
    rw [k2, k2]; exact C59_sign_ignored G (by decide) _ true X hv
  · obtain rfl := Option.some.inj (h3.symm.trans hs)
    rw [k3, k3]; exact C59_sign_ignored G (by decide) _ true X hv
  · obtain rfl := Option.some.inj (h4.symm.trans hs)
    rw [k4, k4]; exact C59_sign_ignored G (by decide) _ true X hv

/-- **C86** (violated) The compiled cubic polynomial has a solution that claims the value 5 at a point where the value is above `10^8`, under the R1CS back-end, and at 961 under the other one. -/
theorem C86_poly_forgeable :
    (∀ w sys, R1cs.compileAuto .r1cs 0 2 (R1cs.poly bn254) = some (w, sys) → sys.Accepts w [0x4074527d1b46fd7d, 0x4014000000000000] ∧ sys.Accepts w [0x4074527d1b46fd7d, 0x4198a39f6f434e00]) ∧
    (∀ w sys, R1cs.compileAuto .scs 0 2 (R1cs.poly bn254) = some (w, sys) → sys.Accepts w [0x408e080000000000, 0x4014000000000000] ∧ sys.Accepts w [0x408e080000000000, 0x41e3d9dc91600000]) := by
  obtain ⟨⟨s1, h1, k1⟩, ⟨s2, h2, k2⟩⟩ := C86_poly_auto
  constructor <;> intro w sys hs
  · obtain ⟨rfl, rfl⟩ := Prod.mk.inj (Option.some.inj (h1.symm.trans hs))
    obtain ⟨h3, -, h4⟩ := C59_poly_forgeable_r1cs true
    exact ⟨(k1 _ _).2 h3, (k1 _ _).2 ((C59_width_poly _ _ true).1.2 (Circ.sat_of_run _ _ h4))⟩
  · obtain ⟨rfl, rfl⟩ := Prod.mk.inj (Option.some.inj (h2.symm.trans hs))
    obtain ⟨h3, -, h4⟩ := C59_poly_forgeable_scs true
    exact ⟨(k2 _ _).2 h3, (k2 _ _).2 ((C59_width_poly _ _ true).2.2 (Circ.sat_of_run _ _ h4))⟩

/-- **C86** (violated) The compiled polynomial of degree ten has no solution for the vectors of its own test. -/
theorem C86_degTen_vectors_rejected (be : Backend) {w : ℕ} {sys : R1cs.System bn254} (hs : R1cs.compileAuto be 0 2 (R1cs.degTen bn254) = some (w, sys)) :
    ¬ sys.Accepts w [0x4052804B7BF6345E, 0x43D332C535AA3D95] ∧ ¬ sys.Accepts w [0xC05720C30BA0C839, 0x4401FE9EF8ED27FA] := by
  obtain ⟨s', h1, h2⟩ := (C86_functions_auto be).1
  obtain ⟨rfl, rfl⟩ := Prod.mk.inj (Option.some.inj (h1.symm.trans hs))
  rw [h2, h2]
  exact C59_degTen_vectors_rejected be true

/-- **C86** The compiled arc tangent with a tolerance, double precision: a solution with bounds in the binade of the claimed output means that the magnitude of the arc tangent lies between the bounds up to `25 * 2^-53`. -/
theorem C86_atan64Ulp (be : Backend) {w : ℕ} {sys : R1cs.System bn254} (hs : R1cs.compileAuto be 0 4 (R1cs.atan64Ulp bn254) = some (w, sys)) {X Z L U : ZMod bn254} {s : Bool} {a : ℝ}
    (hX : datumOf f64 X = .fin s a) (h : sys.Accepts w [X, Z, L, U]) (nL : IsNormal f64 L.val) (nU : IsNormal f64 U.val) (eL : L.val / 2 ^ 52 % 2 ^ 11 = Z.val / 2 ^ 52 % 2 ^ 11)
    (eU : U.val / 2 ^ 52 % 2 ^ 11 = Z.val / 2 ^ 52 % 2 ^ 11) :
    ∃ s' l t u, datumOf f64 L = .fin s' l ∧ datumOf f64 U = .fin t u ∧ l - 25 / 2 ^ 53 ≤ |Real.arctan (Ieee.signed s a)| ∧ |Real.arctan (Ieee.signed s a)| ≤ u + 25 / 2 ^ 53 := by
  obtain ⟨s', h1, h2⟩ := (C86_tolerance_auto be).2.1
  obtain ⟨rfl, rfl⟩ := Prod.mk.inj (Option.some.inj (h1.symm.trans hs))
  exact C59_atan64Ulp_sound be true hX ((h2 _ _ _ _).1 h) nL nU eL eU

/-- **C86** Single precision: the same, up to `10 * 2^-24`. -/
theorem C86_atan32Ulp (be : Backend) {w : ℕ} {sys : R1cs.System bn254} (hs : R1cs.compileAuto be 0 4 (R1cs.atan32Ulp bn254) = some (w, sys)) {X Z L U : ZMod bn254} {s : Bool} {a : ℝ}
    (hX : datumOf f32 X = .fin s a) (h : sys.Accepts w [X, Z, L, U]) (nL : IsNormal f32 L.val) (nU : IsNormal f32 U.val) (eL : L.val / 2 ^ 23 % 2 ^ 8 = Z.val / 2 ^ 23 % 2 ^ 8)
    (eU : U.val / 2 ^ 23 % 2 ^ 8 = Z.val / 2 ^ 23 % 2 ^ 8) :
    ∃ s' l t u, datumOf f32 L = .fin s' l ∧ datumOf f32 U = .fin t u ∧ l - 10 / 2 ^ 24 ≤ |Real.arctan (Ieee.signed s a)| ∧ |Real.arctan (Ieee.signed s a)| ≤ u + 10 / 2 ^ 24 := by
  obtain ⟨s', h1, h2⟩ := (C86_tolerance_auto be).1
  obtain ⟨rfl, rfl⟩ := Prod.mk.inj (Option.some.inj (h1.symm.trans hs))
  exact C59_atan32Ulp_sound be true hX ((h2 _ _ _ _).1 h) nL nU eL eU

/-- **C86** The sine with a tolerance, for inputs up to the double next to π: the same, up to `72 * 2^-53`. -/
theorem C86_sin64Ulp (be : Backend) {w : ℕ} {sys : R1cs.System bn254} (hs : R1cs.compileAuto be 0 4 (R1cs.sin64Ulp bn254) = some (w, sys)) {X Z L U : ZMod bn254} {s : Bool} {a : ℝ}
    (hX : datumOf f64 X = .fin s a) (ha : a ≤ 884279719003555 / 2 ^ 48) (h : sys.Accepts w [X, Z, L, U]) (nL : IsNormal f64 L.val) (nU : IsNormal f64 U.val)
    (eL : L.val / 2 ^ 52 % 2 ^ 11 = Z.val / 2 ^ 52 % 2 ^ 11) (eU : U.val / 2 ^ 52 % 2 ^ 11 = Z.val / 2 ^ 52 % 2 ^ 11) :
    ∃ s' l t u, datumOf f64 L = .fin s' l ∧ datumOf f64 U = .fin t u ∧ l - 72 / 2 ^ 53 ≤ |Real.sin (Ieee.signed s a)| ∧ |Real.sin (Ieee.signed s a)| ≤ u + 72 / 2 ^ 53 := by
  obtain ⟨s', h1, h2⟩ := (C86_tolerance_auto be).2.2
  obtain ⟨rfl, rfl⟩ := Prod.mk.inj (Option.some.inj (h1.symm.trans hs))
  exact C59_sin64Ulp_sound be true hX ha ((h2 _ _ _ _).1 h) nL nU eL eU

/-- **C86** (violated) If the fraction field of the lower bound exceeds that of the upper bound, as it does for the neighbours of a power of two, the compiled systems have no solution at all. -/
theorem C86_binade_rejected {m : R1cs.Bld bn254 Unit} (hm : m ∈ [R1cs.atan64Ulp bn254, R1cs.sin64Ulp bn254]) {b : ℕ} (G : Good bn254 b f64) {sys : R1cs.System bn254}
    (hs : R1cs.compile b 4 m = some sys) (X Z : ZMod bn254) {L U : ZMod bn254} (nL : IsNormal f64 L.val) (nU : IsNormal f64 U.val) (h : U.val % 2 ^ 52 < L.val % 2 ^ 52) :
    ¬ sys.Accepts b [X, Z, L, U] := by
  obtain ⟨⟨s1, h1, k1⟩, ⟨s2, h2, k2⟩⟩ := C86_tolerance64 G
  simp only [List.mem_cons, List.not_mem_nil, or_false] at hm
  rcases hm with rfl | rfl
  · obtain rfl := Option.some.inj (h1.symm.trans hs)
    rw [k1]; exact C59_ulp_binade_rejected G (by decide) _ true nL nU h
  · obtain rfl := Option.some.inj (h2.symm.trans hs)
    rw [k2]; exact C59_ulp_binade_rejected G (by decide) _ true nL nU h

/-- The hypotheses are met: the compiled arc tangent has a solution for `1/2` with the negative of its value. -/
example (be : Backend) : ∃ w sys, R1cs.compileAuto be 0 2 (R1cs.atan64 bn254) = some (w, sys) ∧ sys.Accepts w [0x3FE0000000000000, 0xBFDDAC670561BB50] := by
  obtain ⟨s, h1, h2⟩ := (C86_functions_auto be).2.1
  exact ⟨8, s, h1, (h2 _ _).2 (C59_atan64_negative be true)⟩

/-- The hypotheses are met: the compiled arc tangent with a tolerance has a solution with normal bounds next to the value, and none with the neighbours of the double 1/4. -/
example (be : Backend) : ∃ w sys, R1cs.compileAuto be 0 4 (R1cs.atan64Ulp bn254) = some (w, sys) ∧ sys.Accepts w [0x3FE0000000000000, 0x3FDDAC670561BB4F, 0x3FDDAC670561BB4E, 0x3FDDAC670561BB50] ∧
    ∀ X, ¬ sys.Accepts w [X, 0x3FD0000000000000, 0x3FCFFFFFFFFFFFFF, 0x3FD0000000000001] := by
  obtain ⟨s, h1, h2⟩ := (C86_tolerance_auto be).2.1
  refine ⟨8, s, h1, (h2 _ _ _ _).2 ((C59_width_atan64Ulp be _ _ _ _ true).2 (Circ.sat_of_run _ _ (by decide +kernel))), fun X hX => ?_⟩
  exact C59_ulp_binade_rejected good64 (by decide) _ true (by unfold IsNormal; decide +kernel) (by unfold IsNormal; decide +kernel) (by decide +kernel)
    ((C59_width_atan64Ulp be _ _ _ _ true).1 ((h2 _ _ _ _).1 hX))

end ZkLoc
