import Verif.Math
import Verif.LocShape
import Verif.Circuits

/-!
# The circuits of /repo/math/math_test.go

All of them call `NewContext(api, 0, E, M)`: the range table's width is chosen automatically (`size = 0`).
-/

namespace ZkLoc

variable {p : ℕ}

/-- The common shape of `PolynomialEvalCircuit`, `PolynomialEvalCircuitDegTen`, `CircuitATanRemez64` and `SinCircuit`,
/repo/math/math_test.go:24-49, 92-129, 176-189, 255-267: only exponent and mantissa of the result are compared. -/
def funcCircuit (f : Fmt) (op : FloatVar p → Circ p (FloatVar p)) (X Z : ZMod p) : Circ p Unit := do
  let x ← newFloat f X
  let z ← newFloat f Z
  let result ← op x
  assertIsEqual result.exponent z.exponent
  assertIsEqual result.mantissa z.mantissa

/-- `api.AssertIsLessOrEqual(v, bound)` for a variable bound, gnark (modelled by its documented meaning: comparison of
the canonical representatives). -/
def assertLeVar (v bound : ZMod p) : Circ p Unit := .assert (decide (v.val ≤ bound.val)) (pure ())

/-- The common shape of `CircuitATanRemez32ULP`, `CircuitATanRemez64ULP` and `CircuitSin64ULP`,
/repo/math/math_test.go:199-215, 225-241, 277-294. -/
def ulpCircuit (f : Fmt) (op : FloatVar p → Circ p (FloatVar p)) (X Z Z_lower Z_upper : ZMod p) : Circ p Unit := do
  let x ← newFloat f X
  let z ← newFloat f Z
  let z_lower ← newFloat f Z_lower
  let z_upper ← newFloat f Z_upper
  let result ← op x
  assertIsEqual result.exponent z.exponent
  assertLeVar z_lower.mantissa result.mantissa
  assertLeVar result.mantissa z_upper.mantissa

/-- `Polynomial(coeffs).Eval(&ctx, x)` with the doubles 5, 1, 2, 3, /repo/math/math_test.go:32-43. -/
def polyCubic (x : FloatVar p) : Circ p (FloatVar p) :=
  polyEval f64 ([0x4014000000000000, 0x3ff0000000000000, 0x4000000000000000, 0x4008000000000000].map (newConstant f64)) x

/-- `Polynomial(coeffs).EvalK(&ctx, x, 1)` with the doubles 1, 9, 8, 7, 6, 5, 4, 3, 2, 1, 1, /repo/math/math_test.go:100-118. -/
def polyDegTen (x : FloatVar p) : Circ p (FloatVar p) :=
  evalK f64 ([0x3ff0000000000000, 0x4022000000000000, 0x4020000000000000, 0x401c000000000000, 0x4018000000000000,
    0x4014000000000000, 0x4010000000000000, 0x4008000000000000, 0x4000000000000000, 0x3ff0000000000000,
    0x3ff0000000000000].map (newConstant f64)) x 1

/-- `PolynomialEvalCircuit`, /repo/math/math_test.go:19-49. -/
def polyCircuit (X P : ZMod p) : Circ p Unit := funcCircuit f64 polyCubic X P
/-- `PolynomialEvalCircuitDegTen`, /repo/math/math_test.go:87-129. -/
def polyDegTenCircuit (X P : ZMod p) : Circ p Unit := funcCircuit f64 polyDegTen X P
/-- `CircuitATanRemez64`, /repo/math/math_test.go:170-189. -/
def atan64Circuit (X Z : ZMod p) : Circ p Unit := funcCircuit f64 atanRemez64 X Z
/-- `SinCircuit`, /repo/math/math_test.go:249-267. -/
def sin64Circuit (X Z : ZMod p) : Circ p Unit := funcCircuit f64 sinTaylor64 X Z
/-- `CircuitATanRemez32ULP`, /repo/math/math_test.go:191-215. -/
def atan32UlpCircuit (X Z L U : ZMod p) : Circ p Unit := ulpCircuit f32 atanRemez32 X Z L U
/-- `CircuitATanRemez64ULP`, /repo/math/math_test.go:217-241. -/
def atan64UlpCircuit (X Z L U : ZMod p) : Circ p Unit := ulpCircuit f64 atanRemez64 X Z L U
/-- `CircuitSin64ULP`, /repo/math/math_test.go:269-294. -/
def sin64UlpCircuit (X Z L U : ZMod p) : Circ p Unit := ulpCircuit f64 sinTaylor64 X Z L U

end ZkLoc
