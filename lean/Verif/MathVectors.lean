import Verif.Vectors
import Verif.TrigCircuits

/-!
# The tests of /repo/math/math_test.go that read tables

As in `Vectors.lean`. These tests restrict `assert.ProverSucceeded` to BN254 and GROTH16: the test engine and the R1CS.
-/

namespace ZkLoc.Vectors
open ZkLoc.Bench ZkLoc.Text

/-- `assert.ProverSucceeded` with `test.WithBackends(backend.GROTH16)`. -/
def succeedsGroth16 (f : Fmt) (c : Circ bn254 Unit) : Prop := AcceptsHonest .other 0 f.pow2Size c () ∧ AcceptsHonest .r1cs 0 f.pow2Size c ()

/-- The body of the loops of `TestATanCircuit` and `TestCircuitSin`, /repo/math/math_test.go:302-313 and 384-394. -/
def funcLine (f : Fmt) (op : FloatVar bn254 → Circ bn254 (FloatVar bn254)) (line : List Char) : Prop :=
  match fields line with
  | a :: b :: _ =>
    match setString16 a, setString16 b with
    | some x, some z => succeedsGroth16 f (funcCircuit f op (x : ZMod bn254) (z : ZMod bn254))
    | _, _ => False
  | _ => False

/-- The body of the loops of the three tests with bounds, /repo/math/math_test.go:328-341, 356-369 and 411-424. -/
def ulpLine (f : Fmt) (op : FloatVar bn254 → Circ bn254 (FloatVar bn254)) (line : List Char) : Prop :=
  match fields line with
  | a :: b :: c :: d :: _ =>
    match setString16 a, setString16 b, setString16 c, setString16 d with
    | some x, some z, some l, some u => succeedsGroth16 f (ulpCircuit f op (x : ZMod bn254) (z : ZMod bn254) (l : ZMod bn254) (u : ZMod bn254))
    | _, _, _, _ => False
  | _ => False

/-- `TestATanCircuit`, /repo/math/math_test.go:291-315, on ../data/f64. -/
def atanTest (dir : List Char → Option (List Char)) : Prop := ∀ line ∈ linesOf (dir "atan".toList), funcLine f64 atanRemez64 line
/-- `TestCircuitATanRemez32ULP`, /repo/math/math_test.go:317-343, on ../data/f32. -/
def atan32UlpTest (dir : List Char → Option (List Char)) : Prop := ∀ line ∈ linesOf (dir "atan_ulp".toList), ulpLine f32 atanRemez32 line
/-- `TestCircuitATanRemez64ULP`, /repo/math/math_test.go:345-371, on ../data/f64. -/
def atan64UlpTest (dir : List Char → Option (List Char)) : Prop := ∀ line ∈ linesOf (dir "atan_ulp".toList), ulpLine f64 atanRemez64 line
/-- `TestCircuitSin`, /repo/math/math_test.go:373-398: the loop is left after the first line (395). -/
def sinTest (dir : List Char → Option (List Char)) : Prop := ∀ line ∈ (linesOf (dir "sin".toList)).take 1, funcLine f64 sinTaylor64 line
/-- `TestCircuitSin64ULP`, /repo/math/math_test.go:400-426. -/
def sin64UlpTest (dir : List Char → Option (List Char)) : Prop := ∀ line ∈ linesOf (dir "sin_ulp".toList), ulpLine f64 sinTaylor64 line

end ZkLoc.Vectors
