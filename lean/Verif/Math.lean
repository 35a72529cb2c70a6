import Verif.Expr

/-!
# Model of /repo/math/math.go

Constants are given by their bit patterns: `f.NewF32Constant(v)` / `f.NewF64Constant(v)` is `NewConstant` of the
IEEE bits of the Go constant, in the format of the context (/repo/float/float.go:169-186). That each bit pattern
is the correctly rounded value of the decimal in the source is proved in `Verif/Props/Math.lean`.
-/

namespace ZkLoc

variable {p : ℕ}

/-- `Polynomial.Eval`, /repo/math/math.go:13-26, on the coefficients *in the order in which the loop visits them*
(last index first): `result = Add(Mul(result, at), p[i])`. -/
def horner (f : Fmt) (at' : FloatVar p) : List (FloatVar p) → FloatVar p → Circ p (FloatVar p)
  | [], result => pure result
  | c :: cs, result => do
    let m ← fMul f result at'
    let r ← fAdd f m c
    horner f at' cs r

/-- `Polynomial.Eval`, /repo/math/math.go:13-26. -/
def polyEval (f : Fmt) (cs : List (FloatVar p)) (at' : FloatVar p) : Circ p (FloatVar p) :=
  horner f at' cs.reverse (newConstant f 0)

/-- The inner loop of `EvalK`, /repo/math/math.go:40-47; `prev` is the already updated `parts[j-1]`. -/
def evalKStep (f : Fmt) (at' coeff : FloatVar p) : Option (FloatVar p) → List (FloatVar p) → Circ p (List (FloatVar p))
  | _, [] => pure []
  | none, q :: qs => do
    let m ← fMul f q at'
    let r ← fAdd f m coeff
    let rest ← evalKStep f at' coeff (some r) qs
    pure (r :: rest)
  | some prev, q :: qs => do
    let m ← fMul f q at'
    let n ← fMul f prev at'
    let r ← fAdd f m n
    let rest ← evalKStep f at' coeff (some r) qs
    pure (r :: rest)

/-- The outer loop of `EvalK`, /repo/math/math.go:39-48. -/
def evalKLoop (f : Fmt) (at' : FloatVar p) : List (FloatVar p) → List (FloatVar p) → Circ p (List (FloatVar p))
  | [], parts => pure parts
  | c :: cs, parts => do
    let parts' ← evalKStep f at' c none parts
    evalKLoop f at' cs parts'

/-- The final sum of `EvalK`, /repo/math/math.go:52-54. -/
def sumParts (f : Fmt) : List (FloatVar p) → FloatVar p → Circ p (FloatVar p)
  | [], result => pure result
  | q :: qs, result => do
    let r ← fAdd f result q
    sumParts f qs r

/-- `Polynomial.EvalK`, /repo/math/math.go:31-57. For `k = 0` line 51 (`parts[0]`) panics: no circuit is
compiled, modelled as an unsatisfiable assertion. -/
def evalK (f : Fmt) (cs : List (FloatVar p)) (at' : FloatVar p) (k : ℕ) : Circ p (FloatVar p) := do
  let parts ← evalKLoop f at' cs (List.replicate k (newConstant f 0))
  match parts with
  | [] => .assert false (pure (newConstant f 0))
  | q :: qs => sumParts f qs q

/-- The constants of `AtanRemez32`/`AtanRemez64` and `SinTaylor32`/`SinTaylor64` as bit patterns. -/
structure TrigConsts where
  pi : ℕ
  halfPi : ℕ
  one : ℕ
  atanCoeffs : List ℕ
deriving DecidableEq

/-- /repo/math/math.go:163-181. -/
def consts32 : TrigConsts where
  pi := 0x40490fdb
  halfPi := 0x3fc90fdb
  one := 0x3f800000
  atanCoeffs := [0x3cb469ec, 0xbe08f482, 0x3ea8afd6, 0xbec21414, 0x3dd7adc4, 0x3e2de579, 0x3bb374c4, 0xbeaaf8ee,
    0x381429d0, 0x3f7ffff0, 0x31faf30b]

/-- /repo/math/math.go:94-127. -/
def consts64 : TrigConsts where
  pi := 0x400921fb54442d18
  halfPi := 0x3ff921fb54442d18
  one := 0x3ff0000000000000
  atanCoeffs := [0xbf4ee57f3b042faf, 0x3f8a474c6db383c1, 0xbfb4c5dab31ea490, 0x3fd42c8da2650a19, 0xbfeac60cbc591196,
    0x3ff9818f91763779, 0xc001ce11f72552bc, 0x400243ab1a71910c, 0xbffb75e0fb74dff7, 0x3fef681ee6c82160,
    0xbfe06ed699bc42cf, 0x3fd1eca1c350f74b, 0xbfb0a0c589ede1dd, 0xbfb2fd4dc4279a12, 0xbf6c3cfdb00d7def,
    0x3fbc9693ff54b3dc, 0xbf12a7da66a16479, 0xbfc248eafee72cae, 0xbea06788115dfdd3, 0x3fc99999ce9c23e3,
    0xbe0ca400e977314d, 0xbfd55555555097ad, 0xbd4a97585f7518f7, 0x3ff0000000000004, 0xbc1eeb8bcf234108]

/-- The part of `AtanRemez32`/`AtanRemez64` after the sign of the argument has been cleared:
exponent and mantissa of the result, /repo/math/math.go:183-203 (32) and 129-149 (64). -/
def atanMag (f : Fmt) (k : TrigConsts) (x : FloatVar p) : Circ p (ZMod p × ZMod p) := do
  let one := newConstant f k.one
  let greaterOne ← fIsGt f x one
  let reciprocal ← fDiv f one x
  let e ← select greaterOne reciprocal.exponent x.exponent
  let m ← select greaterOne reciprocal.mantissa x.mantissa
  let x' : FloatVar p := ⟨x.sign, e, m, x.isAbnormal⟩
  let result ← evalK f (k.atanCoeffs.map (newConstant f)) x' 1
  let sub ← fSub f (newConstant f k.halfPi) result
  let resultE ← select greaterOne sub.exponent result.exponent
  let resultM ← select greaterOne sub.mantissa result.mantissa
  pure (resultE, resultM)

/-- `AtanRemez32`, /repo/math/math.go:161-211, and `AtanRemez64`, /repo/math/math.go:92-157: the same code with
different constants. -/
def atanRemez (f : Fmt) (k : TrigConsts) (x : FloatVar p) : Circ p (FloatVar p) := do
  let r ← atanMag f k { x with sign := 0 }
  pure ⟨x.sign, r.1, r.2, 0⟩

/-- `Atan2`, /repo/math/math.go:61-90 (the code always uses `AtanRemez64`; the constants are a parameter here). -/
def atan2 (f : Fmt) (k : TrigConsts) (y x : FloatVar p) : Circ p (FloatVar p) := do
  let pi := newConstant f k.pi
  let quotient ← fDiv f y x
  let result ← atanRemez f k quotient
  let addPi ← fAdd f result pi
  let subPi ← fSub f result pi
  let s' ← select y.sign subPi.sign addPi.sign
  let s ← select x.sign s' result.sign
  let e' ← select y.sign subPi.exponent addPi.exponent
  let e ← select x.sign e' result.exponent
  let m' ← select y.sign subPi.mantissa addPi.mantissa
  let m ← select x.sign m' result.mantissa
  pure ⟨s, e, m, 0⟩

/-- The loop of `SinTaylor32`/`SinTaylor64`, /repo/math/math.go:279-291 (32) and 237-249 (64), for the iterations
whose denominators `2i(2i+1)` are given as bit patterns; `even` tells whether the next `i` is even. -/
def sinLoop (f : Fmt) (xSquare : FloatVar p) : List ℕ → Bool → FloatVar p → FloatVar p → Circ p (FloatVar p)
  | [], _, ret, _ => pure ret
  | d :: ds, even, ret, term => do
    let ret' ← if even then fSub f ret term else fAdd f ret term
    let nominator ← fMul f term xSquare
    let term' ← fDiv f nominator (newConstant f d)
    sinLoop f xSquare ds (!even) ret' term'

/-- `float32(2*i*(2*i+1))` for `i = 1..15`, /repo/math/math.go:288. -/
def sinDenoms32 : List ℕ := [0x40c00000, 0x41a00000, 0x42280000, 0x42900000, 0x42dc0000, 0x431c0000,
  0x43520000, 0x43880000, 0x43ab0000, 0x43d20000, 0x43fd0000, 0x44160000,
  0x442f8000, 0x444b0000, 0x44688000]

/-- `float64(2*i*(2*i+1))` for `i = 1..15`, /repo/math/math.go:246. -/
def sinDenoms64 : List ℕ := [0x4018000000000000, 0x4034000000000000, 0x4045000000000000, 0x4052000000000000, 0x405b800000000000, 0x4063800000000000,
  0x406a400000000000, 0x4071000000000000, 0x4075600000000000, 0x407a400000000000, 0x407fa00000000000, 0x4082c00000000000,
  0x4085f00000000000, 0x4089600000000000, 0x408d100000000000]

/-- The part of `SinTaylor32`/`SinTaylor64` after the folding decision: from the magnitude of the folded argument,
/repo/math/math.go:270-291 (32) and 228-249 (64). -/
def sinMag (f : Fmt) (ds : List ℕ) (e m : ZMod p) : Circ p (FloatVar p) := do
  let term : FloatVar p := ⟨0, e, m, 0⟩
  let xSquare ← fMul f term term
  sinLoop f xSquare ds false (newConstant f 0) term

/-- `SinTaylor32`, /repo/math/math.go:255-295, and `SinTaylor64`, /repo/math/math.go:213-253. -/
def sinTaylor (f : Fmt) (k : TrigConsts) (ds : List ℕ) (x : FloatVar p) : Circ p (FloatVar p) := do
  let greaterHalfPi ← fIsGt f x (newConstant f k.halfPi)
  let folding ← fSub f (newConstant f k.pi) x
  let e ← select greaterHalfPi folding.exponent x.exponent
  let m ← select greaterHalfPi folding.mantissa x.mantissa
  let ret ← sinMag f ds e m
  pure { ret with sign := x.sign }

/-- `AtanRemez32`, /repo/math/math.go:161. -/
def atanRemez32 (x : FloatVar p) : Circ p (FloatVar p) := atanRemez f32 consts32 x
/-- `AtanRemez64`, /repo/math/math.go:92. -/
def atanRemez64 (x : FloatVar p) : Circ p (FloatVar p) := atanRemez f64 consts64 x
/-- `SinTaylor32`, /repo/math/math.go:255. -/
def sinTaylor32 (x : FloatVar p) : Circ p (FloatVar p) := sinTaylor f32 consts32 sinDenoms32 x
/-- `SinTaylor64`, /repo/math/math.go:213. -/
def sinTaylor64 (x : FloatVar p) : Circ p (FloatVar p) := sinTaylor f64 consts64 sinDenoms64 x

end ZkLoc
