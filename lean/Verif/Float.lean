import Verif.Gadget
import Verif.Util

/-!
# Floating-point gadgets, /repo/float/float.go

Every function takes the format `f` (`Context.E`, `Context.M`); the remaining `Context` fields are
derived from it (/repo/float/float.go:50-63).
-/

namespace ZkLoc

/-- The floating-point format of a `Context`, /repo/float/float.go:14-22. -/
structure Fmt where
  E : ℕ
  M : ℕ
deriving DecidableEq, Repr

/-- IEEE-754 binary32 (`NewContext(api, _, 8, 23)`). -/
def f32 : Fmt := ⟨8, 23⟩
/-- IEEE-754 binary64 (`NewContext(api, _, 11, 52)`). -/
def f64 : Fmt := ⟨11, 52⟩

namespace Fmt
/-- `E_MAX = 2^(E-1)`, /repo/float/float.go:51. -/
def eMax (f : Fmt) : ℤ := 2 ^ (f.E - 1)
/-- `E_NORMAL_MIN = 2 - E_MAX`, /repo/float/float.go:52. -/
def eNormalMin (f : Fmt) : ℤ := 2 - f.eMax
/-- `E_MIN = E_NORMAL_MIN - (M+1)`, /repo/float/float.go:53. -/
def eMin (f : Fmt) : ℤ := f.eNormalMin - (f.M + 1)
/-- Size of the powers-of-two table, /repo/float/float.go:56. -/
def pow2Size (f : Fmt) : ℕ := f.M + f.E + 1
end Fmt

/-- `FloatVar`, /repo/float/float.go:28-48. -/
@[ext] structure FloatVar (p : ℕ) where
  sign : ZMod p
  exponent : ZMod p
  mantissa : ZMod p
  isAbnormal : ZMod p

variable {p : ℕ}

/-- `2^k` as a circuit constant (`new(big.Int).Lsh(big.NewInt(1), k)`). -/
abbrev tw (k : ℕ) : ZMod p := 2 ^ k

/-- `(*big.Int).BitLen`. -/
def bitLen (n : ℕ) : ℕ := n.size

/-- `NewFloat`, /repo/float/float.go:68-166. -/
def newFloat (f : Fmt) (v : ZMod p) : Circ p (FloatVar p) := do
  let s ← newHint (decodeSignHint v f.E f.M)
  let e ← newHint (decodeExpHint v f.E f.M)
  let m := v - (s * tw (f.E + f.M) + e * tw f.M)
  assertIsBoolean s
  assertBitLength e f.E .unknown
  assertBitLength m f.M .unknown
  let exponentMin : ZMod p := ((f.eNormalMin - 1 : ℤ) : ZMod p)
  let exponentMax : ZMod p := ((f.eMax : ℤ) : ZMod p)
  let exponent := e + exponentMin
  let mantissaIsZero := isZero m
  let mantissaIsNotZero := 1 - mantissaIsZero
  let exponentIsMin := gIsEq exponent exponentMin
  let exponentIsMax := gIsEq exponent exponentMax
  let shift ← newHint (normalizeHint m f.M)
  assertBitLength shift (bitLen f.M) .loose
  let twoToShift ← queryPowerOf2 f.pow2Size shift
  let shiftedMantissa := m * twoToShift
  assertBitLength (shiftedMantissa - mantissaIsNotZero * tw (f.M - 1)) (f.M - 1) .smallAbs
  let e1 ← select mantissaIsZero (exponentMin - (f.M : ZMod p)) (exponent - shift)
  let exponent' ← select exponentIsMin e1 exponent
  let isNaN ← and' exponentIsMax mantissaIsNotZero
  let m1 ← select isNaN 0 (m + tw f.M)
  let mantissa ← select exponentIsMin (shiftedMantissa + shiftedMantissa) m1
  pure ⟨s, exponent', mantissa, exponentIsMax⟩

/-- The circuit constant for native components. -/
def Components.toVar (c : Components) : FloatVar p :=
  ⟨(c.sign : ZMod p), (c.exponent : ZMod p), (c.mantissa : ZMod p), (c.abnormal : ZMod p)⟩

/-- `NewConstant`, /repo/float/float.go:169-178 (also `NewF32Constant`, `NewF64Constant`, lines
180-186, applied to the bit pattern of the native constant). -/
def newConstant (f : Fmt) (v : ℕ) : FloatVar p := (componentsOf v f.E f.M).toVar

/-- `round`, /repo/float/float.go:200-267. -/
def round (f : Fmt) (mantissa : ZMod p) (mantissaBitLength : ℕ) (shift : ZMod p) (shiftMax : ℕ)
    (halfFlag : ZMod p) : Circ p (ZMod p) := do
  let twoToShift ← queryPowerOf2 f.pow2Size shift
  let rIdx := shiftMax + mantissaBitLength - f.M - 2
  let qIdx := rIdx + 1
  let pIdx := qIdx + 1
  let pLen := f.M
  let sLen := rIdx
  let pp ← newHint (roundHintP mantissa twoToShift shiftMax pIdx)
  let q ← newHint (roundHintBit mantissa twoToShift shiftMax qIdx)
  let r ← newHint (roundHintBit mantissa twoToShift shiftMax rIdx)
  let s ← newHint (roundHintS mantissa twoToShift shiftMax rIdx)
  assertIsBoolean q
  assertIsBoolean r
  assertBitLength pp pLen .loose
  assertBitLength s sLen .smallAbs
  let pq := pp + pp + q
  let rs := r * tw rIdx + s
  let pqrs := pq * tw qIdx + rs
  assertIsEqual (pqrs * twoToShift) (mantissa * tw shiftMax)
  let isHalf ← and' (gIsEq rs (tw rIdx)) halfFlag
  let carry ← select isHalf q r
  pure ((pq + carry) * twoToShift)

/-- `fixOverflow`, /repo/float/float.go:270-307. Returns `(mantissa, exponent, is_abnormal)`. -/
def fixOverflow (f : Fmt) (mantissa mantissaIsZero exponent inputIsAbnormal : ZMod p) :
    Circ p (ZMod p × ZMod p × ZMod p) := do
  let mantissaOverflow := gIsEq mantissa (tw (f.M + 1))
  let exponent := exponent + mantissaOverflow
  let pos ← gIsPositive (exponent - ((f.eMax : ℤ) : ZMod p)) (f.E + 1)
  let isAbnormal ← or' pos inputIsAbnormal
  let c ← or' mantissaOverflow isAbnormal
  let m ← select c (tw f.M) mantissa
  let e1 ← select mantissaIsZero ((f.eMin : ℤ) : ZMod p) exponent
  let e ← select isAbnormal ((f.eMax : ℤ) : ZMod p) e1
  pure (m, e, isAbnormal)

/-- `is_nan` of `AssertIsEqual` and its relaxed variants, /repo/float/float.go:311-314. -/
def eitherNaN (x y : FloatVar p) : Circ p (ZMod p) := do
  let a ← and' x.isAbnormal (isZero x.mantissa)
  let b ← and' y.isAbnormal (isZero y.mantissa)
  or' a b

/-- The sign comparison of `AssertIsEqual` and its relaxed variants, /repo/float/float.go:315-323. -/
def assertSameSign (x y : FloatVar p) : Circ p Unit := do
  let isNan ← eitherNaN x y
  let sx ← select isNan 0 x.sign
  let sy ← select isNan 0 y.sign
  assertIsEqual sx sy

/-- `AssertIsEqual`, /repo/float/float.go:310-327. -/
def fAssertIsEqual (x y : FloatVar p) : Circ p Unit := do
  assertSameSign x y
  assertIsEqual (x.exponent - y.exponent) 0
  assertIsEqual x.mantissa y.mantissa
  assertIsEqual x.isAbnormal y.isAbnormal

/-- `condTwo` of the relaxed comparisons, /repo/float/float.go:376-380, 407-411, 438-442. -/
def sameData (x y : FloatVar p) : Circ p (ZMod p) := do
  let e1 := gIsEq (x.exponent - y.exponent) 0
  let e2 := gIsEq x.mantissa y.mantissa
  let e3 := gIsEq x.isAbnormal y.isAbnormal
  let e23 ← and' e2 e3
  and' e1 e23

/-- `AssertIsEqualOrULP`, /repo/float/float.go:330-383. -/
def fAssertIsEqualOrULP (f : Fmt) (x y : FloatVar p) : Circ p Unit := do
  assertSameSign x y
  let o ← or' (gIsEq x.mantissa (y.mantissa + 1)) (gIsEq y.mantissa (x.mantissa + 1))
  let cmpOne ← and' (gIsEq x.exponent y.exponent) o
  let a2 ← and' (gIsEq x.mantissa (tw f.M)) (gIsEq y.mantissa (tw (f.M + 1) - 1))
  let cmpTwo ← and' (gIsEq x.exponent (y.exponent + 1)) a2
  let a3 ← and' (gIsEq y.mantissa (tw f.M)) (gIsEq x.mantissa (tw (f.M + 1) - 1))
  let cmpThree ← and' (gIsEq y.exponent (x.exponent + 1)) a3
  let c23 ← or' cmpTwo cmpThree
  let cmp ← or' cmpOne c23
  let condOne := gIsEq cmp 1
  let condTwo ← sameData x y
  let ok ← or' condOne condTwo
  assertIsEqual ok 1

/-- `Add`, /repo/float/float.go:448-642. -/
def fAdd (f : Fmt) (x y : FloatVar p) : Circ p (FloatVar p) := do
  let d ← gAbs (y.exponent - x.exponent) (f.E + 1)
  let delta := d.1
  let exLeEy := d.2
  let e0 ← select exLeEy y.exponent x.exponent
  let exponent := e0 + 1
  let delta ← gMax ((f.M + 3 : ℕ) - delta) 0 f.E
  let twoToDelta ← queryPowerOf2 f.pow2Size delta
  let xx ← select x.sign (-x.mantissa) x.mantissa
  let yy ← select y.sign (-y.mantissa) y.mantissa
  let zz ← select exLeEy xx yy
  let ww := (xx + yy) - zz
  let s := zz * twoToDelta + ww * tw (f.M + 3)
  let mantissaBitLength := (f.M + 3) + (f.M + 1) + 1
  let mantissaGe0 ← newHint (absHintSign s)
  let mantissaAbs ← newHint (absHintAbs s)
  assertIsBoolean mantissaGe0
  let mantissaLt0 := 1 - mantissaGe0
  let shift ← newHint (normalizeHint mantissaAbs mantissaBitLength)
  assertBitLength shift (bitLen mantissaBitLength) .loose
  let twoToShift ← queryPowerOf2 f.pow2Size shift
  let sAbs ← select mantissaGe0 s (-s)
  let mantissa := sAbs * twoToShift
  let mantissaIsZero := isZero mantissa
  let mantissaIsNotZero := 1 - mantissaIsZero
  assertBitLength (mantissa - mantissaIsNotZero * tw (mantissaBitLength - 1))
    (mantissaBitLength - 1) .smallAbs
  let exponent := exponent - shift
  let sign ← select (gIsEq x.sign y.sign) x.sign mantissaLt0
  let mantissa ← round f mantissa mantissaBitLength 0 0 1
  let anyAbnormal ← or' x.isAbnormal y.isAbnormal
  let r ← fixOverflow f mantissa mantissaIsZero exponent anyAbnormal
  let yIsNotAbnormal := 1 - y.isAbnormal
  let keepX ← or' yIsNotAbnormal (gIsEq xx yy)
  let mx ← select keepX x.mantissa 0
  let my ← select y.isAbnormal y.mantissa r.1
  let m ← select x.isAbnormal mx my
  pure ⟨sign, r.2.1, m, r.2.2⟩

/-- `Abs`, /repo/float/float.go:645-652. -/
def fAbs (x : FloatVar p) : FloatVar p := ⟨0, x.exponent, x.mantissa, x.isAbnormal⟩

/-- `Neg`, /repo/float/float.go:655-664. -/
def fNeg (x : FloatVar p) : FloatVar p := ⟨1 - x.sign, x.exponent, x.mantissa, x.isAbnormal⟩

/-- `Sub`, /repo/float/float.go:668-670. -/
def fSub (f : Fmt) (x y : FloatVar p) : Circ p (FloatVar p) := fAdd f x (fNeg y)

/-- The `shift` argument passed to `round` by `Mul` and `Div`, /repo/float/float.go:720-728, 820-828. -/
def subnormalShift (f : Fmt) (exponent : ZMod p) (shiftMax : ℕ) : Circ p (ZMod p) := do
  let t ← gMin (((f.eNormalMin : ℤ) : ZMod p) - exponent) (shiftMax : ZMod p) (f.E + 1)
  gMax t 0 (f.E + 1)

/-- `Mul`, /repo/float/float.go:673-754. -/
def fMul (f : Fmt) (x y : FloatVar p) : Circ p (FloatVar p) := do
  let sign ← xor' x.sign y.sign
  let mantissa := x.mantissa * y.mantissa
  let mantissaBitLength := (f.M + 1) * 2
  let mantissaMsb ← newHint (nthBitHint mantissa (mantissaBitLength - 1))
  assertIsBoolean mantissaMsb
  assertBitLength (mantissa - mantissaMsb * tw (mantissaBitLength - 1)) (mantissaBitLength - 1) .smallAbs
  let dbl ← select mantissaMsb 0 mantissa
  let mantissa := mantissa + dbl
  let exponent := x.exponent + y.exponent + mantissaMsb
  let shiftMax := f.M + 2
  let shift ← subnormalShift f exponent shiftMax
  let mantissa ← round f mantissa mantissaBitLength shift shiftMax 1
  let mantissaIsZero := isZero mantissa
  let inputIsAbnormal ← or' x.isAbnormal y.isAbnormal
  let r ← fixOverflow f mantissa mantissaIsZero exponent inputIsAbnormal
  let m ← select mantissaIsZero 0 r.1
  pure ⟨sign, r.2.1, m, r.2.2⟩

/-- `Div`, /repo/float/float.go:757-858. -/
def fDiv (f : Fmt) (x y : FloatVar p) : Circ p (FloatVar p) := do
  let sign ← xor' x.sign y.sign
  let yIsZero := isZero y.mantissa
  let yMantissa ← select yIsZero (tw f.M) y.mantissa
  let mantissaBitLength := (f.M + 2) + 1
  let mantissa ← newHint (divHint x.mantissa yMantissa (f.M + 2))
  let mantissaMsb ← newHint (nthBitHint mantissa (f.M + 2))
  assertIsBoolean mantissaMsb
  let flippedMantissaMsb := 1 - mantissaMsb
  let remainder := x.mantissa * tw (f.M + 2) - mantissa * yMantissa
  assertBitLength remainder (f.M + 1) .loose
  assertBitLength (yMantissa - (remainder + 1)) (f.M + 1) .loose
  assertBitLength (mantissa - mantissaMsb * tw (mantissaBitLength - 1)) (mantissaBitLength - 1) .unknown
  let dbl ← select mantissaMsb 0 mantissa
  let mantissa := mantissa + dbl
  let exponent := x.exponent - y.exponent - flippedMantissaMsb
  let shiftMax := f.M + 2
  let shift ← subnormalShift f exponent shiftMax
  let mantissa ← round f mantissa mantissaBitLength shift shiftMax (isZero remainder)
  let mantissaIsZero ← or' (isZero mantissa) y.isAbnormal
  let inputIsAbnormal ← or' x.isAbnormal yIsZero
  let r ← fixOverflow f mantissa mantissaIsZero exponent inputIsAbnormal
  let m ← select mantissaIsZero 0 r.1
  pure ⟨sign, r.2.1, m, r.2.2⟩

/-- The even offset `delta` of `Sqrt`, /repo/float/float.go:861-864. -/
def sqrtDelta (f : Fmt) : ℤ := if f.eMin % 2 = 1 then f.eMin - 1 else f.eMin

/-- `Sqrt`, /repo/float/float.go:860-958. -/
def fSqrt (f : Fmt) (x : FloatVar p) : Circ p (FloatVar p) := do
  let eLsb ← newHint (nthBitHint (x.exponent - ((sqrtDelta f : ℤ) : ZMod p)) 0)
  assertIsBoolean eLsb
  let half ← inverse (2 : ZMod p)
  let exponent := (x.exponent - eLsb) * half
  let _ ← gAbs exponent (f.E - 1)
  let mantissaBitLength := f.M + 3
  let m := x.mantissa * tw (mantissaBitLength * 2 - (f.M + 2))
  let m ← select eLsb (m + m) m
  let n ← newHint (sqrtHint m)
  let r := m - n * n
  assertBitLength r (mantissaBitLength + 1) .loose
  assertBitLength (n + n - r) (mantissaBitLength + 1) .loose
  let nIsZero := isZero n
  let nIsNotZero := 1 - nIsZero
  let mantissa ← round f n mantissaBitLength 0 0 (isZero r)
  let negNonzero ← and' x.sign nIsNotZero
  let isAbnormal ← or' negNonzero x.isAbnormal
  let e1 ← select nIsZero ((f.eMin : ℤ) : ZMod p) exponent
  let e ← select isAbnormal ((f.eMax : ℤ) : ZMod p) e1
  let mant ← select x.sign 0 mantissa
  pure ⟨x.sign, e, mant, isAbnormal⟩

/-- `less`, /repo/float/float.go:960-1029. -/
def fLess (f : Fmt) (x y : FloatVar p) (allowEq : ℕ) : Circ p (ZMod p) := do
  let xeGeYe ← gIsPositive (x.exponent - y.exponent) (f.E + 1)
  let xmGeYm ← gIsPositive (x.mantissa - y.mantissa) (f.M + 1)
  let nan ← eitherNaN x y
  let m1 ← select x.sign xmGeYm (1 - xmGeYm)
  let m2 ← select (gIsEq x.mantissa y.mantissa) (allowEq : ZMod p) m1
  let e1 ← select x.sign xeGeYe (1 - xeGeYe)
  let same ← select (gIsEq x.exponent y.exponent) m2 e1
  let diff ← select (isZero (x.mantissa + y.mantissa)) (allowEq : ZMod p) x.sign
  let r ← select (gIsEq x.sign y.sign) same diff
  select nan 0 r

/-- `IsLt`, /repo/float/float.go:1031-1033. -/
def fIsLt (f : Fmt) (x y : FloatVar p) : Circ p (ZMod p) := fLess f x y 0
/-- `IsLe`, /repo/float/float.go:1035-1037. -/
def fIsLe (f : Fmt) (x y : FloatVar p) : Circ p (ZMod p) := fLess f x y 1
/-- `IsGt`, /repo/float/float.go:1039-1041. -/
def fIsGt (f : Fmt) (x y : FloatVar p) : Circ p (ZMod p) := fLess f y x 0
/-- `IsGe`, /repo/float/float.go:1043-1045. -/
def fIsGe (f : Fmt) (x y : FloatVar p) : Circ p (ZMod p) := fLess f y x 1

/-- `AssertIsEqualOrCustomULP32` / `...64`, /repo/float/float.go:386-445 (the two differ only in the
format of the constant); `ulp` is the bit pattern of the Go argument. -/
def fAssertIsEqualOrCustomULP (f : Fmt) (x y : FloatVar p) (ulp : ℕ) : Circ p Unit := do
  assertSameSign x y
  let d ← fSub f x y
  let cmp ← fIsLe f (fAbs d) (newConstant f ulp)
  let condOne := gIsEq cmp 1
  let condTwo ← sameData x y
  let ok ← or' condOne condTwo
  assertIsEqual ok 1

/-- `Trunc`, /repo/float/float.go:1047-1079. -/
def fTrunc (f : Fmt) (x : FloatVar p) : Circ p (FloatVar p) := do
  let eGe0 ← gIsPositive x.exponent f.E
  let e ← select eGe0 x.exponent (-1)
  let k ← gMax ((f.M : ZMod p) - e) 0 f.E
  let twoToE ← queryPowerOf2 f.pow2Size k
  let inv ← inverse twoToE
  let m := x.mantissa * tw (f.M + 1) * inv
  let q ← newHint (truncHint m (f.M + 1))
  let r := m - q * tw (f.M + 1)
  assertBitLength q (f.M + 1) .loose
  assertBitLength r (f.M + 1) .smallAbs
  let e' ← select eGe0 x.exponent ((f.eMin : ℤ) : ZMod p)
  pure ⟨x.sign, e', q * twoToE, x.isAbnormal⟩

/-- `Floor`, /repo/float/float.go:1081-1132. -/
def fFloor (f : Fmt) (x : FloatVar p) : Circ p (FloatVar p) := do
  let eGe0 ← gIsPositive x.exponent f.E
  let e ← select eGe0 x.exponent (-1)
  let k ← gMax ((f.M : ZMod p) - e) 0 f.E
  let twoToE ← queryPowerOf2 f.pow2Size k
  let inv ← inverse twoToE
  let m := x.mantissa * tw (f.M + 1) * inv
  let q ← newHint (floorHint m (f.M + 1) x.sign)
  let r := m - q * tw (f.M + 1)
  assertBitLength q (f.M + 1) .loose
  let ar ← select x.sign (-r) r
  assertBitLength ar (f.M + 1) .smallAbs
  let mantissa := q * twoToE
  let mantissaOverflow := gIsEq mantissa (tw (f.M + 1))
  let mantissa ← select mantissaOverflow (tw f.M) mantissa
  let e := e + mantissaOverflow
  let z ← and' (isZero mantissa) (1 - x.isAbnormal)
  let e' ← select z ((f.eMin : ℤ) : ZMod p) e
  pure ⟨x.sign, e', mantissa, x.isAbnormal⟩

/-- `Ceil`, /repo/float/float.go:1134-1136. -/
def fCeil (f : Fmt) (x : FloatVar p) : Circ p (FloatVar p) := do
  let r ← fFloor f (fNeg x)
  pure (fNeg r)

/-- `ToInt`, /repo/float/float.go:1142-1155. -/
def fToInt (f : Fmt) (x : FloatVar p) : Circ p (ZMod p) := do
  let exponentIsMin := gIsEq x.exponent ((f.eMin : ℤ) : ZMod p)
  let e ← select exponentIsMin 0 x.exponent
  let twoToE ← queryPowerOf2 f.pow2Size e
  let inv ← inverse (tw f.M : ZMod p)
  let v := x.mantissa * twoToE * inv
  select x.sign (-v) v

/-- `Select`, /repo/float/float.go:1157-1164. -/
def fSelect (c : ZMod p) (x y : FloatVar p) : Circ p (FloatVar p) := do
  let s ← select c x.sign y.sign
  let e ← select c x.exponent y.exponent
  let m ← select c x.mantissa y.mantissa
  let a ← select c x.isAbnormal y.isAbnormal
  pure ⟨s, e, m, a⟩

end ZkLoc
