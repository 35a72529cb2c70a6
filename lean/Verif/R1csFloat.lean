import Verif.R1cs
import Verif.Float

/-!
# The gadgets and floating-point operations as programs against `frontend.API`

The same code as in Gadget.lean and Float.lean, call by call and with the calls of `MarkBoolean`, for any meaning of the calls (`Api`). With the meaning `circApi` it is the model used so far
(`Props/R1cs.lean`), with `bldApi` it is compiled to constraints.
-/

namespace ZkLoc.R1cs

open Ops

variable {p : ℕ} {V : Type} {m : Type → Type} [Ops p V] [Api p V m]

/-- `IntGadget.Abs`, /repo/gadget/gadget.go:81-95. -/
def gAbs (v : V) (length : ℕ) : m (V × V) := do
  let isPositive ← Api.hint [v] fun l => absHintSign (l.getD 0 0)
  let _ ← Api.hint [v] fun l => absHintAbs (l.getD 0 0)
  Api.assertBool isPositive
  let abs ← Api.select isPositive v (neg v)
  Api.check abs length .loose
  pure (abs, isPositive)

/-- `IntGadget.IsPositive`, /repo/gadget/gadget.go:97-100. -/
def gIsPositive (v : V) (length : ℕ) : m V := do
  let r ← gAbs v length
  pure r.2

/-- `IntGadget.Max`, /repo/gadget/gadget.go:102-108. -/
def gMax (a b : V) (diffLength : ℕ) : m V := do
  let c ← gIsPositive (sub a b) diffLength
  Api.select c a b

/-- `IntGadget.Min`, /repo/gadget/gadget.go:110-116. -/
def gMin (a b : V) (diffLength : ℕ) : m V := do
  let c ← gIsPositive (sub a b) diffLength
  Api.select c b a

/-- `IntGadget.IsEq`, /repo/gadget/gadget.go:118-120. -/
def gIsEq (a b : V) : m V := Api.isZero (sub a b)

/-- `IntGadget.QueryPowerOf2`, /repo/gadget/gadget.go:122-137. -/
def queryPowerOf2 (size : ℕ) (exponent : V) : m V := do
  let result ← Api.hint [exponent] fun l => powerOfTwoHint (l.getD 0 0)
  Api.check result size .loose
  Api.query size (add (scale exponent (2 ^ size)) result)
  pure result

/-- `FloatVar`, /repo/float/float.go:28-48. -/
structure FV (V : Type) where
  sign : V
  exponent : V
  mantissa : V
  isAbnormal : V

/-- `NewFloat`, /repo/float/float.go:68-166. -/
def newFloat (f : Fmt) (v : V) : m (FV V) := do
  let s ← Api.hint [v] fun l => decodeSignHint (l.getD 0 0) f.E f.M
  let e ← Api.hint [v] fun l => decodeExpHint (l.getD 0 0) f.E f.M
  let mm := sub v (add (scale s (tw (f.E + f.M))) (scale e (tw f.M)))
  Api.assertBool s
  Api.check e f.E .unknown
  Api.check mm f.M .unknown
  let exponentMin : V := lit ((f.eNormalMin - 1 : ℤ) : ZMod p)
  let exponentMax : V := lit ((f.eMax : ℤ) : ZMod p)
  let exponent := add e exponentMin
  let mantissaIsZero ← Api.isZero mm
  let mantissaIsNotZero := sub (lit 1) mantissaIsZero
  Api.mark mantissaIsNotZero
  let exponentIsMin ← gIsEq exponent exponentMin
  let exponentIsMax ← gIsEq exponent exponentMax
  let shift ← Api.hint [mm] fun l => normalizeHint (l.getD 0 0) f.M
  Api.check shift (bitLen f.M) .loose
  let twoToShift ← queryPowerOf2 f.pow2Size shift
  let shiftedMantissa ← Api.mul mm twoToShift
  Api.check (sub shiftedMantissa (scale mantissaIsNotZero (tw (f.M - 1)))) (f.M - 1) .smallAbs
  let e1 ← Api.select mantissaIsZero (sub exponentMin (lit (f.M : ZMod p))) (sub exponent shift)
  let exponent' ← Api.select exponentIsMin e1 exponent
  let isNaN ← Api.and exponentIsMax mantissaIsNotZero
  let m1 ← Api.select isNaN (lit 0) (add mm (lit (tw f.M)))
  let mantissa ← Api.select exponentIsMin (add shiftedMantissa shiftedMantissa) m1
  pure ⟨s, exponent', mantissa, exponentIsMax⟩

/-- `NewConstant`, /repo/float/float.go:169-186. -/
def newConstant (f : Fmt) (v : ℕ) : FV V :=
  let c : Components := componentsOf v f.E f.M
  ⟨lit (c.sign : ZMod p), lit (c.exponent : ZMod p), lit (c.mantissa : ZMod p), lit (c.abnormal : ZMod p)⟩

/-- `round`, /repo/float/float.go:200-267. -/
def round (f : Fmt) (mantissa : V) (mantissaBitLength : ℕ) (shift : V) (shiftMax : ℕ) (halfFlag : V) : m V := do
  let twoToShift ← queryPowerOf2 f.pow2Size shift
  let rIdx := shiftMax + mantissaBitLength - f.M - 2
  let qIdx := rIdx + 1
  let pIdx := qIdx + 1
  let pp ← Api.hint [mantissa, twoToShift] fun l => roundHintP (l.getD 0 0) (l.getD 1 0) shiftMax pIdx
  let q ← Api.hint [mantissa, twoToShift] fun l => roundHintBit (l.getD 0 0) (l.getD 1 0) shiftMax qIdx
  let r ← Api.hint [mantissa, twoToShift] fun l => roundHintBit (l.getD 0 0) (l.getD 1 0) shiftMax rIdx
  let s ← Api.hint [mantissa, twoToShift] fun l => roundHintS (l.getD 0 0) (l.getD 1 0) shiftMax rIdx
  Api.assertBool q
  Api.assertBool r
  Api.check pp f.M .loose
  Api.check s rIdx .smallAbs
  let pq := add (add pp pp) q
  let rs := add (scale r (tw rIdx)) s
  let pqrs := add (scale pq (tw qIdx)) rs
  let lhs ← Api.mul pqrs twoToShift
  Api.assertEq lhs (scale mantissa (tw shiftMax))
  let half ← gIsEq rs (lit (tw rIdx))
  let isHalf ← Api.and half halfFlag
  let carry ← Api.select isHalf q r
  Api.mul (add pq carry) twoToShift

/-- `fixOverflow`, /repo/float/float.go:270-307. -/
def fixOverflow (f : Fmt) (mantissa mantissaIsZero exponent inputIsAbnormal : V) : m (V × V × V) := do
  let mantissaOverflow ← gIsEq mantissa (lit (tw (f.M + 1)))
  let exponent := add exponent mantissaOverflow
  let pos ← gIsPositive (sub exponent (lit ((f.eMax : ℤ) : ZMod p))) (f.E + 1)
  let isAbnormal ← Api.or pos inputIsAbnormal
  let c ← Api.or mantissaOverflow isAbnormal
  let mm ← Api.select c (lit (tw f.M)) mantissa
  let e1 ← Api.select mantissaIsZero (lit ((f.eMin : ℤ) : ZMod p)) exponent
  let e ← Api.select isAbnormal (lit ((f.eMax : ℤ) : ZMod p)) e1
  pure (mm, e, isAbnormal)

/-- `is_nan`, /repo/float/float.go:311-314. -/
def eitherNaN (x y : FV V) : m V := do
  let zx ← Api.isZero x.mantissa
  let a ← Api.and x.isAbnormal zx
  let zy ← Api.isZero y.mantissa
  let b ← Api.and y.isAbnormal zy
  Api.or a b

/-- /repo/float/float.go:315-323. -/
def assertSameSign (x y : FV V) : m Unit := do
  let isNan ← eitherNaN x y
  let sx ← Api.select isNan (lit 0) x.sign
  let sy ← Api.select isNan (lit 0) y.sign
  Api.assertEq sx sy

/-- `AssertIsEqual`, /repo/float/float.go:310-327. -/
def fAssertIsEqual (x y : FV V) : m Unit := do
  assertSameSign x y
  Api.assertEq (sub x.exponent y.exponent) (lit 0)
  Api.assertEq x.mantissa y.mantissa
  Api.assertEq x.isAbnormal y.isAbnormal

/-- `condTwo` of the relaxed comparisons, /repo/float/float.go:376-380, 407-411, 438-442. -/
def sameData (x y : FV V) : m V := do
  let e1 ← gIsEq (sub x.exponent y.exponent) (lit 0)
  let e2 ← gIsEq x.mantissa y.mantissa
  let e3 ← gIsEq x.isAbnormal y.isAbnormal
  let e23 ← Api.and e2 e3
  Api.and e1 e23

/-- `AssertIsEqualOrULP`, /repo/float/float.go:330-383. -/
def fAssertIsEqualOrULP (f : Fmt) (x y : FV V) : m Unit := do
  assertSameSign x y
  let c1 ← gIsEq x.mantissa (add y.mantissa (lit 1))
  let c2 ← gIsEq y.mantissa (add x.mantissa (lit 1))
  let o ← Api.or c1 c2
  let c3 ← gIsEq x.exponent y.exponent
  let cmpOne ← Api.and c3 o
  let c4 ← gIsEq x.mantissa (lit (tw f.M))
  let c5 ← gIsEq y.mantissa (lit (tw (f.M + 1) - 1))
  let a2 ← Api.and c4 c5
  let c6 ← gIsEq x.exponent (add y.exponent (lit 1))
  let cmpTwo ← Api.and c6 a2
  let c7 ← gIsEq y.mantissa (lit (tw f.M))
  let c8 ← gIsEq x.mantissa (lit (tw (f.M + 1) - 1))
  let a3 ← Api.and c7 c8
  let c9 ← gIsEq y.exponent (add x.exponent (lit 1))
  let cmpThree ← Api.and c9 a3
  let c23 ← Api.or cmpTwo cmpThree
  let cmp ← Api.or cmpOne c23
  let condOne ← gIsEq cmp (lit 1)
  let condTwo ← sameData x y
  let ok ← Api.or condOne condTwo
  Api.assertEq ok (lit 1)

/-- `Add`, /repo/float/float.go:448-642. -/
def fAdd (f : Fmt) (x y : FV V) : m (FV V) := do
  let d ← gAbs (sub y.exponent x.exponent) (f.E + 1)
  let delta := d.1
  let exLeEy := d.2
  let e0 ← Api.select exLeEy y.exponent x.exponent
  let exponent := add e0 (lit 1)
  let delta ← gMax (sub (lit ((f.M + 3 : ℕ) : ZMod p)) delta) (lit 0) f.E
  let twoToDelta ← queryPowerOf2 f.pow2Size delta
  let xx ← Api.select x.sign (neg x.mantissa) x.mantissa
  let yy ← Api.select y.sign (neg y.mantissa) y.mantissa
  let zz ← Api.select exLeEy xx yy
  let ww := sub (add xx yy) zz
  let zd ← Api.mul zz twoToDelta
  let s := add zd (scale ww (tw (f.M + 3)))
  let mantissaBitLength := (f.M + 3) + (f.M + 1) + 1
  let mantissaGe0 ← Api.hint [s] fun l => absHintSign (l.getD 0 0)
  let mantissaAbs ← Api.hint [s] fun l => absHintAbs (l.getD 0 0)
  Api.assertBool mantissaGe0
  let mantissaLt0 := sub (lit 1) mantissaGe0
  Api.mark mantissaLt0
  let shift ← Api.hint [mantissaAbs] fun l => normalizeHint (l.getD 0 0) mantissaBitLength
  Api.check shift (bitLen mantissaBitLength) .loose
  let twoToShift ← queryPowerOf2 f.pow2Size shift
  let sAbs ← Api.select mantissaGe0 s (neg s)
  let mantissa ← Api.mul sAbs twoToShift
  let mantissaIsZero ← Api.isZero mantissa
  let mantissaIsNotZero := sub (lit 1) mantissaIsZero
  Api.mark mantissaIsNotZero
  Api.check (sub mantissa (scale mantissaIsNotZero (tw (mantissaBitLength - 1)))) (mantissaBitLength - 1) .smallAbs
  let exponent := sub exponent shift
  let sameSign ← gIsEq x.sign y.sign
  let sign ← Api.select sameSign x.sign mantissaLt0
  let mantissa ← round f mantissa mantissaBitLength (lit 0) 0 (lit 1)
  let anyAbnormal ← Api.or x.isAbnormal y.isAbnormal
  let r ← fixOverflow f mantissa mantissaIsZero exponent anyAbnormal
  let yIsNotAbnormal := sub (lit 1) y.isAbnormal
  Api.mark yIsNotAbnormal
  let eqxy ← gIsEq xx yy
  let keepX ← Api.or yIsNotAbnormal eqxy
  let mx ← Api.select keepX x.mantissa (lit 0)
  let my ← Api.select y.isAbnormal y.mantissa r.1
  let mm ← Api.select x.isAbnormal mx my
  pure ⟨sign, r.2.1, mm, r.2.2⟩

/-- `Abs`, /repo/float/float.go:645-652. -/
def fAbs (x : FV V) : FV V := ⟨lit 0, x.exponent, x.mantissa, x.isAbnormal⟩

/-- `Neg`, /repo/float/float.go:655-664. -/
def fNeg (x : FV V) : m (FV V) := do
  let negSign := sub (lit 1) x.sign
  Api.mark negSign
  pure ⟨negSign, x.exponent, x.mantissa, x.isAbnormal⟩

/-- `Sub`, /repo/float/float.go:668-670. -/
def fSub (f : Fmt) (x y : FV V) : m (FV V) := do
  let n ← fNeg y
  fAdd f x n

/-- The `shift` argument passed to `round` by `Mul` and `Div`, /repo/float/float.go:720-728, 820-828. -/
def subnormalShift (f : Fmt) (exponent : V) (shiftMax : ℕ) : m V := do
  let t ← gMin (sub (lit ((f.eNormalMin : ℤ) : ZMod p)) exponent) (lit (shiftMax : ZMod p)) (f.E + 1)
  gMax t (lit 0) (f.E + 1)

/-- `Mul`, /repo/float/float.go:673-754. -/
def fMul (f : Fmt) (x y : FV V) : m (FV V) := do
  let sign ← Api.xor x.sign y.sign
  let mantissa ← Api.mul x.mantissa y.mantissa
  let mantissaBitLength := (f.M + 1) * 2
  let mantissaMsb ← Api.hint [mantissa] fun l => nthBitHint (l.getD 0 0) (mantissaBitLength - 1)
  Api.assertBool mantissaMsb
  Api.check (sub mantissa (scale mantissaMsb (tw (mantissaBitLength - 1)))) (mantissaBitLength - 1) .smallAbs
  let dbl ← Api.select mantissaMsb (lit 0) mantissa
  let mantissa := add mantissa dbl
  let exponent := add (add x.exponent y.exponent) mantissaMsb
  let shiftMax := f.M + 2
  let shift ← subnormalShift f exponent shiftMax
  let mantissa ← round f mantissa mantissaBitLength shift shiftMax (lit 1)
  let mantissaIsZero ← Api.isZero mantissa
  let inputIsAbnormal ← Api.or x.isAbnormal y.isAbnormal
  let r ← fixOverflow f mantissa mantissaIsZero exponent inputIsAbnormal
  let mm ← Api.select mantissaIsZero (lit 0) r.1
  pure ⟨sign, r.2.1, mm, r.2.2⟩

/-- `Div`, /repo/float/float.go:757-858. -/
def fDiv (f : Fmt) (x y : FV V) : m (FV V) := do
  let sign ← Api.xor x.sign y.sign
  let yIsZero ← Api.isZero y.mantissa
  let yMantissa ← Api.select yIsZero (lit (tw f.M)) y.mantissa
  let mantissaBitLength := (f.M + 2) + 1
  let mantissa ← Api.hint [x.mantissa, yMantissa] fun l => divHint (l.getD 0 0) (l.getD 1 0) (f.M + 2)
  let mantissaMsb ← Api.hint [mantissa] fun l => nthBitHint (l.getD 0 0) (f.M + 2)
  Api.assertBool mantissaMsb
  let flippedMantissaMsb := sub (lit 1) mantissaMsb
  Api.mark flippedMantissaMsb
  let prod ← Api.mul mantissa yMantissa
  let remainder := sub (scale x.mantissa (tw (f.M + 2))) prod
  Api.check remainder (f.M + 1) .loose
  Api.check (sub yMantissa (add remainder (lit 1))) (f.M + 1) .loose
  Api.check (sub mantissa (scale mantissaMsb (tw (mantissaBitLength - 1)))) (mantissaBitLength - 1) .unknown
  let dbl ← Api.select mantissaMsb (lit 0) mantissa
  let mantissa := add mantissa dbl
  let exponent := sub (sub x.exponent y.exponent) flippedMantissaMsb
  let shiftMax := f.M + 2
  let shift ← subnormalShift f exponent shiftMax
  let remIsZero ← Api.isZero remainder
  let mantissa ← round f mantissa mantissaBitLength shift shiftMax remIsZero
  let mIsZero ← Api.isZero mantissa
  let mantissaIsZero ← Api.or mIsZero y.isAbnormal
  let inputIsAbnormal ← Api.or x.isAbnormal yIsZero
  let r ← fixOverflow f mantissa mantissaIsZero exponent inputIsAbnormal
  let mm ← Api.select mantissaIsZero (lit 0) r.1
  pure ⟨sign, r.2.1, mm, r.2.2⟩

/-- `Sqrt`, /repo/float/float.go:860-958. -/
def fSqrt (f : Fmt) (x : FV V) : m (FV V) := do
  let eLsb ← Api.hint [sub x.exponent (lit ((sqrtDelta f : ℤ) : ZMod p))] fun l => nthBitHint (l.getD 0 0) 0
  Api.assertBool eLsb
  let half ← Api.inverse (lit (2 : ZMod p))
  let exponent ← Api.mul (sub x.exponent eLsb) half
  let _ ← gAbs exponent (f.E - 1)
  let mantissaBitLength := f.M + 3
  let mm := scale x.mantissa (tw (mantissaBitLength * 2 - (f.M + 2)))
  let mm ← Api.select eLsb (add mm mm) mm
  let n ← Api.hint [mm] fun l => sqrtHint (l.getD 0 0)
  let nn ← Api.mul n n
  let r := sub mm nn
  Api.check r (mantissaBitLength + 1) .loose
  Api.check (sub (add n n) r) (mantissaBitLength + 1) .loose
  let nIsZero ← Api.isZero n
  let nIsNotZero := sub (lit 1) nIsZero
  Api.mark nIsNotZero
  let rIsZero ← Api.isZero r
  let mantissa ← round f n mantissaBitLength (lit 0) 0 rIsZero
  let negNonzero ← Api.and x.sign nIsNotZero
  let isAbnormal ← Api.or negNonzero x.isAbnormal
  let e1 ← Api.select nIsZero (lit ((f.eMin : ℤ) : ZMod p)) exponent
  let e ← Api.select isAbnormal (lit ((f.eMax : ℤ) : ZMod p)) e1
  let mant ← Api.select x.sign (lit 0) mantissa
  pure ⟨x.sign, e, mant, isAbnormal⟩

/-- `less`, /repo/float/float.go:960-1029. -/
def fLess (f : Fmt) (x y : FV V) (allowEq : ℕ) : m V := do
  let xeGeYe ← gIsPositive (sub x.exponent y.exponent) (f.E + 1)
  let xmGeYm ← gIsPositive (sub x.mantissa y.mantissa) (f.M + 1)
  let nan ← eitherNaN x y
  let m1 ← Api.select x.sign xmGeYm (sub (lit 1) xmGeYm)
  let c1 ← gIsEq x.mantissa y.mantissa
  let m2 ← Api.select c1 (lit (allowEq : ZMod p)) m1
  let e1 ← Api.select x.sign xeGeYe (sub (lit 1) xeGeYe)
  let c2 ← gIsEq x.exponent y.exponent
  let same ← Api.select c2 m2 e1
  let c3 ← Api.isZero (add x.mantissa y.mantissa)
  let diff ← Api.select c3 (lit (allowEq : ZMod p)) x.sign
  let c4 ← gIsEq x.sign y.sign
  let r ← Api.select c4 same diff
  let b ← Api.select nan (lit 0) r
  Api.mark b
  pure b

/-- `IsLt`, /repo/float/float.go:1031-1033. -/
def fIsLt (f : Fmt) (x y : FV V) : m V := fLess f x y 0
/-- `IsLe`, /repo/float/float.go:1035-1037. -/
def fIsLe (f : Fmt) (x y : FV V) : m V := fLess f x y 1
/-- `IsGt`, /repo/float/float.go:1039-1041. -/
def fIsGt (f : Fmt) (x y : FV V) : m V := fLess f y x 0
/-- `IsGe`, /repo/float/float.go:1043-1045. -/
def fIsGe (f : Fmt) (x y : FV V) : m V := fLess f y x 1

/-- `AssertIsEqualOrCustomULP32` / `...64`, /repo/float/float.go:386-445. -/
def fAssertIsEqualOrCustomULP (f : Fmt) (x y : FV V) (ulp : ℕ) : m Unit := do
  assertSameSign x y
  let d ← fSub f x y
  let cmp ← fIsLe f (fAbs d) (newConstant f ulp)
  let condOne ← gIsEq cmp (lit 1)
  let condTwo ← sameData x y
  let ok ← Api.or condOne condTwo
  Api.assertEq ok (lit 1)

/-- `Trunc`, /repo/float/float.go:1047-1079. -/
def fTrunc (f : Fmt) (x : FV V) : m (FV V) := do
  let eGe0 ← gIsPositive x.exponent f.E
  let e ← Api.select eGe0 x.exponent (lit (-1))
  let k ← gMax (sub (lit (f.M : ZMod p)) e) (lit 0) f.E
  let twoToE ← queryPowerOf2 f.pow2Size k
  let inv ← Api.inverse twoToE
  let mm ← Api.mul (scale x.mantissa (tw (f.M + 1))) inv
  let q ← Api.hint [mm] fun l => truncHint (l.getD 0 0) (f.M + 1)
  let r := sub mm (scale q (tw (f.M + 1)))
  Api.check q (f.M + 1) .loose
  Api.check r (f.M + 1) .smallAbs
  let e' ← Api.select eGe0 x.exponent (lit ((f.eMin : ℤ) : ZMod p))
  let mant ← Api.mul q twoToE
  pure ⟨x.sign, e', mant, x.isAbnormal⟩

/-- `Floor`, /repo/float/float.go:1081-1132. -/
def fFloor (f : Fmt) (x : FV V) : m (FV V) := do
  let eGe0 ← gIsPositive x.exponent f.E
  let e ← Api.select eGe0 x.exponent (lit (-1))
  let k ← gMax (sub (lit (f.M : ZMod p)) e) (lit 0) f.E
  let twoToE ← queryPowerOf2 f.pow2Size k
  let inv ← Api.inverse twoToE
  let mm ← Api.mul (scale x.mantissa (tw (f.M + 1))) inv
  let q ← Api.hint [mm, x.sign] fun l => floorHint (l.getD 0 0) (f.M + 1) (l.getD 1 0)
  let r := sub mm (scale q (tw (f.M + 1)))
  Api.check q (f.M + 1) .loose
  let ar ← Api.select x.sign (neg r) r
  Api.check ar (f.M + 1) .smallAbs
  let mantissa ← Api.mul q twoToE
  let mantissaOverflow ← gIsEq mantissa (lit (tw (f.M + 1)))
  let mantissa ← Api.select mantissaOverflow (lit (tw f.M)) mantissa
  let e := add e mantissaOverflow
  let z0 ← Api.isZero mantissa
  let z ← Api.and z0 (sub (lit 1) x.isAbnormal)
  let e' ← Api.select z (lit ((f.eMin : ℤ) : ZMod p)) e
  pure ⟨x.sign, e', mantissa, x.isAbnormal⟩

/-- `Ceil`, /repo/float/float.go:1134-1136. -/
def fCeil (f : Fmt) (x : FV V) : m (FV V) := do
  let n ← fNeg x
  let r ← fFloor f n
  fNeg r

/-- `ToInt`, /repo/float/float.go:1142-1155. -/
def fToInt (f : Fmt) (x : FV V) : m V := do
  let exponentIsMin ← gIsEq x.exponent (lit ((f.eMin : ℤ) : ZMod p))
  let e ← Api.select exponentIsMin (lit 0) x.exponent
  let twoToE ← queryPowerOf2 f.pow2Size e
  let inv ← Api.inverse (lit (tw f.M : ZMod p))
  let v1 ← Api.mul x.mantissa twoToE
  let v ← Api.mul v1 inv
  Api.select x.sign (neg v) v

/-- `Select`, /repo/float/float.go:1157-1164. -/
def fSelect (c : V) (x y : FV V) : m (FV V) := do
  let s ← Api.select c x.sign y.sign
  let e ← Api.select c x.exponent y.exponent
  let mm ← Api.select c x.mantissa y.mantissa
  let a ← Api.select c x.isAbnormal y.isAbnormal
  pure ⟨s, e, mm, a⟩

end ZkLoc.R1cs
