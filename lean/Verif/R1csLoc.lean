import Verif.R1csTests
import Verif.Loc2Index

/-!
# The circuits of the location tests as programs against `frontend.API`

The same code as in Math.lean and Loc2Index.lean, call by call, for any meaning of the calls. Line numbers without a file refer to /repo/loc2index32/loc2index32.go.
-/

namespace ZkLoc.R1cs

open Ops

/-- One call that `Api` lacks: the constraint `(1 - p - a) * a = 0` of gnark's `MustBeLessOrEqCst`, where `p` is the constant 1. -/
class ApiZero (V : outParam Type) (m : Type → Type) where
  zeroBit : V → m Unit

instance circZero (p : ℕ) : ApiZero (ZMod p) (Circ p) := ⟨fun a => .assert (decide (a = 0)) (.pure ())⟩
instance bldZero (p : ℕ) : ApiZero (Lin p) (Bld p) := ⟨fun a => constrain (((Lin.lit 1).sub (.lit 1)).sub a) a (.lit 0)⟩

/-- The nine floats carried by the loop of `closestFaceCalculations`, lines 53-61. -/
structure FD (V : Type) where
  sqDist : FV V
  sinFaceLat : FV V
  cosFaceLat : FV V
  sinFaceLng : FV V
  cosFaceLng : FV V
  sinAzimuth : FV V
  cosAzimuth : FV V
  sinAzimuthRot : FV V
  cosAzimuthRot : FV V

section
variable {p : ℕ} {V : Type} {m : Type → Type} [Ops p V] [Api p V m]

/-- One bit of `api.ToBinary`, gnark `std/math/bits`: a hint wire, asserted boolean. -/
def bitWire (v : V) (i : ℕ) : m V := do
  let bit ← Api.hint [v] fun l => some (((l.getD 0 0).val / 2 ^ i % 2 : ℕ) : ZMod p)
  Api.assertBool bit
  pure bit

/-- `api.ToBinary(v, 4)`, gnark: four bits, least significant first, whose weighted sum is asserted to be `v`. -/
def toBinary4 (v : V) : m (V × V × V × V) := do
  let b0 ← bitWire v 0
  let b1 ← bitWire v 1
  let b2 ← bitWire v 2
  let b3 ← bitWire v 3
  Api.assertEq (add b0 (scale (add b1 (scale (add b2 (scale b3 2)) 2)) 2)) v
  pure (b0, b1, b2, b3)

/-- The constraint on one bit of a number compared with 15. -/
def leBit [ApiZero V m] (i : ℕ) (bit : V) : m Unit := if i < 4 then Api.assertBool bit else ApiZero.zeroBit bit

/-- The bits of `api.AssertIsLessOrEqual(v, 15)` from the `i`-th on, gnark: `ToBinary` with unconstrained outputs, one bit for each bit of the field, then `MustBeLessOrEqCst`, which asserts the bits
under the trailing ones of the bound boolean and the others zero. (gnark makes all bits before it constrains them.) -/
def leBits [ApiZero V m] (v : V) : ℕ → ℕ → V → m Unit
  | 0, _, acc => Api.assertEq acc v
  | n + 1, i, acc => do
    let bit ← Api.hint [v] fun l => some (((l.getD 0 0).val / 2 ^ i % 2 : ℕ) : ZMod p)
    leBit i bit
    leBits v n (i + 1) (add acc (scale bit (2 ^ i)))

/-- `api.AssertIsLessOrEqual(v, 15)` for a field of `nbBits` bits. -/
def lessOrEqual15 [ApiZero V m] (nbBits : ℕ) (v : V) : m Unit := leBits v nbBits 0 (lit 0)

/-- The next partial sum, /repo/math/math.go:280-284 (32) and 238-242 (64). -/
def sinTerm (f : Fmt) (even : Bool) (ret term : FV V) : m (FV V) := if even then fSub f ret term else fAdd f ret term

/-- The loop of `SinTaylor32`/`SinTaylor64`, /repo/math/math.go:279-291 (32) and 237-249 (64), for the iterations
whose denominators `2i(2i+1)` are given as bit patterns; `even` tells whether the next `i` is even. -/
def sinLoop (f : Fmt) (xSquare : FV V) : List ℕ → Bool → FV V → FV V → m (FV V)
  | [], _, ret, _ => pure ret
  | d :: ds, even, ret, term => do
    let ret' ← sinTerm f even ret term
    let nominator ← fMul f term xSquare
    let term' ← fDiv f nominator (newConstant f d)
    sinLoop f xSquare ds (!even) ret' term'

/-- The part of `SinTaylor32`/`SinTaylor64` after the folding decision: from the magnitude of the folded argument,
/repo/math/math.go:270-291 (32) and 228-249 (64). -/
def sinMag (f : Fmt) (ds : List ℕ) (e mant : V) : m (FV V) := do
  let term : FV V := ⟨lit 0, e, mant, lit 0⟩
  let xSquare ← fMul f term term
  sinLoop f xSquare ds false (newConstant f 0) term

/-- `SinTaylor32`, /repo/math/math.go:255-295, and `SinTaylor64`, /repo/math/math.go:213-253. -/
def sinTaylor (f : Fmt) (k : TrigConsts) (ds : List ℕ) (x : FV V) : m (FV V) := do
  let greaterHalfPi ← fIsGt f x (newConstant f k.halfPi)
  let folding ← fSub f (newConstant f k.pi) x
  let e ← Api.select greaterHalfPi folding.exponent x.exponent
  let mm ← Api.select greaterHalfPi folding.mantissa x.mantissa
  let ret ← sinMag f ds e mm
  pure { ret with sign := x.sign }

/-- The square-and-multiply loop of `scaleR`, lines 19-28. -/
def scaleLoop (f : Fmt) : List V → List ℕ → FV V → m (FV V)
  | bit :: bits, power :: powers, multiplier => do
    let t ← fMul f multiplier (newConstant f power)
    let e ← Api.select bit t.exponent multiplier.exponent
    let mm ← Api.select bit t.mantissa multiplier.mantissa
    scaleLoop f bits powers ⟨lit 0, e, mm, lit 0⟩
  | _, _, multiplier => pure multiplier

/-- `scaleR`, lines 13-31. -/
def scaleR (f : Fmt) (g : GeoConsts) (r : FV V) (resolution : V) : m (FV V) := do
  let bits ← toBinary4 resolution
  let multiplier ← scaleLoop f [bits.1, bits.2.1, bits.2.2.1, bits.2.2.2] g.powers (newConstant f g.one)
  fMul f r multiplier

/-- `calculateR`, lines 38-49. -/
def calculateR (f : Fmt) (g : GeoConsts) (sqDist : FV V) (resolution : V) : m (FV V) := do
  let d4 ← fSub f (newConstant f g.four) sqDist
  let nominator ← fMul f d4 sqDist
  let divisor ← fSub f (newConstant f g.two) sqDist
  let sqrNom ← fSqrt f nominator
  let quotient ← fDiv f sqrNom divisor
  let r ← fDiv f quotient (newConstant f g.resConst)
  scaleR f g r resolution

/-- The squared distance to the centre of one face, lines 67-77. -/
def faceDist (f : Fmt) (c : Face) (x2 y2 z2 : FV V) : m (FV V) := do
  let d1 ← fSub f (newConstant f c.px) x2
  let s1 ← fMul f d1 d1
  let d2 ← fSub f (newConstant f c.py) y2
  let s2 ← fMul f d2 d2
  let d3 ← fSub f (newConstant f c.pz) z2
  let s3 ← fMul f d3 d3
  let tmp ← fAdd f s1 s2
  fAdd f tmp s3

/-- One iteration of the loop, lines 66-93. -/
def faceStep (f : Fmt) (c : Face) (x2 y2 z2 : FV V) (s : FD V) : m (FD V) := do
  let dist ← faceDist f c x2 y2 z2
  let check ← fIsGt f s.sqDist dist
  let sqDist ← fSelect check dist s.sqDist
  let sinFaceLat ← fSelect check (newConstant f c.sinLat) s.sinFaceLat
  let cosFaceLat ← fSelect check (newConstant f c.cosLat) s.cosFaceLat
  let sinFaceLng ← fSelect check (newConstant f c.sinLng) s.sinFaceLng
  let cosFaceLng ← fSelect check (newConstant f c.cosLng) s.cosFaceLng
  let sinAzimuth ← fSelect check (newConstant f c.sinAz) s.sinAzimuth
  let cosAzimuth ← fSelect check (newConstant f c.cosAz) s.cosAzimuth
  let sinAzimuthRot ← fSelect check (newConstant f c.sinAzRot) s.sinAzimuthRot
  let cosAzimuthRot ← fSelect check (newConstant f c.cosAzRot) s.cosAzimuthRot
  pure ⟨sqDist, sinFaceLat, cosFaceLat, sinFaceLng, cosFaceLng, sinAzimuth, cosAzimuth, sinAzimuthRot, cosAzimuthRot⟩

/-- The loop over the faces, line 65. -/
def faceLoop (f : Fmt) (x2 y2 z2 : FV V) : List Face → FD V → m (FD V)
  | [], s => pure s
  | c :: cs, s => do
    let s' ← faceStep f c x2 y2 z2 s
    faceLoop f x2 y2 z2 cs s'

/-- The values before the loop, lines 53-61. -/
def faceInit (f : Fmt) (g : GeoConsts) : FD V :=
  ⟨newConstant f g.five, newConstant f 0, newConstant f 0, newConstant f 0, newConstant f 0, newConstant f 0, newConstant f 0,
    newConstant f 0, newConstant f 0⟩

/-- `closestFaceCalculations`, lines 51-101 (the argument `lng` is not used by the code). -/
def closestFace (f : Fmt) (g : GeoConsts) (x2 y2 z2 : FV V) : m (FD V) :=
  faceLoop f x2 y2 z2 g.faces (faceInit f g)

/-- `calculateHex2d`, lines 103-138. `ToBinary(resolution, 4)[0]` always exists. -/
def calculateHex2d (f : Fmt) (sinLat cosLat sinLng cosLng : FV V) (d : FD V) (r : FV V) (resolution : V) :
    m (FV V × FV V) := do
  let bits ← toBinary4 resolution
  let isClassIII := bits.1
  let m1 ← fMul f sinLng d.cosFaceLng
  let m2 ← fMul f cosLng d.sinFaceLng
  let s1 ← fSub f m1 m2
  let y ← fMul f cosLat s1
  let m3 ← fMul f d.cosFaceLat sinLat
  let m4 ← fMul f d.sinFaceLat cosLat
  let m5 ← fMul f cosLng d.cosFaceLng
  let m6 ← fMul f sinLng d.sinFaceLng
  let a1 ← fAdd f m5 m6
  let m7 ← fMul f m4 a1
  let x ← fSub f m3 m7
  let sinAz ← fSelect isClassIII d.sinAzimuthRot d.sinAzimuth
  let cosAz ← fSelect isClassIII d.cosAzimuthRot d.cosAzimuth
  let xx ← fMul f x x
  let yy ← fMul f y y
  let zz ← fAdd f xx yy
  let z ← fSqrt f zz
  let sinP ← fDiv f y z
  let cosP ← fDiv f x z
  let n1 ← fMul f sinAz cosP
  let n2 ← fMul f cosAz sinP
  let sin ← fSub f n1 n2
  let n3 ← fMul f cosAz cosP
  let n4 ← fMul f sinAz sinP
  let cos ← fAdd f n3 n4
  let u ← fMul f cos r
  let v ← fMul f sin r
  pure (u, v)

/-- `NormalizeIJK`, lines 219-266. -/
def normalizeIJK (iNeg i jNeg j kNeg k : V) : m (V × V × V) := do
  let iGreaterj ← gIsPositive (sub i j) 32
  let jAbs ← Api.select iGreaterj (sub i j) (sub j i)
  let jTmp ← Api.select jNeg jAbs (add i j)
  let jTmpNeg ← Api.select jNeg (sub (lit 1) iGreaterj) (lit 0)
  let iGreaterk ← gIsPositive (sub i k) 32
  let kAbs ← Api.select iGreaterk (sub i k) (sub k i)
  let kTmp ← Api.select kNeg kAbs (add i k)
  let kTmpNeg ← Api.select kNeg (sub (lit 1) iGreaterk) (lit 0)
  let i1 ← Api.select iNeg (lit 0) i
  let j1 ← Api.select iNeg jTmp j
  let jNeg1 ← Api.select iNeg jTmpNeg jNeg
  let k1 ← Api.select iNeg kTmp k
  let kNeg1 ← Api.select iNeg kTmpNeg kNeg
  let jGreaterk ← gIsPositive (sub j1 k1) 32
  let kAbs2 ← Api.select jGreaterk (sub j1 k1) (sub k1 j1)
  let kTmp2 ← Api.select kNeg1 kAbs2 (add j1 k1)
  let kTmpNeg2 ← Api.select kNeg1 (sub (lit 1) jGreaterk) (lit 0)
  let i2 ← Api.select jNeg1 (add i1 j1) i1
  let j2 ← Api.select jNeg1 (lit 0) j1
  let k2 ← Api.select jNeg1 kTmp2 k1
  let kNeg2 ← Api.select jNeg1 kTmpNeg2 kNeg1
  let i3 ← Api.select kNeg2 (add i2 k2) i2
  let j3 ← Api.select kNeg2 (add j2 k2) j2
  let k3 ← Api.select kNeg2 (lit 0) k2
  let iGreaterj2 ← gIsPositive (sub i3 j3) 32
  let min1 ← Api.select iGreaterj2 j3 i3
  let c ← gIsPositive (sub min1 k3) 32
  let min2 ← Api.select c k3 min1
  pure (sub i3 min2, sub j3 min2, sub k3 min2)

/-- The fold across the axes at the end of `hex2dToCoordIJK`, lines 202-215, up to the call of `NormalizeIJK`: sign and magnitude of `i`. -/
def foldAxes (xSign ySign i j : V) : m (V × V) := do
  let iGreater ← gIsPositive (sub i j) 32
  let n1 ← Api.select ySign (lit 1) iGreater
  let n2 ← Api.select ySign (sub (lit 1) iGreater) (lit 0)
  let iNeg ← Api.select xSign n1 n2
  let d1 ← Api.select iGreater (sub i j) (sub j i)
  let v1 ← Api.select ySign i d1
  let d2 ← Api.select iGreater (sub i j) (sub j i)
  let v2 ← Api.select ySign d2 i
  let i' ← Api.select xSign v1 v2
  pure (iNeg, i')

/-- The rounding part of `hex2dToCoordIJK`, lines 144-200: the coordinates of the magnitudes. -/
def quadrantIJ (f : Fmt) (g : GeoConsts) (x y : FV V) : m (V × V) := do
  let a1 := fAbs x
  let a2 := fAbs y
  let x2 ← fDiv f a2 (newConstant f g.sin60)
  let tmp ← fDiv f x2 (newConstant f g.two)
  let x1 ← fAdd f a1 tmp
  let m1 ← fFloor f x1
  let m2 ← fFloor f x2
  let m1int ← fToInt f m1
  let m2int ← fToInt f m2
  let r1 ← fSub f x1 m1
  let r2 ← fSub f x2 m2
  let doubleR1 ← fAdd f r1 r1
  let m1PlusOne := add m1int (lit 1)
  let m2PlusOne := add m2int (lit 1)
  let r1CaseA ← fIsLt f r1 (newConstant f g.half)
  let r1CaseA1 ← fIsLt f r1 (newConstant f g.third)
  let r1CaseB1 ← fIsLt f r1 (newConstant f g.twoThirds)
  let oneMinus ← fSub f (newConstant f g.one) r1
  let iCaseA2First ← fIsLe f oneMinus r2
  let iCaseA2Second ← fIsGt f doubleR1 r2
  let doubleOneMinus ← fSub f doubleR1 (newConstant f g.one)
  let iCaseB1First ← fIsGt f r2 doubleOneMinus
  let iCaseB1Second ← fIsGt f oneMinus r2
  let s1 ← Api.select iCaseA2Second m1PlusOne m1int
  let s2 ← Api.select iCaseA2First s1 m1int
  let s3 ← Api.select r1CaseA1 m1int s2
  let s4 ← Api.select iCaseB1Second m1int m1PlusOne
  let s5 ← Api.select iCaseB1First s4 m1PlusOne
  let s6 ← Api.select r1CaseB1 s5 m1PlusOne
  let iCoord ← Api.select r1CaseA s3 s6
  let onePlus ← fAdd f r1 (newConstant f g.one)
  let valueR2PathA ← fDiv f onePlus (newConstant f g.two)
  let valueR2PathB ← fDiv f r1 (newConstant f g.two)
  let check1 ← fIsGt f valueR2PathA r2
  let check2 ← fIsGt f oneMinus r2
  let check3 ← fIsGt f valueR2PathB r2
  let t1 ← Api.select check1 m2int m2PlusOne
  let t2 ← Api.select check2 m2int m2PlusOne
  let caseAj ← Api.select r1CaseA1 t1 t2
  let t3 ← Api.select check2 m2int m2PlusOne
  let t4 ← Api.select check3 m2int m2PlusOne
  let caseBj ← Api.select r1CaseB1 t3 t4
  let jCoord ← Api.select r1CaseA caseAj caseBj
  pure (iCoord, jCoord)

/-- `hex2dToCoordIJK`, lines 141-216. -/
def hex2dToCoordIJK (f : Fmt) (g : GeoConsts) (x y : FV V) : m (V × V × V) := do
  let ij ← quadrantIJ f g x y
  let r ← foldAxes x.sign y.sign ij.1 ij.2
  normalizeIJK r.1 r.2 y.sign ij.2 (lit 0) (lit 0)

/-- The part common to all location circuits, /repo/loc2index32/loc2index32_test.go:137-146, 245-258 and
/repo/loc2index64/loc2index64_test.go:150-161: from sines and cosines to the cell coordinates. -/
def locCell (f : Fmt) (g : GeoConsts) (sinLat cosLat sinLng cosLng : FV V) (resolution : V) :
    m (V × V × V) := do
  let x ← fMul f cosLat cosLng
  let y ← fMul f cosLat sinLng
  let near ← closestFace f g x y sinLat
  let r ← calculateR f g near.sqDist resolution
  let hex2d ← calculateHex2d f sinLat cosLat sinLng cosLng near r resolution
  hex2dToCoordIJK f g hex2d.1 hex2d.2

/-- The comparison with the public cell, e.g. /repo/loc2index32/loc2index32_test.go:148-150. -/
def assertCell (ijk : V × V × V) (I J K : V) : m Unit := do
  Api.assertEq I ijk.1
  Api.assertEq J ijk.2.1
  Api.assertEq K ijk.2.2

/-- The beginning of all location circuits, /repo/loc2index32/loc2index32_test.go:39-51, 215-228: the inputs are allocated and bounded. -/
def locInputs [ApiZero V m] (nbBits : ℕ) (f : Fmt) (g : GeoConsts) (Lat Lng Resolution : V) : m (FV V × FV V) := do
  let lat ← newFloat f Lat
  let lng ← newFloat f Lng
  let c1 ← fIsGt f lat (newConstant f g.halfPi)
  Api.assertEq c1 (lit 0)
  let c2 ← fIsGt f lng (newConstant f g.pi)
  Api.assertEq c2 (lit 0)
  lessOrEqual15 nbBits Resolution
  pure (lat, lng)

/-- The argument of the second `SinTaylor32` in `loc2Index32CircuitWrapper.Define`, /repo/loc2index32/loc2index32_test.go:234-243 (also computed,
but not used, in /repo/loc2index64/loc2index64_test.go:53-64): `lng + π/2` brought below `π`. -/
def shiftedLng (f : Fmt) (g : GeoConsts) (lng : FV V) : m (FV V) := do
  let tmp ← fAdd f lng (newConstant f g.halfPi)
  let isGreater ← fIsGt f tmp (newConstant f g.pi)
  let shifted ← fSub f tmp (newConstant f g.twoPi)
  let s ← Api.select isGreater shifted.sign tmp.sign
  let e ← Api.select isGreater shifted.exponent tmp.exponent
  let mm ← Api.select isGreater shifted.mantissa tmp.mantissa
  pure ⟨s, e, mm, lit 0⟩

/-- The four trigonometric values of `loc2Index32CircuitWrapper.Define`, /repo/loc2index32/loc2index32_test.go:230-251:
`(sin lat, cos lat, sin lng, cos lng)`. The multiplications that the code interleaves are in `locCell`. -/
def wrapperTrig (f : Fmt) (k : TrigConsts) (ds : List ℕ) (g : GeoConsts) (lat lng : FV V) :
    m (FV V × FV V × FV V × FV V) := do
  let term ← fAdd f lat (newConstant f g.halfPi)
  let cosLat ← sinTaylor f k ds term
  let t ← shiftedLng f g lng
  let cosLng ← sinTaylor f k ds t
  let sinLng ← sinTaylor f k ds lng
  let z ← sinTaylor f k ds lat
  pure (z, cosLat, sinLng, cosLng)

/-- `loc2Index32CircuitWrapper.Define`, /repo/loc2index32/loc2index32_test.go:213-265: the circuit that computes sines and cosines itself
(there is no such circuit for double precision; the constants are parameters). -/
def wrapperCircuit [ApiZero V m] (nbBits : ℕ) (f : Fmt) (k : TrigConsts) (ds : List ℕ) (g : GeoConsts) (Lat Lng Resolution I J K : V) : m Unit := do
  let inp ← locInputs nbBits f g Lat Lng Resolution
  let t ← wrapperTrig f k ds g inp.1 inp.2
  let ijk ← locCell f g t.1 t.2.1 t.2.2.1 t.2.2.2 Resolution
  assertCell ijk I J K


end

end ZkLoc.R1cs
