import Verif.Math
import Verif.GeoTables

/-!
# Model of /repo/loc2index32/loc2index32.go and /repo/loc2index64/loc2index64.go

The two packages contain the same code with different constants (`GeoConsts`); line numbers refer to loc2index32.go.
-/

namespace ZkLoc

variable {p : ℕ}

/-- The bit wires of `api.ToBinary(v, n)`, gnark: `n` hint wires, each asserted boolean. -/
def bitWires (v : ZMod p) : ℕ → ℕ → Circ p (List (ZMod p))
  | 0, _ => pure []
  | n + 1, i => do
    let bit ← newHint (some ((v.val / 2 ^ i % 2 : ℕ) : ZMod p))
    assertIsBoolean bit
    let rest ← bitWires v n (i + 1)
    pure (bit :: rest)

/-- `api.ToBinary(v, n)`, gnark: the bits, least significant first, whose weighted sum is asserted to be `v`. -/
def toBinary (v : ZMod p) (n : ℕ) : Circ p (List (ZMod p)) := do
  let bits ← bitWires v n 0
  assertIsEqual (compose 1 bits) v
  pure bits

/-- `api.AssertIsLessOrEqual(v, bound)` for a constant bound, gnark (modelled by its documented meaning: comparison of the canonical
representatives). -/
def assertIsLessOrEqual (v : ZMod p) (bound : ℕ) : Circ p Unit := .assert (decide (v.val ≤ bound)) (pure ())

/-- The square-and-multiply loop of `scaleR`, lines 19-28. -/
def scaleLoop (f : Fmt) : List (ZMod p) → List ℕ → FloatVar p → Circ p (FloatVar p)
  | bit :: bits, power :: powers, multiplier => do
    let t ← fMul f multiplier (newConstant f power)
    let e ← select bit t.exponent multiplier.exponent
    let m ← select bit t.mantissa multiplier.mantissa
    scaleLoop f bits powers ⟨0, e, m, 0⟩
  | _, _, multiplier => pure multiplier

/-- `scaleR`, lines 13-31. -/
def scaleR (f : Fmt) (g : GeoConsts) (r : FloatVar p) (resolution : ZMod p) : Circ p (FloatVar p) := do
  let bits ← toBinary resolution 4
  let multiplier ← scaleLoop f bits g.powers (newConstant f g.one)
  fMul f r multiplier

/-- `calculateR`, lines 38-49. -/
def calculateR (f : Fmt) (g : GeoConsts) (sqDist : FloatVar p) (resolution : ZMod p) : Circ p (FloatVar p) := do
  let d4 ← fSub f (newConstant f g.four) sqDist
  let nominator ← fMul f d4 sqDist
  let divisor ← fSub f (newConstant f g.two) sqDist
  let sqrNom ← fSqrt f nominator
  let quotient ← fDiv f sqrNom divisor
  let r ← fDiv f quotient (newConstant f g.resConst)
  scaleR f g r resolution

/-- The nine floats carried by the loop of `closestFaceCalculations`, lines 53-61. -/
structure FaceData (p : ℕ) where
  sqDist : FloatVar p
  sinFaceLat : FloatVar p
  cosFaceLat : FloatVar p
  sinFaceLng : FloatVar p
  cosFaceLng : FloatVar p
  sinAzimuth : FloatVar p
  cosAzimuth : FloatVar p
  sinAzimuthRot : FloatVar p
  cosAzimuthRot : FloatVar p

/-- The squared distance to the centre of one face, lines 67-77. -/
def faceDist (f : Fmt) (c : Face) (x2 y2 z2 : FloatVar p) : Circ p (FloatVar p) := do
  let d1 ← fSub f (newConstant f c.px) x2
  let s1 ← fMul f d1 d1
  let d2 ← fSub f (newConstant f c.py) y2
  let s2 ← fMul f d2 d2
  let d3 ← fSub f (newConstant f c.pz) z2
  let s3 ← fMul f d3 d3
  let tmp ← fAdd f s1 s2
  fAdd f tmp s3

/-- One iteration of the loop, lines 66-93. -/
def faceStep (f : Fmt) (c : Face) (x2 y2 z2 : FloatVar p) (s : FaceData p) : Circ p (FaceData p) := do
  let dist ← faceDist f c x2 y2 z2
  let check ← fIsGt f s.sqDist dist
  let sqDist ← fSelect check dist s.sqDist
  let sinFaceLat ← fSelect check (newConstant f c.sinLat) s.sinFaceLat
  let cosFaceLat ← fSelect check (newConstant f c.cosLat) s.cosFaceLat
  let sinFaceLng ← fSelect check (newConstant f c.sinLng) s.sinFaceLng
  let cosFaceLng ← fSelect check (newConstant f c.cosLng) s.cosFaceLng
  let sinAzimuth ← fSelect check (newConstant f c.sinAz) s.sinAzimuth
  let cosAzimuth ← fSelect check (newConstant f c.cosAz) s.cosAzimuth
  let sinAzimuthRot ← fSelect check (newConstant f c.sinAzRot) s.sinAzimuthRot
  let cosAzimuthRot ← fSelect check (newConstant f c.cosAzRot) s.cosAzimuthRot
  pure ⟨sqDist, sinFaceLat, cosFaceLat, sinFaceLng, cosFaceLng, sinAzimuth, cosAzimuth, sinAzimuthRot, cosAzimuthRot⟩

/-- The loop over the faces, line 65. -/
def faceLoop (f : Fmt) (x2 y2 z2 : FloatVar p) : List Face → FaceData p → Circ p (FaceData p)
  | [], s => pure s
  | c :: cs, s => do
    let s' ← faceStep f c x2 y2 z2 s
    faceLoop f x2 y2 z2 cs s'

/-- The values before the loop, lines 53-61. -/
def faceInit (f : Fmt) (g : GeoConsts) : FaceData p :=
  ⟨newConstant f g.five, newConstant f 0, newConstant f 0, newConstant f 0, newConstant f 0, newConstant f 0, newConstant f 0,
    newConstant f 0, newConstant f 0⟩

/-- `closestFaceCalculations`, lines 51-101 (the argument `lng` is not used by the code). -/
def closestFace (f : Fmt) (g : GeoConsts) (x2 y2 z2 : FloatVar p) : Circ p (FaceData p) :=
  faceLoop f x2 y2 z2 g.faces (faceInit f g)

/-- `calculateHex2d`, lines 103-138. `ToBinary(resolution, 4)[0]` always exists. -/
def calculateHex2d (f : Fmt) (sinLat cosLat sinLng cosLng : FloatVar p) (d : FaceData p) (r : FloatVar p) (resolution : ZMod p) :
    Circ p (FloatVar p × FloatVar p) := do
  let bits ← toBinary resolution 4
  let isClassIII := bits.headD 0
  let m1 ← fMul f sinLng d.cosFaceLng
  let m2 ← fMul f cosLng d.sinFaceLng
  let s1 ← fSub f m1 m2
  let y ← fMul f cosLat s1
  let m3 ← fMul f d.cosFaceLat sinLat
  let m4 ← fMul f d.sinFaceLat cosLat
  let m5 ← fMul f cosLng d.cosFaceLng
  let m6 ← fMul f sinLng d.sinFaceLng
  let a1 ← fAdd f m5 m6
  let m7 ← fMul f m4 a1
  let x ← fSub f m3 m7
  let sinAz ← fSelect isClassIII d.sinAzimuthRot d.sinAzimuth
  let cosAz ← fSelect isClassIII d.cosAzimuthRot d.cosAzimuth
  let xx ← fMul f x x
  let yy ← fMul f y y
  let zz ← fAdd f xx yy
  let z ← fSqrt f zz
  let sinP ← fDiv f y z
  let cosP ← fDiv f x z
  let n1 ← fMul f sinAz cosP
  let n2 ← fMul f cosAz sinP
  let sin ← fSub f n1 n2
  let n3 ← fMul f cosAz cosP
  let n4 ← fMul f sinAz sinP
  let cos ← fAdd f n3 n4
  let u ← fMul f cos r
  let v ← fMul f sin r
  pure (u, v)

/-- `NormalizeIJK`, lines 219-266. -/
def normalizeIJK (iNeg i jNeg j kNeg k : ZMod p) : Circ p (ZMod p × ZMod p × ZMod p) := do
  let iGreaterj ← gIsPositive (i - j) 32
  let jAbs ← select iGreaterj (i - j) (j - i)
  let jTmp ← select jNeg jAbs (i + j)
  let jTmpNeg ← select jNeg (1 - iGreaterj) 0
  let iGreaterk ← gIsPositive (i - k) 32
  let kAbs ← select iGreaterk (i - k) (k - i)
  let kTmp ← select kNeg kAbs (i + k)
  let kTmpNeg ← select kNeg (1 - iGreaterk) 0
  let i1 ← select iNeg 0 i
  let j1 ← select iNeg jTmp j
  let jNeg1 ← select iNeg jTmpNeg jNeg
  let k1 ← select iNeg kTmp k
  let kNeg1 ← select iNeg kTmpNeg kNeg
  let jGreaterk ← gIsPositive (j1 - k1) 32
  let kAbs2 ← select jGreaterk (j1 - k1) (k1 - j1)
  let kTmp2 ← select kNeg1 kAbs2 (j1 + k1)
  let kTmpNeg2 ← select kNeg1 (1 - jGreaterk) 0
  let i2 ← select jNeg1 (i1 + j1) i1
  let j2 ← select jNeg1 0 j1
  let k2 ← select jNeg1 kTmp2 k1
  let kNeg2 ← select jNeg1 kTmpNeg2 kNeg1
  let i3 ← select kNeg2 (i2 + k2) i2
  let j3 ← select kNeg2 (j2 + k2) j2
  let k3 ← select kNeg2 0 k2
  let iGreaterj2 ← gIsPositive (i3 - j3) 32
  let min1 ← select iGreaterj2 j3 i3
  let c ← gIsPositive (min1 - k3) 32
  let min2 ← select c k3 min1
  pure (i3 - min2, j3 - min2, k3 - min2)

/-- The fold across the axes at the end of `hex2dToCoordIJK`, lines 202-215, up to the call of `NormalizeIJK`: sign and magnitude of `i`. -/
def foldAxes (xSign ySign i j : ZMod p) : Circ p (ZMod p × ZMod p) := do
  let iGreater ← gIsPositive (i - j) 32
  let n1 ← select ySign 1 iGreater
  let n2 ← select ySign (1 - iGreater) 0
  let iNeg ← select xSign n1 n2
  let d1 ← select iGreater (i - j) (j - i)
  let v1 ← select ySign i d1
  let d2 ← select iGreater (i - j) (j - i)
  let v2 ← select ySign d2 i
  let i' ← select xSign v1 v2
  pure (iNeg, i')

/-- The rounding part of `hex2dToCoordIJK`, lines 144-200: the coordinates of the magnitudes. -/
def quadrantIJ (f : Fmt) (g : GeoConsts) (x y : FloatVar p) : Circ p (ZMod p × ZMod p) := do
  let a1 := fAbs x
  let a2 := fAbs y
  let x2 ← fDiv f a2 (newConstant f g.sin60)
  let tmp ← fDiv f x2 (newConstant f g.two)
  let x1 ← fAdd f a1 tmp
  let m1 ← fFloor f x1
  let m2 ← fFloor f x2
  let m1int ← fToInt f m1
  let m2int ← fToInt f m2
  let r1 ← fSub f x1 m1
  let r2 ← fSub f x2 m2
  let doubleR1 ← fAdd f r1 r1
  let m1PlusOne := m1int + 1
  let m2PlusOne := m2int + 1
  let r1CaseA ← fIsLt f r1 (newConstant f g.half)
  let r1CaseA1 ← fIsLt f r1 (newConstant f g.third)
  let r1CaseB1 ← fIsLt f r1 (newConstant f g.twoThirds)
  let oneMinus ← fSub f (newConstant f g.one) r1
  let iCaseA2First ← fIsLe f oneMinus r2
  let iCaseA2Second ← fIsGt f doubleR1 r2
  let doubleOneMinus ← fSub f doubleR1 (newConstant f g.one)
  let iCaseB1First ← fIsGt f r2 doubleOneMinus
  let iCaseB1Second ← fIsGt f oneMinus r2
  let s1 ← select iCaseA2Second m1PlusOne m1int
  let s2 ← select iCaseA2First s1 m1int
  let s3 ← select r1CaseA1 m1int s2
  let s4 ← select iCaseB1Second m1int m1PlusOne
  let s5 ← select iCaseB1First s4 m1PlusOne
  let s6 ← select r1CaseB1 s5 m1PlusOne
  let iCoord ← select r1CaseA s3 s6
  let onePlus ← fAdd f r1 (newConstant f g.one)
  let valueR2PathA ← fDiv f onePlus (newConstant f g.two)
  let valueR2PathB ← fDiv f r1 (newConstant f g.two)
  let check1 ← fIsGt f valueR2PathA r2
  let check2 ← fIsGt f oneMinus r2
  let check3 ← fIsGt f valueR2PathB r2
  let t1 ← select check1 m2int m2PlusOne
  let t2 ← select check2 m2int m2PlusOne
  let caseAj ← select r1CaseA1 t1 t2
  let t3 ← select check2 m2int m2PlusOne
  let t4 ← select check3 m2int m2PlusOne
  let caseBj ← select r1CaseB1 t3 t4
  let jCoord ← select r1CaseA caseAj caseBj
  pure (iCoord, jCoord)

/-- `hex2dToCoordIJK`, lines 141-216. -/
def hex2dToCoordIJK (f : Fmt) (g : GeoConsts) (x y : FloatVar p) : Circ p (ZMod p × ZMod p × ZMod p) := do
  let ij ← quadrantIJ f g x y
  let r ← foldAxes x.sign y.sign ij.1 ij.2
  normalizeIJK r.1 r.2 y.sign ij.2 0 0

/-- The part common to all location circuits, /repo/loc2index32/loc2index32_test.go:137-146, 245-258 and
/repo/loc2index64/loc2index64_test.go:150-161: from sines and cosines to the cell coordinates. -/
def locCell (f : Fmt) (g : GeoConsts) (sinLat cosLat sinLng cosLng : FloatVar p) (resolution : ZMod p) :
    Circ p (ZMod p × ZMod p × ZMod p) := do
  let x ← fMul f cosLat cosLng
  let y ← fMul f cosLat sinLng
  let near ← closestFace f g x y sinLat
  let r ← calculateR f g near.sqDist resolution
  let hex2d ← calculateHex2d f sinLat cosLat sinLng cosLng near r resolution
  hex2dToCoordIJK f g hex2d.1 hex2d.2

/-- The comparison with the public cell, e.g. /repo/loc2index32/loc2index32_test.go:148-150. -/
def assertCell (ijk : ZMod p × ZMod p × ZMod p) (I J K : ZMod p) : Circ p Unit := do
  assertIsEqual I ijk.1
  assertIsEqual J ijk.2.1
  assertIsEqual K ijk.2.2

/-- The beginning of all location circuits, /repo/loc2index32/loc2index32_test.go:39-51, 215-228: the inputs are allocated and bounded. -/
def locInputs (f : Fmt) (g : GeoConsts) (Lat Lng Resolution : ZMod p) : Circ p (FloatVar p × FloatVar p) := do
  let lat ← newFloat f Lat
  let lng ← newFloat f Lng
  let c1 ← fIsGt f lat (newConstant f g.halfPi)
  assertIsEqual c1 0
  let c2 ← fIsGt f lng (newConstant f g.pi)
  assertIsEqual c2 0
  assertIsLessOrEqual Resolution 15
  pure (lat, lng)

/-- The argument of the second `SinTaylor32` in `loc2Index32CircuitWrapper.Define`, /repo/loc2index32/loc2index32_test.go:234-243 (also computed,
but not used, in /repo/loc2index64/loc2index64_test.go:53-64): `lng + π/2` brought below `π`. -/
def shiftedLng (f : Fmt) (g : GeoConsts) (lng : FloatVar p) : Circ p (FloatVar p) := do
  let tmp ← fAdd f lng (newConstant f g.halfPi)
  let isGreater ← fIsGt f tmp (newConstant f g.pi)
  let shifted ← fSub f tmp (newConstant f g.twoPi)
  let s ← select isGreater shifted.sign tmp.sign
  let e ← select isGreater shifted.exponent tmp.exponent
  let m ← select isGreater shifted.mantissa tmp.mantissa
  pure ⟨s, e, m, 0⟩

/-- The four trigonometric values of `loc2Index32CircuitWrapper.Define`, /repo/loc2index32/loc2index32_test.go:230-251:
`(sin lat, cos lat, sin lng, cos lng)`. The multiplications that the code interleaves are in `locCell`. -/
def wrapperTrig (f : Fmt) (k : TrigConsts) (ds : List ℕ) (g : GeoConsts) (lat lng : FloatVar p) :
    Circ p (FloatVar p × FloatVar p × FloatVar p × FloatVar p) := do
  let term ← fAdd f lat (newConstant f g.halfPi)
  let cosLat ← sinTaylor f k ds term
  let t ← shiftedLng f g lng
  let cosLng ← sinTaylor f k ds t
  let sinLng ← sinTaylor f k ds lng
  let z ← sinTaylor f k ds lat
  pure (z, cosLat, sinLng, cosLng)

/-- `loc2Index32CircuitWrapper.Define`, /repo/loc2index32/loc2index32_test.go:213-265: the circuit that computes sines and cosines itself
(there is no such circuit for double precision; the constants are parameters). -/
def wrapperCircuit (f : Fmt) (k : TrigConsts) (ds : List ℕ) (g : GeoConsts) (Lat Lng Resolution I J K : ZMod p) : Circ p Unit := do
  let inp ← locInputs f g Lat Lng Resolution
  let t ← wrapperTrig f k ds g inp.1 inp.2
  let ijk ← locCell f g t.1 t.2.1 t.2.2.1 t.2.2.2 Resolution
  assertCell ijk I J K

/-- Four of the sixteen outputs of `PrecomputeHint32`/`PrecomputeHint64` put into a float that `NewFloat(0)` had allocated,
/repo/loc2index32/loc2index32_test.go:62-81. `h` are the values computed by the hint function (floating-point trigonometry of the Go
library; see `Verif/Hints.lean`). -/
def hintFloat (h : FloatVar p) : Circ p (FloatVar p) := do
  let s ← newHint (some h.sign)
  let e ← newHint (some h.exponent)
  let m ← newHint (some h.mantissa)
  let a ← newHint (some h.isAbnormal)
  pure ⟨s, e, m, a⟩

/-- The values `α, β, γ, δ` of `PrecomputeHint32`/`PrecomputeHint64`, /repo/hint/hint.go:67-106: `tan`, `2γδ`, `sin` and `cos` of half the angle. -/
structure Pre (p : ℕ) where
  alpha : FloatVar p
  beta : FloatVar p
  gamma : FloatVar p
  delta : FloatVar p

/-- Allocation of the sixteen hint wires, /repo/loc2index32/loc2index32_test.go:53-81. -/
def precompute (f : Fmt) (h : Pre p) : Circ p (Pre p) := do
  let _ ← newFloat f 0
  let _ ← newFloat f 0
  let _ ← newFloat f 0
  let _ ← newFloat f 0
  let alpha ← hintFloat h.alpha
  let beta ← hintFloat h.beta
  let gamma ← hintFloat h.gamma
  let delta ← hintFloat h.delta
  pure ⟨alpha, beta, gamma, delta⟩

/-- The three checks on the hinted values, /repo/loc2index32/loc2index32_test.go:112-127 and /repo/loc2index64/loc2index64_test.go:125-141; how a
product is compared is a parameter (`cmp1`, `cmp2`, `cmp3`). -/
def preChecks (f : Fmt) (g : GeoConsts) (cmp1 cmp2 cmp3 : FloatVar p → FloatVar p → Circ p Unit) (v : Pre p) : Circ p Unit := do
  let dd ← fMul f v.delta v.delta
  let gg ← fMul f v.gamma v.gamma
  let identity ← fAdd f gg dd
  cmp1 identity (newConstant f g.one)
  let ad ← fMul f v.alpha v.delta
  cmp2 ad v.gamma
  let gd ← fMul f v.gamma v.delta
  let gd2 ← fMul f (newConstant f g.two) gd
  cmp3 gd2 v.beta

/-- `cos = δ² - γ²`, /repo/loc2index32/loc2index32_test.go:130-131. -/
def preCos (f : Fmt) (v : Pre p) : Circ p (FloatVar p) := do
  let dd ← fMul f v.delta v.delta
  let gg ← fMul f v.gamma v.gamma
  fSub f dd gg

/-- What follows the allocation of the hint wires in the precompute circuits. -/
def preTail (f : Fmt) (g : GeoConsts) (cLat cLng : Pre p → Circ p Unit) (Resolution I J K : ZMod p) (vLat vLng : Pre p) : Circ p Unit := do
  cLat vLat
  cLng vLng
  let cosLat ← preCos f vLat
  let cosLng ← preCos f vLng
  let ijk ← locCell f g vLat.beta cosLat vLng.beta cosLng Resolution
  assertCell ijk I J K

/-- `loc2Index32Circuit.Define`, /repo/loc2index32/loc2index32_test.go:37-153. The checks for latitude and longitude, which the code
interleaves, are grouped by angle. `1.0` is `0x3f800000`. -/
def precomputeCircuit32 (hLat hLng : Pre p) (Lat Lng Resolution I J K : ZMod p) : Circ p Unit := do
  let _ ← locInputs f32 geo32 Lat Lng Resolution
  let vLat ← precompute f32 hLat
  let vLng ← precompute f32 hLng
  let ulp := fun x y => fAssertIsEqualOrCustomULP f32 x y 0x3f800000
  preTail f32 geo32 (preChecks f32 geo32 ulp ulp ulp) (preChecks f32 geo32 ulp ulp ulp) Resolution I J K vLat vLng

/-- `loc2Index64Circuit.Define`, /repo/loc2index64/loc2index64_test.go:35-168. Line 50 (`term := Add(lat, halfPi)`) and lines 53-64 have no
influence on the rest. `2.0` is `0x4000000000000000`. -/
def precomputeCircuit64 (hLat hLng : Pre p) (Lat Lng Resolution I J K : ZMod p) : Circ p Unit := do
  let inp ← locInputs f64 geo64 Lat Lng Resolution
  let _ ← fAdd f64 inp.1 (newConstant f64 geo64.halfPi)
  let _ ← shiftedLng f64 geo64 inp.2
  let vLat ← precompute f64 hLat
  let vLng ← precompute f64 hLng
  let ulp := fun x y => fAssertIsEqualOrCustomULP f64 x y 0x4000000000000000
  let orUlp := fun x y => fAssertIsEqualOrULP f64 x y
  preTail f64 geo64 (preChecks f64 geo64 ulp ulp orUlp) (preChecks f64 geo64 ulp orUlp orUlp) Resolution I J K vLat vLng

end ZkLoc
