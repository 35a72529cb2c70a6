import Mathlib.Analysis.SpecialFunctions.Complex.Arg
import Mathlib.Analysis.SpecialFunctions.Trigonometric.Inverse
import Mathlib.Analysis.Real.Sqrt

/-!
# Specification: from a location to a point of H3's hexagon grid, in exact arithmetic

Written from the published H3 library (`faceijk.c`: `faceCenterGeo`, `faceAxesAzRadsCII`, `_geoToHex2d`; `vec3d.c`; `geoPoint.c`:
`_geoAzimuthRads`); that source is not part of /repo. Independent of the model of the Go code. Angles are in radians.
-/

namespace H3

/-- A face of the icosahedron: latitude and longitude of its centre, and azimuth of the first axis of its grid. -/
structure FaceGeo where
  lat : ℝ
  lng : ℝ
  az : ℝ

/-- `faceCenterGeo` and the first column of `faceAxesAzRadsCII`, in units of `10^-18`. -/
def faceDecimals : List (ℤ × ℤ × ℤ) := [
  (803582649718989942, 1248397419617396099, 5619958268523939882),
  (1307747883455638156, 2536945009877921159, 5760339081714187279),
  (1054751253523952054, -1347517358900396623, 780213654393430055),
  (600191595538186799, -450603909469755746, 430469363979999913),
  (491715428198773866, 401988202911306943, 6130269123335111400),
  (172745327415618701, 1678146885280433686, 2692877706530642877),
  (605929321571350690, 2953923329812411617, 2982963003477243874),
  (427370518328979641, -1888876200336285401, 3532912002790141181),
  (-79066118549212831, -733429513380867741, 3494305004259568154),
  (-230961644455383637, 506495587332349035, 3003214169499538391),
  (79066118549212831, 2408163140208925497, 5930472956509811562),
  (230961644455383637, -2635097066257444203, 138378484090254847),
  (-172745327415618701, -1463445768309359553, 448714947059150361),
  (-605929321571350690, -187669323777381622, 158629650112549365),
  (-427370518328979641, 1252716453253507838, 5891865957979238535),
  (-600191595538186799, 2690988744120037492, 2711123289609793325),
  (-491715428198773866, -2739604450678486295, 3294508837434268316),
  (-803582649718989942, -1893195233972397139, 3804819692245439833),
  (-1307747883455638156, -604647643711872080, 3664438879055192436),
  (-1054751253523952054, 1794075294689396615, 2361378999196363184)]

noncomputable def FaceGeo.ofDecimals (t : ℤ × ℤ × ℤ) : FaceGeo := ⟨t.1 / 10 ^ 18, t.2.1 / 10 ^ 18, t.2.2 / 10 ^ 18⟩

/-- The twenty faces. -/
noncomputable def faceGeo : List FaceGeo := faceDecimals.map .ofDecimals

/-- `RES0_U_GNOMONIC`: the grid unit of resolution 0 in the plane that touches the sphere at the face centre. -/
noncomputable def res0 : ℝ := 38196601125010500003 / 10 ^ 20

/-- `M_AP7_ROT_RADS`: the rotation between the grids of even and odd resolutions. -/
noncomputable def ap7rot : ℝ := 333473172251832115336090755351601070065900389 / 10 ^ 45

/-- `_geoToVec3d`: the point of the unit sphere. -/
noncomputable def vec3 (φ l : ℝ) : ℝ × ℝ × ℝ := (Real.cos l * Real.cos φ, Real.sin l * Real.cos φ, Real.sin φ)

/-- `_pointSquareDist` of the location and the centre of the face. -/
noncomputable def sqd (F : FaceGeo) (φ l : ℝ) : ℝ :=
  ((vec3 F.lat F.lng).1 - (vec3 φ l).1) ^ 2 + ((vec3 F.lat F.lng).2.1 - (vec3 φ l).2.1) ^ 2 + ((vec3 F.lat F.lng).2.2 - (vec3 φ l).2.2) ^ 2

/-- `_geoAzimuthRads` from the face centre to the location: `atan2(y, x)` is the argument of `x + iy`. -/
noncomputable def azimuth (F : FaceGeo) (φ l : ℝ) : ℝ :=
  Complex.arg ⟨Real.cos F.lat * Real.sin φ - Real.sin F.lat * Real.cos φ * Real.cos (l - F.lng), Real.cos φ * Real.sin (l - F.lng)⟩

/-- `_geoToHex2d` for a given face: the point of the plane in units of the grid of resolution `n`. (Adding multiples of `2π` to `θ`, as H3 does,
has no influence. At the face centre the angle is arbitrary and the radius zero.) -/
noncomputable def plane (F : FaceGeo) (n : ℕ) (φ l : ℝ) : ℝ × ℝ :=
  let θ := F.az - azimuth F φ l - if n % 2 = 1 then ap7rot else 0
  let r := Real.tan (Real.arccos (1 - sqd F φ l / 2)) / res0 * Real.sqrt 7 ^ n
  (r * Real.cos θ, r * Real.sin θ)

/-- The point `(u, v)` lies in the hexagon `(i, j, k)`, enlarged by `ε` on each side. The centre of the hexagon is `_ijkToHex2d`:
`(i - k) - (j - k)/2` and `(j - k) √3/2`; it is bounded by the lines halfway to the six neighbouring centres at distance one. -/
def InHexagon (ε : ℝ) (i j k : ℤ) (u v : ℝ) : Prop :=
  let du := u - ((i - k : ℝ) - (j - k : ℝ) / 2)
  let dv := v - (j - k : ℝ) * (Real.sqrt 3 / 2)
  |du| ≤ 1 / 2 + ε ∧ |du / 2 + Real.sqrt 3 / 2 * dv| ≤ 1 / 2 + ε ∧ |-du / 2 + Real.sqrt 3 / 2 * dv| ≤ 1 / 2 + ε

/-- The cell `(i, j, k)` in normal form contains the location, up to an enlargement of its hexagon by `ε`; the face is one whose centre is the nearest up to
`δ` (in squared distance). -/
def CellAt (δ ε : ℝ) (n : ℕ) (φ l : ℝ) (i j k : ℤ) : Prop :=
  ∃ F ∈ faceGeo, (∀ F' ∈ faceGeo, sqd F φ l ≤ sqd F' φ l + δ) ∧ 0 ≤ i ∧ 0 ≤ j ∧ 0 ≤ k ∧ (i = 0 ∨ j = 0 ∨ k = 0) ∧
    InHexagon ε i j k (plane F n φ l).1 (plane F n φ l).2

end H3
