import Verif.ScaleSpec
import Verif.FaceTable
import Verif.TrigBound
import Verif.GeoSource
import Verif.Props.Hex

/-!
# Property theorems C35, C36, C44: resolution scaling, closest face, constants of the location code
-/

namespace ZkLoc

variable {p : ℕ} [Fact p.Prime] {b : ℕ} {f : Fmt} {g : GeoConsts}

/-! ### C35 -/

/-- **C35** No prover gets a resolution above 15 accepted, at any table width, for any input float. -/
theorem C35_resolution_bounded (hp : 16 ≤ p) {r r' : FloatVar p} {res : ZMod p} {st : Bool} (h : (scaleR f g r res).Sat b st r') : res.val ≤ 15 := by
  unfold scaleR at h
  simp only [Circ.bind_eq] at h
  obtain ⟨bits, h1, _⟩ := (Circ.sat_bind _ _ _).1 h
  have := (toBinary_ok (m := .any st) res 4 hp (fun h => by cases h) bits h1).1
  omega

/-- The result of scaling the number `u` for resolution `n` in an arithmetic with multiplier accuracy `κ`: the rounded product with a power of
`√7` accurate to `κ`. -/
def Scaled (f : Fmt) (κ u : ℝ) (n : ℕ) (w : ℝ) : Prop :=
  ∃ μ, Real.sqrt 7 ^ n * (1 - κ) ≤ μ ∧ μ ≤ Real.sqrt 7 ^ n * (1 + κ) ∧ Rn f (u * μ) w

/-- **C35** Single precision, every prover (table width dividing the lookup size): the resolution is a number `n ≤ 15`, and the radius is multiplied
by `√7^n`, accurate to `2^-20`. -/
theorem C35_scale_sound32 (G : Good p b f32) (hb : b ∣ f32.pow2Size) {r r' : FloatVar p} {u : ℝ} (hr : Num f32 r u) (hu : |u| ≤ 64) {res : ZMod p}
    {st : Bool} (h : (scaleR f32 geo32 r res).Sat b st r') :
    ∃ n : ℕ, n ≤ 15 ∧ res = (n : ZMod p) ∧ ∃ w, Scaled f32 (1 / 2 ^ 20) u n w ∧ Num f32 r' w := by
  obtain ⟨n, hn, he, μ, w, _, _, h3, h4, h5⟩ := scaleR_ok (m := .any st) G (.inr hb) scaleConsts32 hr (by norm_num; exact hu) (fun h => by cases h) r' h
  obtain ⟨a1, a2⟩ := scale_accuracy32 hn h3
  exact ⟨n, by omega, he, w, ⟨μ, a1, a2, h4⟩, h5⟩

/-- **C35** The same in double precision, accurate to `2^-49`. -/
theorem C35_scale_sound64 (G : Good p b f64) (hb : b ∣ f64.pow2Size) {r r' : FloatVar p} {u : ℝ} (hr : Num f64 r u) (hu : |u| ≤ 64) {res : ZMod p}
    {st : Bool} (h : (scaleR f64 geo64 r res).Sat b st r') :
    ∃ n : ℕ, n ≤ 15 ∧ res = (n : ZMod p) ∧ ∃ w, Scaled f64 (1 / 2 ^ 49) u n w ∧ Num f64 r' w := by
  obtain ⟨n, hn, he, μ, w, _, _, h3, h4, h5⟩ := scaleR_ok (m := .any st) G (.inr hb) scaleConsts64 hr (by norm_num; exact hu) (fun h => by cases h) r' h
  obtain ⟨a1, a2⟩ := scale_accuracy64 hn h3
  exact ⟨n, by omega, he, w, ⟨μ, a1, a2, h4⟩, h5⟩

/-- **C35** Single precision, the honest prover: succeeds for every resolution up to 15 at every table width. -/
theorem C35_scale_complete32 (G : Good p b f32) {r : FloatVar p} {u : ℝ} (hr : Num f32 r u) (hu : |u| ≤ 64) {n : ℕ} (hn : n ≤ 15) :
    ∃ r' w, (scaleR f32 geo32 r (n : ZMod p)).run b = some r' ∧ Scaled f32 (1 / 2 ^ 20) u n w ∧ Num f32 r' w := by
  have hp : 2 ^ 4 ≤ p := (Nat.pow_le_pow_right (by norm_num) (by omega)).trans G.hp
  have hv : (n : ZMod p).val = n := ZMod.val_natCast_of_lt (by omega)
  obtain ⟨r', h, n', hn', he, μ, w, _, _, h3, h4, h5⟩ := scaleR_ok (m := .honest) G (.inl rfl) scaleConsts32 hr (by norm_num; exact hu)
    (res := (n : ZMod p)) (fun _ => by omega)
  have : n = n' := by
    have := congrArg ZMod.val he
    rwa [hv, ZMod.val_natCast_of_lt (by omega)] at this
  subst this
  obtain ⟨a1, a2⟩ := scale_accuracy32 hn' h3
  exact ⟨r', w, h, ⟨μ, a1, a2, h4⟩, h5⟩

/-- **C35** The same in double precision. -/
theorem C35_scale_complete64 (G : Good p b f64) {r : FloatVar p} {u : ℝ} (hr : Num f64 r u) (hu : |u| ≤ 64) {n : ℕ} (hn : n ≤ 15) :
    ∃ r' w, (scaleR f64 geo64 r (n : ZMod p)).run b = some r' ∧ Scaled f64 (1 / 2 ^ 49) u n w ∧ Num f64 r' w := by
  have hp : 2 ^ 4 ≤ p := (Nat.pow_le_pow_right (by norm_num) (by omega)).trans G.hp
  have hv : (n : ZMod p).val = n := ZMod.val_natCast_of_lt (by omega)
  obtain ⟨r', h, n', hn', he, μ, w, _, _, h3, h4, h5⟩ := scaleR_ok (m := .honest) G (.inl rfl) scaleConsts64 hr (by norm_num; exact hu)
    (res := (n : ZMod p)) (fun _ => by omega)
  have : n = n' := by
    have := congrArg ZMod.val he
    rwa [hv, ZMod.val_natCast_of_lt (by omega)] at this
  subst this
  obtain ⟨a1, a2⟩ := scale_accuracy64 hn' h3
  exact ⟨r', w, h, ⟨μ, a1, a2, h4⟩, h5⟩

/-- **C35** The honest multiplier is formed by square-and-multiply from the rounded powers of the constant. -/
theorem C35_square_and_multiply (G : Good p b f) {q0 q1 q2 q3 : ℝ} (K : ScaleConsts p f g q0 q1 q2 q3) {r : FloatVar p} {u : ℝ} (hr : Num f r u)
    (hu : |u| ≤ 64) (hb : b ∣ f.pow2Size) {res : ZMod p} {st : Bool} {r' : FloatVar p} (h : (scaleR f g r res).Sat b st r') :
    ∃ n : ℕ, n ≤ 15 ∧ res = (n : ZMod p) ∧ ∃ μ w, H3.ScaleLoop (Rn f) (H3.bitsOf 4 n) [q0, q1, q2, q3] 1 μ ∧ Rn f (u * μ) w ∧ Num f r' w := by
  obtain ⟨n, hn, he, μ, w, _, _, h3, h4, h5⟩ := scaleR_ok (m := .any st) G (.inr hb) K hr (by norm_num; exact hu) (fun h => by cases h) r' h
  exact ⟨n, by omega, he, μ, w, h3, h4, h5⟩

/-- `0.5 · √7^5 ≈ 64.8` in single precision. -/
example : (scaleR f32 geo32 (w32 0x3f000000) 5).run 8 = some (w32 0x4281a44c : FloatVar bn254) := by decide +kernel

/-- A resolution of 16 is refused. -/
example (r' : FloatVar bn254) : ¬ (scaleR f32 geo32 (w32 0x3f000000) 16).Sat 8 true r' := by
  intro h
  have := C35_resolution_bounded (by decide) h
  revert this
  decide

/-! ### C36 -/

/-- **C36** Every prover (table width dividing the lookup size): for a point near the unit sphere `closestFaceCalculations` returns the data of the
first face of least distance in the arithmetic of the format; that distance is below one, accurate, and the face is a nearest face up to
`132 · 2^-(M+1)` of squared distance. -/
theorem C36_closest_sound (G : Good p b f) (hb : b ∣ f.pow2Size) (T : FaceTable p f g) {x2 y2 z2 : FloatVar p} {x y z : ℝ} (hx : Num f x2 x)
    (hy : Num f y2 y) (hz : Num f z2 z) (hn : |x ^ 2 + y ^ 2 + z ^ 2 - 1| ≤ 1 / 2 ^ 9) {st : Bool} {s : FaceData p}
    (h : (closestFace f g x2 y2 z2).Sat b st s) : ∃ c d, Closest f g x y z s c d :=
  closestFace_ok (m := .any st) G (.inr hb) T hx hy hz hn s h

/-- **C36** The honest prover succeeds at every table width. -/
theorem C36_closest_complete (G : Good p b f) (T : FaceTable p f g) {x2 y2 z2 : FloatVar p} {x y z : ℝ} (hx : Num f x2 x)
    (hy : Num f y2 y) (hz : Num f z2 z) (hn : |x ^ 2 + y ^ 2 + z ^ 2 - 1| ≤ 1 / 2 ^ 9) :
    ∃ s, (closestFace f g x2 y2 z2).run b = some s ∧ ∃ c d, Closest f g x y z s c d :=
  closestFace_ok (m := .honest) G (.inl rfl) T hx hy hz hn

/-- **C36** Any finite input within `2^10`: the first face of least distance if some distance is below five, else the initial values. -/
theorem C36_first_minimum (G : Good p b f) (hb : b ∣ f.pow2Size) (T : FaceTable p f g) {x2 y2 z2 : FloatVar p} {x y z : ℝ} (hx : Num f x2 x)
    (hy : Num f y2 y) (hz : Num f z2 z) (bx : |x| ≤ 2 ^ 10) (bY : |y| ≤ 2 ^ 10) (bz : |z| ≤ 2 ^ 10) {st : Bool} {s : FaceData p}
    (h : (closestFace f g x2 y2 z2).Sat b st s) :
    ∃ ds, List.Forall₂ (FaceDist f x y z) g.faces ds ∧ (((∀ d ∈ ds, 5 ≤ d) ∧ s = faceInit f g) ∨
      ∃ k c d, g.faces[k]? = some c ∧ H3.FirstMin ds k d ∧ d < 5 ∧ Num f s.sqDist d ∧ s = faceData f c s.sqDist) := by
  obtain ⟨ds, h1, _, h2⟩ := faceLoop_ok (m := .any st) G (.inr hb) hx hy hz bx bY bz g.faces T.ok (s := faceInit f g) T.five s h
  refine ⟨ds, h1, h2.imp_right ?_⟩
  rintro ⟨k, c, d, a1, a2, a3, _, a4, a5⟩
  exact ⟨k, c, d, a1, a2, a3, a4, a5⟩

/-- **C36** The tables of both packages satisfy the hypotheses: twenty centres on the unit sphere, a centre within squared distance `0.9` of
every point of the sphere. -/
theorem C36_tables : FaceTable p f32 geo32 ∧ FaceTable p f64 geo64 := ⟨faceTable32, faceTable64⟩

/-- The north pole belongs to face 1. -/
example : ((closestFace f32 geo32 (w32 0) (w32 0) (w32 0x3f800000)).run 8).map (fun s : FaceData bn254 => (s.sinFaceLat, s.cosFaceLat)) =
    (faces32[1]?).map (fun c => (newConstant f32 c.sinLat, newConstant f32 c.cosLat)) := by decide +kernel

/-! ### C44 -/

/-- The bit pattern is the decimal rounded to nearest even. -/
def Decimal.Rounded (F : Ieee.Format) (d : Decimal) (v : ℕ) : Prop := Ieee.RoundsTo F d.neg (d.digits / 10 ^ d.places) (Ieee.decodeBits F v)

/-- Integer test. -/
def Decimal.check (E M : ℕ) (d : Decimal) (v : ℕ) : Bool := nearestBits E M d.neg d.digits d.digits (10 ^ d.places) v

theorem Decimal.check_ok {E M : ℕ} (hE : 1 ≤ E) (hM : 1 ≤ M) {d : Decimal} {v : ℕ} (h : d.check E M v = true) : d.Rounded ⟨E, M⟩ v :=
  nearestBits_rounds hE hM h (by push_cast; exact le_rfl) (by push_cast; exact le_rfl)

/-- The entries of a face are the rounded decimals. -/
structure FaceRounded (F : Ieee.Format) (s : FaceSource) (c : Face) (ang : ℕ × ℕ) : Prop where
  px : s.px.Rounded F c.px
  py : s.py.Rounded F c.py
  pz : s.pz.Rounded F c.pz
  sinLat : s.sinLat.Rounded F c.sinLat
  cosLat : s.cosLat.Rounded F c.cosLat
  lng : s.lng.Rounded F ang.1
  az : s.az.Rounded F ang.2

def FaceSource.check (E M : ℕ) (s : FaceSource) (c : Face) (ang : ℕ × ℕ) : Bool :=
  s.px.check E M c.px && s.py.check E M c.py && s.pz.check E M c.pz && s.sinLat.check E M c.sinLat && s.cosLat.check E M c.cosLat &&
    s.lng.check E M ang.1 && s.az.check E M ang.2

theorem FaceSource.check_ok {E M : ℕ} (hE : 1 ≤ E) (hM : 1 ≤ M) {s : FaceSource} {c : Face} {ang : ℕ × ℕ} (h : s.check E M c ang = true) :
    FaceRounded ⟨E, M⟩ s c ang := by
  simp only [FaceSource.check, Bool.and_eq_true] at h
  obtain ⟨⟨⟨⟨⟨⟨h1, h2⟩, h3⟩, h4⟩, h5⟩, h6⟩, h7⟩ := h
  exact ⟨Decimal.check_ok hE hM h1, Decimal.check_ok hE hM h2, Decimal.check_ok hE hM h3, Decimal.check_ok hE hM h4, Decimal.check_ok hE hM h5,
    Decimal.check_ok hE hM h6, Decimal.check_ok hE hM h7⟩

/-- **C44** Every entry of the face tables of both packages is the decimal of the source rounded to nearest even. -/
theorem C44_tables_rounded :
    (∀ i < 20, ∃ s c a, source32[i]? = some s ∧ geo32.faces[i]? = some c ∧ angles32[i]? = some a ∧ FaceRounded ⟨8, 23⟩ s c a) ∧
    (∀ i < 20, ∃ s c a, source64[i]? = some s ∧ geo64.faces[i]? = some c ∧ angles64[i]? = some a ∧ FaceRounded ⟨11, 52⟩ s c a) := by
  have h32 : ∀ i < 20, (match source32[i]?, geo32.faces[i]?, angles32[i]? with | some s, some c, some a => s.check 8 23 c a | _, _, _ => false) = true := by
    decide +kernel
  have h64 : ∀ i < 20, (match source64[i]?, geo64.faces[i]?, angles64[i]? with | some s, some c, some a => s.check 11 52 c a | _, _, _ => false) = true := by
    decide +kernel
  constructor
  · intro i hi
    have := h32 i hi
    revert this
    cases source32[i]? <;> cases geo32.faces[i]? <;> cases angles32[i]? <;> simp
    exact FaceSource.check_ok (by norm_num) (by norm_num)
  · intro i hi
    have := h64 i hi
    revert this
    cases source64[i]? <;> cases geo64.faces[i]? <;> cases angles64[i]? <;> simp
    exact FaceSource.check_ok (by norm_num) (by norm_num)

/-- **C44** The scalar constants of both packages are the rounded decimals, and the powers of `√7` are formed by rounded squaring. -/
theorem C44_scalars_rounded :
    sin60Source.Rounded ⟨8, 23⟩ geo32.sin60 ∧ sin60Source.Rounded ⟨11, 52⟩ geo64.sin60 ∧
    resConstSource.Rounded ⟨8, 23⟩ geo32.resConst ∧ resConstSource.Rounded ⟨11, 52⟩ geo64.resConst ∧
    ap7rotSource.Rounded ⟨8, 23⟩ ap7rot32 ∧ ap7rotSource.Rounded ⟨11, 52⟩ ap7rot64 ∧
    (∃ v, geo32.powers[0]? = some v ∧ sqrt7Source.Rounded ⟨8, 23⟩ v) ∧ (∃ v, geo64.powers[0]? = some v ∧ sqrt7Source.Rounded ⟨11, 52⟩ v) := by
  refine ⟨?_, ?_, ?_, ?_, ?_, ?_, ⟨_, rfl, ?_⟩, ⟨_, rfl, ?_⟩⟩ <;> exact Decimal.check_ok (by norm_num) (by norm_num) (by decide +kernel)

/-- Integer test for the sines and cosines of one face; `rot` is the rotation between grid classes. -/
def trigFace (E M k n t rot : ℕ) (c : Face) (ang : ℕ × ℕ) : Bool :=
  scalable E M k ang.1 && scalable E M k ang.2 && scalable E M k c.sinLng && scalable E M k c.cosLng && scalable E M k c.sinAz && scalable E M k c.cosAz &&
  scalable E M k c.sinAzRot && scalable E M k c.cosAzRot &&
  trigCheck imPow (scaledVal E M k ang.1) (scaledVal E M k c.sinLng) k n t && trigCheck rePow (scaledVal E M k ang.1) (scaledVal E M k c.cosLng) k n t &&
  trigCheck imPow (scaledVal E M k ang.2) (scaledVal E M k c.sinAz) k n t && trigCheck rePow (scaledVal E M k ang.2) (scaledVal E M k c.cosAz) k n t &&
  trigCheck imPow (scaledVal E M k ang.2 - scaledVal E M k rot) (scaledVal E M k c.sinAzRot) k n t &&
  trigCheck rePow (scaledVal E M k ang.2 - scaledVal E M k rot) (scaledVal E M k c.cosAzRot) k n t

/-- The trigonometric entries of a face are the sines and cosines of longitude, azimuth and rotated azimuth up to `ε`. -/
structure FaceTrig (F : Ieee.Format) (ε : ℝ) (c : Face) (ang : ℕ × ℕ) (rot : ℕ) : Prop where
  sinLng : |Ieee.patternVal F c.sinLng - Real.sin (Ieee.patternVal F ang.1)| ≤ ε
  cosLng : |Ieee.patternVal F c.cosLng - Real.cos (Ieee.patternVal F ang.1)| ≤ ε
  sinAz : |Ieee.patternVal F c.sinAz - Real.sin (Ieee.patternVal F ang.2)| ≤ ε
  cosAz : |Ieee.patternVal F c.cosAz - Real.cos (Ieee.patternVal F ang.2)| ≤ ε
  sinAzRot : |Ieee.patternVal F c.sinAzRot - Real.sin (Ieee.patternVal F ang.2 - Ieee.patternVal F rot)| ≤ ε
  cosAzRot : |Ieee.patternVal F c.cosAzRot - Real.cos (Ieee.patternVal F ang.2 - Ieee.patternVal F rot)| ≤ ε

theorem trigFace_ok {E M k n t rot : ℕ} {c : Face} {ang : ℕ × ℕ} (hr : scalable E M k rot = true) (h : trigFace E M k n t rot c ang = true) :
    FaceTrig ⟨E, M⟩ (1 / 2 ^ t) c ang rot := by
  simp only [trigFace, Bool.and_eq_true] at h
  obtain ⟨⟨⟨⟨⟨⟨⟨⟨⟨⟨⟨⟨⟨a1, a2⟩, a3⟩, a4⟩, a5⟩, a6⟩, a7⟩, a8⟩, t1⟩, t2⟩, t3⟩, t4⟩, t5⟩, t6⟩ := h
  have e : (scaledVal E M k ang.2 : ℝ) / 2 ^ k - scaledVal E M k rot / 2 ^ k = ((scaledVal E M k ang.2 - scaledVal E M k rot : ℤ) : ℝ) / 2 ^ k := by
    push_cast; ring
  constructor
  · rw [patternVal_scaled a3, patternVal_scaled a1]; exact trigCheck_sin t1
  · rw [patternVal_scaled a4, patternVal_scaled a1]; exact trigCheck_cos t2
  · rw [patternVal_scaled a5, patternVal_scaled a2]; exact trigCheck_sin t3
  · rw [patternVal_scaled a6, patternVal_scaled a2]; exact trigCheck_cos t4
  · rw [patternVal_scaled a7, patternVal_scaled a2, patternVal_scaled hr, e]; exact trigCheck_sin t5
  · rw [patternVal_scaled a8, patternVal_scaled a2, patternVal_scaled hr, e]; exact trigCheck_cos t6

/-- **C44** The table entries computed with Go's `math.Sin` and `math.Cos` are the sines and cosines of the table angles, up to `2^-24` in single
and `2^-52` in double precision. (Which of the neighbouring floats Go's library returns is trusted.) -/
theorem C44_trig_accurate :
    (∀ i < 20, ∃ c a, geo32.faces[i]? = some c ∧ angles32[i]? = some a ∧ FaceTrig ⟨8, 23⟩ (1 / 2 ^ 24) c a ap7rot32) ∧
    (∀ i < 20, ∃ c a, geo64.faces[i]? = some c ∧ angles64[i]? = some a ∧ FaceTrig ⟨11, 52⟩ (1 / 2 ^ 52) c a ap7rot64) := by
  have h32 : ∀ i < 20, (match geo32.faces[i]?, angles32[i]? with | some c, some a => trigFace 8 23 40 40 24 ap7rot32 c a | _, _ => false) = true := by
    decide +kernel
  have h64 : ∀ i < 20, (match geo64.faces[i]?, angles64[i]? with | some c, some a => trigFace 11 52 64 50 52 ap7rot64 c a | _, _ => false) = true := by
    decide +kernel
  constructor
  · intro i hi
    have := h32 i hi
    revert this
    cases geo32.faces[i]? <;> cases angles32[i]? <;> simp
    exact fun h => by simpa using trigFace_ok (by decide) h
  · intro i hi
    have := h64 i hi
    revert this
    cases geo64.faces[i]? <;> cases angles64[i]? <;> simp
    exact fun h => by simpa using trigFace_ok (by decide) h

/-- Three products of the values of bit patterns: the point with the given latitude and longitude. -/
structure OnGlobe (F : Ieee.Format) (ε : ℝ) (c : Face) : Prop where
  px : |Ieee.patternVal F c.px - Ieee.patternVal F c.cosLat * Ieee.patternVal F c.cosLng| ≤ ε
  py : |Ieee.patternVal F c.py - Ieee.patternVal F c.cosLat * Ieee.patternVal F c.sinLng| ≤ ε
  pz : |Ieee.patternVal F c.pz - Ieee.patternVal F c.sinLat| ≤ ε
  lat : |Ieee.patternVal F c.sinLat ^ 2 + Ieee.patternVal F c.cosLat ^ 2 - 1| ≤ ε

def globeCheck (E M k t : ℕ) (c : Face) : Bool :=
  scalable E M k c.px && scalable E M k c.py && scalable E M k c.sinLat && scalable E M k c.cosLat && scalable E M k c.sinLng && scalable E M k c.cosLng &&
  decide (2 ^ t * (scaledVal E M k c.px * 2 ^ k - scaledVal E M k c.cosLat * scaledVal E M k c.cosLng).natAbs ≤ 2 ^ (2 * k)) &&
  decide (2 ^ t * (scaledVal E M k c.py * 2 ^ k - scaledVal E M k c.cosLat * scaledVal E M k c.sinLng).natAbs ≤ 2 ^ (2 * k)) &&
  decide (2 ^ t * (scaledVal E M k c.pz * 2 ^ k - scaledVal E M k c.sinLat * 2 ^ k).natAbs ≤ 2 ^ (2 * k)) && scalable E M k c.pz &&
  decide (2 ^ t * (scaledVal E M k c.sinLat ^ 2 + scaledVal E M k c.cosLat ^ 2 - 2 ^ (2 * k)).natAbs ≤ 2 ^ (2 * k))

theorem globeCheck_ok {E M k t : ℕ} {c : Face} (h : globeCheck E M k t c = true) : OnGlobe ⟨E, M⟩ (1 / 2 ^ t) c := by
  simp only [globeCheck, Bool.and_eq_true, decide_eq_true_eq] at h
  obtain ⟨⟨⟨⟨⟨⟨⟨⟨⟨⟨a1, a2⟩, a3⟩, a4⟩, a5⟩, a6⟩, t1⟩, t2⟩, t3⟩, a7⟩, t4⟩ := h
  have hK2 : (2:ℝ) ^ (2 * k) = (2 ^ k) ^ 2 := by rw [← pow_mul, mul_comm]
  have n1 := natAbs_real t1
  have n2 := natAbs_real t2
  have n3 := natAbs_real t3
  have n4 := natAbs_real t4
  push_cast at n1 n2 n3 n4
  rw [hK2] at n1 n2 n3 n4
  have fin : ∀ {a v : ℝ}, |a| ≤ (2 ^ k) ^ 2 / 2 ^ t → v = a / (2 ^ k) ^ 2 → |v| ≤ 1 / 2 ^ t := by
    intro a v h hv
    have hK : (0:ℝ) < 2 ^ k := by positivity
    rw [hv, abs_div, abs_of_pos (show (0:ℝ) < (2 ^ k) ^ 2 by positivity), div_le_iff₀ (by positivity)]
    rw [div_mul_eq_mul_div, one_mul]; exact h
  refine ⟨?_, ?_, ?_, ?_⟩
  · rw [patternVal_scaled a1, patternVal_scaled a4, patternVal_scaled a6]; exact fin n1 (by field_simp)
  · rw [patternVal_scaled a2, patternVal_scaled a4, patternVal_scaled a5]; exact fin n2 (by field_simp)
  · rw [patternVal_scaled a7, patternVal_scaled a3]; exact fin n3 (by field_simp)
  · rw [patternVal_scaled a3, patternVal_scaled a4]; exact fin n4 (by field_simp)

/-- **C44** The centre of each face is the point with the latitude and longitude given by the sines and cosines of the tables. -/
theorem C44_centres_consistent : (∀ c ∈ geo32.faces, OnGlobe ⟨8, 23⟩ (1 / 2 ^ 22) c) ∧ (∀ c ∈ geo64.faces, OnGlobe ⟨11, 52⟩ (1 / 2 ^ 50) c) := by
  have h32 : ∀ c ∈ geo32.faces, globeCheck 8 23 40 22 c = true := by decide +kernel
  have h64 : ∀ c ∈ geo64.faces, globeCheck 11 52 64 50 c = true := by decide +kernel
  exact ⟨fun c hc => by simpa using globeCheck_ok (h32 c hc), fun c hc => by simpa using globeCheck_ok (h64 c hc)⟩

/-- **C44** `Sin60` is the rounded `√3/2`, the first power the rounded `√7`, the angles the rounded multiples of `π`. -/
theorem C44_real_constants :
    Ieee.RoundsTo ⟨8, 23⟩ false (Real.sqrt 3 / 2) (Ieee.decodeBits ⟨8, 23⟩ geo32.sin60) ∧
    Ieee.RoundsTo ⟨11, 52⟩ false (Real.sqrt 3 / 2) (Ieee.decodeBits ⟨11, 52⟩ geo64.sin60) ∧
    Ieee.RoundsTo ⟨8, 23⟩ false (Real.sqrt 7) (Ieee.decodeBits ⟨8, 23⟩ (geo32.powers.headD 0)) ∧
    Ieee.RoundsTo ⟨11, 52⟩ false (Real.sqrt 7) (Ieee.decodeBits ⟨11, 52⟩ (geo64.powers.headD 0)) ∧
    Ieee.RoundsTo ⟨8, 23⟩ false Real.pi (Ieee.decodeBits ⟨8, 23⟩ geo32.pi) ∧ Ieee.RoundsTo ⟨11, 52⟩ false Real.pi (Ieee.decodeBits ⟨11, 52⟩ geo64.pi) ∧
    Ieee.RoundsTo ⟨8, 23⟩ false (Real.pi / 2) (Ieee.decodeBits ⟨8, 23⟩ geo32.halfPi) ∧
    Ieee.RoundsTo ⟨11, 52⟩ false (Real.pi / 2) (Ieee.decodeBits ⟨11, 52⟩ geo64.halfPi) ∧
    Ieee.RoundsTo ⟨8, 23⟩ false (2 * Real.pi) (Ieee.decodeBits ⟨8, 23⟩ geo32.twoPi) ∧
    Ieee.RoundsTo ⟨11, 52⟩ false (2 * Real.pi) (Ieee.decodeBits ⟨11, 52⟩ geo64.twoPi) ∧
    Ieee.RoundsTo ⟨8, 23⟩ false (1 / 3) (Ieee.decodeBits ⟨8, 23⟩ geo32.third) ∧ Ieee.RoundsTo ⟨11, 52⟩ false (1 / 3) (Ieee.decodeBits ⟨11, 52⟩ geo64.third) ∧
    Ieee.RoundsTo ⟨8, 23⟩ false (2 / 3) (Ieee.decodeBits ⟨8, 23⟩ geo32.twoThirds) ∧
    Ieee.RoundsTo ⟨11, 52⟩ false (2 / 3) (Ieee.decodeBits ⟨11, 52⟩ geo64.twoThirds) := by
  have s3l : (8660254037844386467637231707529361834714 : ℝ) / 10 ^ 40 ≤ Real.sqrt 3 / 2 := by
    rw [le_div_iff₀ (by norm_num)]; exact Real.le_sqrt_of_sq_le (by norm_num)
  have s3h : Real.sqrt 3 / 2 ≤ (8660254037844386467637231707529361834715 : ℝ) / 10 ^ 40 := by
    rw [div_le_iff₀ (by norm_num)]; exact Real.sqrt_le_iff.2 ⟨by norm_num, by norm_num⟩
  have s7l : (26457513110645905905016157536392604257102 : ℝ) / 10 ^ 40 ≤ Real.sqrt 7 := Real.le_sqrt_of_sq_le (by norm_num)
  have s7h : Real.sqrt 7 ≤ (26457513110645905905016157536392604257103 : ℝ) / 10 ^ 40 := Real.sqrt_le_iff.2 ⟨by norm_num, by norm_num⟩
  have pl := Real.pi_gt_d20
  have ph := Real.pi_lt_d20
  refine ⟨?_, ?_, ?_, ?_, ?_, ?_, ?_, ?_, ?_, ?_, ?_, ?_, ?_, ?_⟩
  · exact nearestBits_rounds (lo := 8660254037844386467637231707529361834714) (hi := 8660254037844386467637231707529361834715) (den := 10 ^ 40)
      (by norm_num) (by norm_num) (by decide +kernel) (by exact_mod_cast s3l) (by exact_mod_cast s3h)
  · exact nearestBits_rounds (lo := 8660254037844386467637231707529361834714) (hi := 8660254037844386467637231707529361834715) (den := 10 ^ 40)
      (by norm_num) (by norm_num) (by decide +kernel) (by exact_mod_cast s3l) (by exact_mod_cast s3h)
  · exact nearestBits_rounds (lo := 26457513110645905905016157536392604257102) (hi := 26457513110645905905016157536392604257103) (den := 10 ^ 40)
      (by norm_num) (by norm_num) (by decide +kernel) (by exact_mod_cast s7l) (by exact_mod_cast s7h)
  · exact nearestBits_rounds (lo := 26457513110645905905016157536392604257102) (hi := 26457513110645905905016157536392604257103) (den := 10 ^ 40)
      (by norm_num) (by norm_num) (by decide +kernel) (by exact_mod_cast s7l) (by exact_mod_cast s7h)
  · exact nearestBits_rounds (lo := 314159265358979323846) (hi := 314159265358979323847) (den := 10 ^ 20)
      (by norm_num) (by norm_num) (by decide +kernel) (by push_cast; norm_num at pl ⊢; linarith) (by push_cast; norm_num at ph ⊢; linarith)
  · exact nearestBits_rounds (lo := 314159265358979323846) (hi := 314159265358979323847) (den := 10 ^ 20)
      (by norm_num) (by norm_num) (by decide +kernel) (by push_cast; norm_num at pl ⊢; linarith) (by push_cast; norm_num at ph ⊢; linarith)
  · exact nearestBits_rounds (lo := 314159265358979323846) (hi := 314159265358979323847) (den := 2 * 10 ^ 20)
      (by norm_num) (by norm_num) (by decide +kernel) (by push_cast; norm_num at pl ⊢; linarith) (by push_cast; norm_num at ph ⊢; linarith)
  · exact nearestBits_rounds (lo := 314159265358979323846) (hi := 314159265358979323847) (den := 2 * 10 ^ 20)
      (by norm_num) (by norm_num) (by decide +kernel) (by push_cast; norm_num at pl ⊢; linarith) (by push_cast; norm_num at ph ⊢; linarith)
  · exact nearestBits_rounds (lo := 2 * 314159265358979323846) (hi := 2 * 314159265358979323847) (den := 10 ^ 20)
      (by norm_num) (by norm_num) (by decide +kernel) (by push_cast; norm_num at pl ⊢; linarith) (by push_cast; norm_num at ph ⊢; linarith)
  · exact nearestBits_rounds (lo := 2 * 314159265358979323846) (hi := 2 * 314159265358979323847) (den := 10 ^ 20)
      (by norm_num) (by norm_num) (by decide +kernel) (by push_cast; norm_num at pl ⊢; linarith) (by push_cast; norm_num at ph ⊢; linarith)
  · exact nearestBits_rounds (lo := 1) (hi := 1) (den := 3) (by norm_num) (by norm_num) (by decide +kernel) (by norm_num) (by norm_num)
  · exact nearestBits_rounds (lo := 1) (hi := 1) (den := 3) (by norm_num) (by norm_num) (by decide +kernel) (by norm_num) (by norm_num)
  · exact nearestBits_rounds (lo := 2) (hi := 2) (den := 3) (by norm_num) (by norm_num) (by decide +kernel) (by norm_num) (by norm_num)
  · exact nearestBits_rounds (lo := 2) (hi := 2) (den := 3) (by norm_num) (by norm_num) (by decide +kernel) (by norm_num) (by norm_num)

/-- Integer test for a regular icosahedron: the scalar product of two centres is `±1`, `±√5/3` or `±1/3`, tested by its square. -/
def icosaCheck (k t : ℕ) (l : List (ℤ × ℤ × ℤ)) : Bool :=
  l.all fun v => l.all fun w =>
    let d := (v.1 * w.1 + v.2.1 * w.2.1 + v.2.2 * w.2.2) ^ 2
    decide (2 ^ t * (d - 2 ^ (4 * k)).natAbs ≤ 2 ^ (4 * k)) || decide (2 ^ t * (9 * d - 5 * 2 ^ (4 * k)).natAbs ≤ 2 ^ (4 * k)) ||
      decide (2 ^ t * (9 * d - 2 ^ (4 * k)).natAbs ≤ 2 ^ (4 * k))

/-- The scalar product of two face centres. -/
noncomputable def faceDot (F : Ieee.Format) (c c' : Face) : ℝ :=
  Ieee.patternVal F c.px * Ieee.patternVal F c'.px + Ieee.patternVal F c.py * Ieee.patternVal F c'.py + Ieee.patternVal F c.pz * Ieee.patternVal F c'.pz

theorem icosa_ok {E M k t : ℕ} {l : List Face} (hs : ∀ c ∈ l, scalable E M k c.px = true ∧ scalable E M k c.py = true ∧ scalable E M k c.pz = true)
    (h : icosaCheck k t (l.map (centreInt E M k)) = true) {c c' : Face} (hc : c ∈ l) (hc' : c' ∈ l) :
    |faceDot ⟨E, M⟩ c c' ^ 2 - 1| ≤ 1 / 2 ^ t ∨ |9 * faceDot ⟨E, M⟩ c c' ^ 2 - 5| ≤ 1 / 2 ^ t ∨ |9 * faceDot ⟨E, M⟩ c c' ^ 2 - 1| ≤ 1 / 2 ^ t := by
  simp only [icosaCheck, List.all_eq_true, Bool.or_eq_true, decide_eq_true_eq] at h
  have h := h _ (List.mem_map_of_mem hc) _ (List.mem_map_of_mem hc')
  simp only [centreInt] at h
  obtain ⟨a1, a2, a3⟩ := hs c hc
  obtain ⟨b1, b2, b3⟩ := hs c' hc'
  have hd : faceDot ⟨E, M⟩ c c' = ((scaledVal E M k c.px * scaledVal E M k c'.px + scaledVal E M k c.py * scaledVal E M k c'.py +
      scaledVal E M k c.pz * scaledVal E M k c'.pz : ℤ) : ℝ) / (2 ^ k) ^ 2 := by
    unfold faceDot
    rw [patternVal_scaled a1, patternVal_scaled a2, patternVal_scaled a3, patternVal_scaled b1, patternVal_scaled b2, patternVal_scaled b3]
    push_cast
    field_simp
  rw [hd]
  generalize scaledVal E M k c.px * scaledVal E M k c'.px + scaledVal E M k c.py * scaledVal E M k c'.py +
      scaledVal E M k c.pz * scaledVal E M k c'.pz = D at *
  have hK4 : (2:ℝ) ^ (4 * k) = (2 ^ k) ^ 4 := by rw [← pow_mul, mul_comm]
  have fin : ∀ {a v : ℝ}, |a| ≤ (2 ^ k) ^ 4 / 2 ^ t → v = a / (2 ^ k) ^ 4 → |v| ≤ 1 / 2 ^ t := by
    intro a v h hv
    have hK : (0:ℝ) < 2 ^ k := by positivity
    rw [hv, abs_div, abs_of_pos (show (0:ℝ) < (2 ^ k) ^ 4 by positivity), div_le_iff₀ (by positivity)]
    rw [div_mul_eq_mul_div, one_mul]; exact h
  rcases h with (h | h) | h
  · have n := natAbs_real h
    push_cast at n
    rw [hK4] at n
    exact .inl (fin n (by field_simp))
  · have n := natAbs_real h
    push_cast at n
    rw [hK4] at n
    exact .inr (.inl (fin n (by field_simp)))
  · have n := natAbs_real h
    push_cast at n
    rw [hK4] at n
    exact .inr (.inr (fin n (by field_simp)))

/-- **C44** The face centres are those of a regular icosahedron: the squared cosine of the angle between any two is `1`, `5/9` or `1/9`, up to `2^-18`
(single) and `2^-46` (double precision). -/
theorem C44_icosahedron :
    (∀ c ∈ geo32.faces, ∀ c' ∈ geo32.faces, |faceDot ⟨8, 23⟩ c c' ^ 2 - 1| ≤ 1 / 2 ^ 18 ∨ |9 * faceDot ⟨8, 23⟩ c c' ^ 2 - 5| ≤ 1 / 2 ^ 18 ∨
      |9 * faceDot ⟨8, 23⟩ c c' ^ 2 - 1| ≤ 1 / 2 ^ 18) ∧
    (∀ c ∈ geo64.faces, ∀ c' ∈ geo64.faces, |faceDot ⟨11, 52⟩ c c' ^ 2 - 1| ≤ 1 / 2 ^ 46 ∨ |9 * faceDot ⟨11, 52⟩ c c' ^ 2 - 5| ≤ 1 / 2 ^ 46 ∨
      |9 * faceDot ⟨11, 52⟩ c c' ^ 2 - 1| ≤ 1 / 2 ^ 46) :=
  ⟨fun c hc c' hc' => icosa_ok scalable32 (t := 18) (by decide +kernel) hc hc',
    fun c hc c' hc' => icosa_ok scalable64 (t := 46) (by decide +kernel) hc hc'⟩

/-- **C44** `Ap7rot` is the angle between the grid classes: its sine squared is `3/28`, up to `2^-22` and `2^-50`. -/
theorem C44_rotation : |Real.sin (Ieee.patternVal ⟨8, 23⟩ ap7rot32) ^ 2 - 3 / 28| ≤ 1 / 2 ^ 22 ∧
    |Real.sin (Ieee.patternVal ⟨11, 52⟩ ap7rot64) ^ 2 - 3 / 28| ≤ 1 / 2 ^ 50 := by
  have key : ∀ {s a δ ε : ℝ}, |a - s| ≤ δ → |a| ≤ 1 → δ ≤ 1 → |a ^ 2 - 3 / 28| + 3 * δ ≤ ε → |s ^ 2 - 3 / 28| ≤ ε := by
    intro s a δ ε h ha hδ he
    have e : s ^ 2 - 3 / 28 = (a ^ 2 - 3 / 28) - (a - s) * (2 * a - (a - s)) := by ring
    rw [e]
    refine (abs_sub _ _).trans (le_trans ?_ he)
    refine add_le_add le_rfl ?_
    rw [abs_mul]
    have h2 : |2 * a - (a - s)| ≤ 3 := by
      refine (abs_sub _ _).trans ?_
      rw [abs_mul, abs_two]; linarith
    calc |a - s| * |2 * a - (a - s)| ≤ δ * 3 := mul_le_mul h h2 (abs_nonneg _) ((abs_nonneg _).trans h)
      _ = 3 * δ := by ring
  constructor
  · rw [patternVal_scaled (k := 40) (by decide)]
    refine key (trigCheck_sin (V := 359899665204) (k := 40) (n := 30) (t := 30) (by decide +kernel)) ?_ (by norm_num) ?_
    · norm_num [abs_of_pos]
    · rw [abs_of_nonneg (by norm_num)] <;> norm_num
  · rw [patternVal_scaled (k := 64) (by decide)]
    refine key (trigCheck_sin (V := 6038114360232290478) (k := 64) (n := 30) (t := 54) (by decide +kernel)) ?_ (by norm_num) ?_
    · norm_num [abs_of_pos]
    · rw [abs_of_nonpos (by norm_num)] <;> norm_num

end ZkLoc
