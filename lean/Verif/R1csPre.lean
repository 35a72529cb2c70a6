import Verif.R1csFrame
import Verif.R1csWidth
import Verif.R1csTests

/-!
# The location circuits with hinted sines, compiled

`loc2Index32Circuit.Define` (/repo/loc2index32/loc2index32_test.go:37-153) and `loc2Index64Circuit.Define` (/repo/loc2index64/loc2index64_test.go:35-168), in the order of the code.
-/

namespace ZkLoc.R1cs

set_option maxRecDepth 8000

section
variable {p : ℕ} {V : Type} {m : Type → Type} [Monad m] [Ops p V] [Api p V m]
open Ops

/-- Four outputs of the hint put into a float, /repo/loc2index32/loc2index32_test.go:62-65; `h` are the values that the hint function computes. -/
def hintFloat (h : FloatVar p) : m (FV V) := do
  let s ← Api.hint [] fun _ => some h.sign
  let e ← Api.hint [] fun _ => some h.exponent
  let mm ← Api.hint [] fun _ => some h.mantissa
  let a ← Api.hint [] fun _ => some h.isAbnormal
  pure ⟨s, e, mm, a⟩

/-- The hinted values `(α, β, γ, δ)`, /repo/loc2index32/loc2index32_test.go:53-81: four floats are allocated by `NewFloat(0)`, and then replaced by the sixteen outputs of the hint. -/
def precompute (f : Fmt) (h : Pre p) : m (FV V × FV V × FV V × FV V) := do
  let _ ← newFloat f (lit 0 : V)
  let _ ← newFloat f (lit 0 : V)
  let _ ← newFloat f (lit 0 : V)
  let _ ← newFloat f (lit 0 : V)
  let alpha ← hintFloat h.alpha
  let beta ← hintFloat h.beta
  let gamma ← hintFloat h.gamma
  let delta ← hintFloat h.delta
  pure (alpha, beta, gamma, delta)

/-- `γ² + δ²`, /repo/loc2index32/loc2index32_test.go:113-115. -/
def preIdentity (f : Fmt) (v : FV V × FV V × FV V × FV V) : m (FV V) := do
  let dd ← fMul f v.2.2.2 v.2.2.2
  let gg ← fMul f v.2.2.1 v.2.2.1
  fAdd f gg dd

/-- How two values are compared: `AssertIsEqualOrCustomULP32`/`64` with a given number, or `AssertIsEqualOrULP`. -/
def compare (f : Fmt) (u : Option ℕ) (x y : FV V) : m Unit :=
  match u with
  | some n => fAssertIsEqualOrCustomULP f x y n
  | none => fAssertIsEqualOrULP f x y

/-- Check 2, `αδ = γ`, /repo/loc2index32/loc2index32_test.go:123-124. -/
def preCheck2 (f : Fmt) (u : Option ℕ) (v : FV V × FV V × FV V × FV V) : m Unit := do
  let ad ← fMul f v.1 v.2.2.2
  compare f u ad v.2.2.1

/-- Check 3, `2γδ = β`, /repo/loc2index32/loc2index32_test.go:127-128. -/
def preCheck3 (f : Fmt) (g : GeoConsts) (u : Option ℕ) (v : FV V × FV V × FV V × FV V) : m Unit := do
  let gd ← fMul f v.2.2.1 v.2.2.2
  let gd2 ← fMul f (newConstant f g.two) gd
  compare f u gd2 v.2.1

/-- `δ² - γ²`, /repo/loc2index32/loc2index32_test.go:131-132. -/
def preCos (f : Fmt) (v : FV V × FV V × FV V × FV V) : m (FV V) := do
  let dd ← fMul f v.2.2.2 v.2.2.2
  let gg ← fMul f v.2.2.1 v.2.2.1
  fSub f dd gg

/-- What follows the hints, /repo/loc2index32/loc2index32_test.go:112-150 and /repo/loc2index64/loc2index64_test.go:126-165. The comparisons: `c1` for check 1, `c2` and `c2'` for check 2 of latitude and
longitude, `c3` for check 3. -/
def preBody (f : Fmt) (g : GeoConsts) (c1 c2 c2' c3 : Option ℕ) (Resolution I J K : V) (u v : FV V × FV V × FV V × FV V) : m Unit := do
  let idLat ← preIdentity f u
  let idLng ← preIdentity f v
  compare f c1 idLat (newConstant f g.one)
  compare f c1 idLng (newConstant f g.one)
  preCheck2 f c2 u
  preCheck2 f c2' v
  preCheck3 f g c3 u
  preCheck3 f g c3 v
  let cosLat ← preCos f u
  let cosLng ← preCos f v
  let ijk ← locCell f g u.2.1 cosLat v.2.1 cosLng Resolution
  assertCell ijk I J K

/-- The values not used afterwards, /repo/loc2index64/loc2index64_test.go:52-66; the single-precision circuit does not have them. -/
def preUnused (f : Fmt) (g : GeoConsts) (unused : Bool) (lat lng : FV V) : m Unit :=
  match unused with
  | false => pure ()
  | true => do
    let _ ← fAdd f lat (newConstant f g.halfPi)
    let _ ← shiftedLng f g lng
    pure ()

/-- The part up to the hints. -/
def preHead [ApiZero V m] (nbBits : ℕ) (f : Fmt) (g : GeoConsts) (unused : Bool) (hLat hLng : Pre p) (Lat Lng Resolution : V) : m ((FV V × FV V × FV V × FV V) × (FV V × FV V × FV V × FV V)) := do
  let inp ← locInputs nbBits f g Lat Lng Resolution
  preUnused f g unused inp.1 inp.2
  let u ← precompute f hLat
  let v ← precompute f hLng
  pure (u, v)

/-- The circuits. -/
def precomputeCircuit [ApiZero V m] (nbBits : ℕ) (f : Fmt) (g : GeoConsts) (unused : Bool) (c1 c2 c2' c3 : Option ℕ) (hLat hLng : Pre p) (Lat Lng Resolution I J K : V) : m Unit := do
  let h ← preHead nbBits f g unused hLat hLng Lat Lng Resolution
  preBody f g c1 c2 c2' c3 Resolution I J K h.1 h.2

/-- `loc2Index32Circuit.Define`. -/
def precompute32 [ApiZero V m] (nbBits : ℕ) (hLat hLng : Pre p) (Lat Lng Resolution I J K : V) : m Unit :=
  precomputeCircuit nbBits f32 geo32 false (some 0x3f800000) (some 0x3f800000) (some 0x3f800000) (some 0x3f800000) hLat hLng Lat Lng Resolution I J K

/-- `loc2Index64Circuit.Define`. -/
def precompute64 [ApiZero V m] (nbBits : ℕ) (hLat hLng : Pre p) (Lat Lng Resolution I J K : V) : m Unit :=
  precomputeCircuit nbBits f64 geo64 true (some 0x4000000000000000) (some 0x4000000000000000) none none hLat hLng Lat Lng Resolution I J K
end

variable {p : ℕ} {b : ℕ} {f : Fmt} {g : GeoConsts} {Γ : Env p}

section
variable [Fact p.Prime]

/-! ### Refinement of the parts -/

/-- An operand of a product has a boolean sign. -/
theorem fMul_bools {u v y : FV (ZMod p)} (h : (fMul f u v : Circ p _).Sat b true y) : isBool u.sign = true ∧ isBool v.sign = true := by
  unfold fMul at h
  obtain ⟨s, h1, -⟩ := (Circ.sat_bind _ _ _).1 h
  exact ⟨h1.1 rfl, h1.2.1 rfl⟩

theorem mono_hintFloat {h : FloatVar p} : Mono b (hintFloat h : Bld p (FV (Lin p))) := by unfold hintFloat; mono
theorem ref_hintFloat {h : FloatVar p} : Ref b Γ (hintFloat h : Bld p (FV (Lin p))) (hintFloat h : Circ p (FV (ZMod p))) := by
  unfold hintFloat
  exact ref_bind (ref_hint _ _ _) (fun _ => by mono) fun _ _ _ => ref_bind (ref_hint _ _ _) (fun _ => by mono) fun _ _ _ => ref_bind (ref_hint _ _ _) (fun _ => by mono) fun _ _ _ =>
    ref_bind (ref_hint _ _ _) (fun _ => by mono) fun _ _ _ => by ref
theorem mono_precompute {h : Pre p} : Mono b (precompute f h : Bld p (FV (Lin p) × FV (Lin p) × FV (Lin p) × FV (Lin p))) := by unfold precompute; mono
theorem ref_precompute {h : Pre p} : Ref b Γ (precompute f h : Bld p (FV (Lin p) × FV (Lin p) × FV (Lin p) × FV (Lin p))) (precompute f h : Circ p (FV (ZMod p) × FV (ZMod p) × FV (ZMod p) × FV (ZMod p))) := by
  unfold precompute; ref

theorem mono_preIdentity {v : FV (Lin p) × FV (Lin p) × FV (Lin p) × FV (Lin p)} : Mono b (preIdentity f v : Bld p _) := by unfold preIdentity; mono
theorem mono_compare {u : Option ℕ} {x y : FV (Lin p)} : Mono b (compare f u x y : Bld p _) := by
  cases u
  · exact mono_fAssertIsEqualOrULP
  · exact mono_fAssertIsEqualOrCustomULP
theorem mono_preCheck2 {u : Option ℕ} {v : FV (Lin p) × FV (Lin p) × FV (Lin p) × FV (Lin p)} : Mono b (preCheck2 f u v : Bld p _) := by unfold preCheck2; mono
theorem mono_preCheck3 {u : Option ℕ} {v : FV (Lin p) × FV (Lin p) × FV (Lin p) × FV (Lin p)} : Mono b (preCheck3 f g u v : Bld p _) := by unfold preCheck3; mono
theorem mono_preCos {v : FV (Lin p) × FV (Lin p) × FV (Lin p) × FV (Lin p)} : Mono b (preCos f v : Bld p _) := by unfold preCos; mono

variable {v : FV (Lin p) × FV (Lin p) × FV (Lin p) × FV (Lin p)} {v' : FV (ZMod p) × FV (ZMod p) × FV (ZMod p) × FV (ZMod p)}

theorem ref_preIdentity (hv : DerO Γ v v') : Ref b Γ (preIdentity f v : Bld p _) (preIdentity f v' : Circ p _) := by unfold preIdentity; ref
theorem preIdentity_bools {y : FV (ZMod p)} (h : (preIdentity f v' : Circ p _).Sat b true y) : isBool v'.2.2.1.sign = true ∧ isBool v'.2.2.2.sign = true := by
  unfold preIdentity at h
  obtain ⟨s, h1, h⟩ := (Circ.sat_bind _ _ _).1 h
  obtain ⟨t, h2, -⟩ := (Circ.sat_bind _ _ _).1 h
  exact ⟨(fMul_bools h2).1, (fMul_bools h1).1⟩
theorem ref_compare {u : Option ℕ} {x y : FV (Lin p)} {x' y' : FV (ZMod p)} (hx : DerO Γ x x') (hy : DerO Γ y y') (hs : isBool y'.sign = true) :
    Ref b Γ (compare f u x y : Bld p _) (compare f u x' y' : Circ p _) := by
  cases u
  · exact ref_fAssertIsEqualOrULP hx hy
  · exact ref_fAssertIsEqualOrCustomULP hx hy hs
theorem ref_preCheck2 {u : Option ℕ} (hv : DerO Γ v v') (hs : isBool v'.2.2.1.sign = true) : Ref b Γ (preCheck2 f u v : Bld p _) (preCheck2 f u v' : Circ p _) := by unfold preCheck2; ref
theorem ref_preCheck3 {u : Option ℕ} (hv : DerO Γ v v') (hs : isBool v'.2.1.sign = true) : Ref b Γ (preCheck3 f g u v : Bld p _) (preCheck3 f g u v' : Circ p _) := by unfold preCheck3; ref
theorem ref_preCos (hv : DerO Γ v v') : Ref b Γ (preCos f v : Bld p _) (preCos f v' : Circ p _) := by unfold preCos; ref

/-- The body, if the signs of the hinted sines are bits. -/
theorem ref_preBody (hg : Small f g) {c1 c2 c2' c3 : Option ℕ} {u : FV (Lin p) × FV (Lin p) × FV (Lin p) × FV (Lin p)} {u' : FV (ZMod p) × FV (ZMod p) × FV (ZMod p) × FV (ZMod p)}
    {r i j k : Lin p} {r' i' j' k' : ZMod p} (hu : DerO Γ u u') (hv : DerO Γ v v') (hr : Der Γ r r') (hi : Der Γ i i') (hj : Der Γ j j') (hk : Der Γ k k')
    (hs : isBool u'.2.1.sign = true) (ht : isBool v'.2.1.sign = true) :
    Ref b Γ (preBody f g c1 c2 c2' c3 r i j k u v : Bld p _) (preBody f g c1 c2 c2' c3 r' i' j' k' u' v' : Circ p _) := by
  have h1 : isBool (newConstant f g.one : FV (ZMod p)).sign = true := newConstant_sign hg.one
  unfold preBody
  refine ref_bind (ref_preIdentity hu) (fun _ => by mono) fun _ _ e1 => ref_bind (ref_preIdentity hv.tail) (fun _ => by mono) fun _ _ e2 => ?_
  refine ref_bind (ref_compare derO_head.tail derO_newConstant h1) (fun _ => by mono) fun _ _ _ => ref_bind (ref_compare derO_head.tail derO_newConstant h1) (fun _ => by mono) fun _ _ _ => ?_
  refine ref_bind (ref_preCheck2 hu.tail.tail.tail.tail (preIdentity_bools e1).1) (fun _ => by mono) fun _ _ _ => ?_
  refine ref_bind (ref_preCheck2 hv.tail.tail.tail.tail.tail (preIdentity_bools e2).1) (fun _ => by mono) fun _ _ _ => ?_
  refine ref_bind (ref_preCheck3 hu.tail.tail.tail.tail.tail.tail hs) (fun _ => by mono) fun _ _ _ => ?_
  refine ref_bind (ref_preCheck3 hv.tail.tail.tail.tail.tail.tail.tail ht) (fun _ => by mono) fun _ _ _ => ?_
  refine ref_bind (ref_preCos hu.tail.tail.tail.tail.tail.tail.tail.tail) (fun _ => by mono) fun _ _ _ => ?_
  refine ref_bind (ref_preCos hv.tail.tail.tail.tail.tail.tail.tail.tail.tail) (fun _ => by mono) fun _ _ _ => ?_
  refine ref_bind (ref_locCell hg hu.tail.tail.tail.tail.tail.tail.tail.tail.tail.tail.snd.fst derO_head.tail hv.tail.tail.tail.tail.tail.tail.tail.tail.tail.tail.snd.fst derO_head
    hr.tail.tail.tail.tail.tail.tail.tail.tail.tail.tail hs) (fun _ => mono_assertCell) fun _ _ _ => ?_
  exact ref_assertCell derO_head hi.tail.tail.tail.tail.tail.tail.tail.tail.tail.tail.tail hj.tail.tail.tail.tail.tail.tail.tail.tail.tail.tail.tail hk.tail.tail.tail.tail.tail.tail.tail.tail.tail.tail.tail

/-- The circuit makes the signs of sine of latitude and of longitude bits. -/
theorem locCell_bools {a1 a2 a3 a4 : FV (ZMod p)} {q : ZMod p} {y : ZMod p × ZMod p × ZMod p} (h : (locCell f g a1 a2 a3 a4 q : Circ p _).Sat b true y) : isBool a1.sign = true ∧ isBool a3.sign = true := by
  unfold locCell at h
  obtain ⟨_, _, h⟩ := (Circ.sat_bind _ _ _).1 h
  obtain ⟨_, h3, h⟩ := (Circ.sat_bind _ _ _).1 h
  obtain ⟨_, _, h⟩ := (Circ.sat_bind _ _ _).1 h
  obtain ⟨_, _, h⟩ := (Circ.sat_bind _ _ _).1 h
  obtain ⟨_, h, -⟩ := (Circ.sat_bind _ _ _).1 h
  refine ⟨?_, (fMul_bools h3).2⟩
  unfold calculateHex2d at h
  obtain ⟨_, _, h⟩ := (Circ.sat_bind _ _ _).1 h
  obtain ⟨_, _, h⟩ := (Circ.sat_bind _ _ _).1 h
  obtain ⟨_, _, h⟩ := (Circ.sat_bind _ _ _).1 h
  obtain ⟨_, _, h⟩ := (Circ.sat_bind _ _ _).1 h
  obtain ⟨_, _, h⟩ := (Circ.sat_bind _ _ _).1 h
  obtain ⟨_, h, -⟩ := (Circ.sat_bind _ _ _).1 h
  exact (fMul_bools h).2

theorem preBody_bools {c1 c2 c2' c3 : Option ℕ} {u' : FV (ZMod p) × FV (ZMod p) × FV (ZMod p) × FV (ZMod p)} {r i j k : ZMod p} {y : Unit}
    (h : (preBody f g c1 c2 c2' c3 r i j k u' v' : Circ p _).Sat b true y) : isBool u'.2.1.sign = true ∧ isBool v'.2.1.sign = true := by
  unfold preBody at h
  obtain ⟨_, _, h⟩ := (Circ.sat_bind _ _ _).1 h
  obtain ⟨_, _, h⟩ := (Circ.sat_bind _ _ _).1 h
  obtain ⟨_, _, h⟩ := (Circ.sat_bind _ _ _).1 h
  obtain ⟨_, _, h⟩ := (Circ.sat_bind _ _ _).1 h
  obtain ⟨_, _, h⟩ := (Circ.sat_bind _ _ _).1 h
  obtain ⟨_, _, h⟩ := (Circ.sat_bind _ _ _).1 h
  obtain ⟨_, _, h⟩ := (Circ.sat_bind _ _ _).1 h
  obtain ⟨_, _, h⟩ := (Circ.sat_bind _ _ _).1 h
  obtain ⟨_, _, h⟩ := (Circ.sat_bind _ _ _).1 h
  obtain ⟨_, _, h⟩ := (Circ.sat_bind _ _ _).1 h
  obtain ⟨_, h, -⟩ := (Circ.sat_bind _ _ _).1 h
  exact locCell_bools h

end

/-! ### The compiled circuit constrains these signs -/

section
variable {i : ℕ} {x y : FV (Lin p)} {v : FV (Lin p) × FV (Lin p) × FV (Lin p) × FV (Lin p)}

theorem nx_hintFloat {h : FloatVar p} : Nx (hintFloat h : Bld p (FV (Lin p))) := by unfold hintFloat; nexts
theorem nx_precompute {h : Pre p} : Nx (precompute f h : Bld p (FV (Lin p) × FV (Lin p) × FV (Lin p) × FV (Lin p))) := by unfold precompute; nexts
theorem nx_preIdentity : Nx (preIdentity f v : Bld p _) := by unfold preIdentity; nexts
theorem nx_compare {u : Option ℕ} : Nx (compare f u x y : Bld p _) := by
  cases u
  · exact nx_fAssertIsEqualOrULP
  · exact nx_fAssertIsEqualOrCustomULP
theorem nx_preCheck2 {u : Option ℕ} : Nx (preCheck2 f u v : Bld p _) := by unfold preCheck2; nexts
theorem nx_preCheck3 {u : Option ℕ} : Nx (preCheck3 f g u v : Bld p _) := by unfold preCheck3; nexts
theorem nx_preCos : Nx (preCos f v : Bld p _) := by unfold preCos; nexts
theorem nx_preUnused {t : Bool} : Nx (preUnused f g t x y : Bld p _) := by
  cases t
  · exact nx_pure
  · exact nx_bind nx_fAdd fun _ => nx_bind nx_shiftedLng fun _ => nx_pure

theorem fr_preIdentity : Fr i (preIdentity f v : Bld p _) fun _ => True := by unfold preIdentity; frame
theorem fr_compare {u : Option ℕ} (hy : Tame i y) : Fr i (compare f u x y : Bld p _) fun _ => True := by
  cases u
  · exact fr_fAssertIsEqualOrULP
  · exact fr_fAssertIsEqualOrCustomULP hy.1 hy.2
theorem fr_preCheck2 {u : Option ℕ} (h : Tame i v.2.2.1) : Fr i (preCheck2 f u v : Bld p _) fun _ => True := by
  unfold preCheck2
  exact fr_bind fr_fMul nx_fMul (fun _ => nx_compare) fun _ _ => fr_compare h
theorem fr_preCheck3 {u : Option ℕ} (h : Tame i v.2.1) : Fr i (preCheck3 f g u v : Bld p _) fun _ => True := by
  unfold preCheck3
  exact fr_bind fr_fMul nx_fMul (fun _ => nx_bind nx_fMul fun _ => nx_compare) fun _ _ => fr_bind fr_fMul nx_fMul (fun _ => nx_compare) fun _ _ => fr_compare h
theorem fr_preCos : Fr i (preCos f v : Bld p _) fun r => Free i r.sign ∧ Free i r.isAbnormal := by unfold preCos; frame
theorem fr_preUnused {t : Bool} : Fr i (preUnused f g t x y : Bld p _) fun _ => True := by
  cases t
  · exact fr_pure trivial
  · exact fr_bind (fr_fAdd free_lit) nx_fAdd (fun _ => nx_bind nx_shiftedLng fun _ => nx_pure) fun _ _ => fr_bind fr_shiftedLng nx_shiftedLng (fun _ => nx_pure) fun _ _ => fr_pure trivial

variable [Fact p.Prime]

theorem fc_locCell_lng {a1 a2 a3 a4 : FV (Lin p)} {q : Lin p} (h : a3.sign = .wire i) : Fc b i (locCell f g a1 a2 a3 a4 q : Bld p _) := by
  unfold locCell
  exact fc_right fr_fMul nx_fMul fun _ _ => fc_left (fc_fMul h) fun _ => by mono
theorem fc_calculateHex2d {a1 a2 a3 a4 r : FV (Lin p)} {d : FD (Lin p)} {q : Lin p} (h : a1.sign = .wire i) : Fc b i (calculateHex2d f a1 a2 a3 a4 d r q : Bld p _) := by
  unfold calculateHex2d; dsimp only
  refine fc_right fr_toBinary4 nx_toBinary4 fun _ _ => fc_right fr_fMul nx_fMul fun _ _ => fc_right fr_fMul nx_fMul fun _ h2 => ?_
  exact fc_right (fr_fSub (tame_of h2).1 h2.2) nx_fSub fun _ _ => fc_right fr_fMul nx_fMul fun _ _ => fc_left (fc_fMul h) fun _ => by mono
theorem fc_locCell_lat {a1 a2 a3 a4 : FV (Lin p)} {q : Lin p} (h : a1.sign = .wire i) (ht : Tame i a1) : Fc b i (locCell f g a1 a2 a3 a4 q : Bld p _) := by
  unfold locCell
  exact fc_right fr_fMul nx_fMul fun _ hx => fc_right fr_fMul nx_fMul fun _ hy => fc_right (fr_closestFace (tame_of hx) (tame_of hy) ht) nx_closestFace fun _ hd =>
    fc_right (fr_calculateR hd.1 hd.2) nx_calculateR fun _ _ => fc_left (fc_calculateHex2d h) fun _ => by mono

/-- In the body the sign of a hinted sine is constrained to be a bit, if before it is believed to be one only if it is constrained. -/
theorem fc_preBody {c1 c2 c2' c3 : Option ℕ} {u : FV (Lin p) × FV (Lin p) × FV (Lin p) × FV (Lin p)} {r i' j k : Lin p} (h1 : Tame i u.2.1) (h2 : Tame i u.2.2.1) (h3 : Tame i v.2.1) (h4 : Tame i v.2.2.1)
    (h : u.2.1.sign = .wire i ∨ v.2.1.sign = .wire i) : Fc b i (preBody f g c1 c2 c2' c3 r i' j k u v : Bld p _) := by
  have hc : Tame i (newConstant f g.one : FV (Lin p)) := tame_of ⟨free_lit, free_lit⟩
  unfold preBody
  refine fc_right fr_preIdentity nx_preIdentity fun _ _ => fc_right fr_preIdentity nx_preIdentity fun _ _ => fc_right (fr_compare hc) nx_compare fun _ _ => fc_right (fr_compare hc) nx_compare fun _ _ => ?_
  refine fc_right (fr_preCheck2 h2) nx_preCheck2 fun _ _ => fc_right (fr_preCheck2 h4) nx_preCheck2 fun _ _ => ?_
  refine fc_right (fr_preCheck3 h1) nx_preCheck3 fun _ _ => fc_right (fr_preCheck3 h3) nx_preCheck3 fun _ _ => fc_right fr_preCos nx_preCos fun _ _ => fc_right fr_preCos nx_preCos fun _ _ => ?_
  refine fc_left ?_ fun _ => mono_assertCell
  rcases h with h | h
  · exact fc_locCell_lat h h1
  · exact fc_locCell_lng h

end

/-! ### The wires of the hints -/

section
variable {i : ℕ}

/-- The float of four wires. -/
def wireFloat (n : ℕ) : FV (Lin p) := ⟨.wire n, .wire (n + 1), .wire (n + 2), .wire (n + 3)⟩

theorem hintFloat_eq (h : FloatVar p) (σ : Cs p) : (hintFloat h : Bld p (FV (Lin p))) σ = some (wireFloat σ.next, { σ with next := σ.next + 4 }) := rfl

/-- A float of wires other than `i`, or with `i` as its sign. -/
theorem tame_wireFloat [Fact p.Prime] {n : ℕ} (h : n + 3 ≠ i) : Tame i (wireFloat n : FV (Lin p)) := by
  refine ⟨fun e => ?_, free_wire h⟩
  have := congrArg Lin.c e
  simp [wireFloat, Ops.sub, Ops.lit, Lin.sub, Lin.add, Lin.neg, Lin.lit, Lin.wire] at this

theorem precompute_wires {h : Pre p} {σ σ' : Cs p} {v : FV (Lin p) × FV (Lin p) × FV (Lin p) × FV (Lin p)} (he : (precompute f h : Bld p _) σ = some (v, σ')) :
    ∃ n, σ.next ≤ n ∧ v = (wireFloat n, wireFloat (n + 4), wireFloat (n + 8), wireFloat (n + 12)) ∧ σ'.next = n + 16 ∧ ∀ i, (i < σ.next ∨ n ≤ i) → Inv i σ → Inv i σ' := by
  unfold precompute at he
  obtain ⟨⟨x1, σ1⟩, e1, he⟩ := Option.bind_eq_some_iff.1 he
  obtain ⟨⟨x2, σ2⟩, e2, he⟩ := Option.bind_eq_some_iff.1 he
  obtain ⟨⟨x3, σ3⟩, e3, he⟩ := Option.bind_eq_some_iff.1 he
  obtain ⟨⟨x4, σ4⟩, e4, he⟩ := Option.bind_eq_some_iff.1 he
  have n1 : σ.next ≤ σ1.next := nx_newFloat _ _ _ e1
  have n2 : σ1.next ≤ σ2.next := nx_newFloat _ _ _ e2
  have n3 : σ2.next ≤ σ3.next := nx_newFloat _ _ _ e3
  have n4 : σ3.next ≤ σ4.next := nx_newFloat _ _ _ e4
  obtain ⟨rfl, rfl⟩ := Prod.mk.inj (Option.some.inj he)
  refine ⟨σ4.next, by omega, rfl, rfl, fun i hi hv => ?_⟩
  have f1 := (fr_newFloat (i := i) σ _ σ1 e1 (by omega) hv).2
  have f2 := (fr_newFloat (i := i) σ1 _ σ2 e2 (by omega) f1).2
  have f3 := (fr_newFloat (i := i) σ2 _ σ3 e3 (by omega) f2).2
  exact (fr_newFloat (i := i) σ3 _ σ4 e4 (by omega) f3).2

/-- After the head the signs of the hinted sines are wires that no one believes to be bits. -/
theorem preHead_wires {n N : ℕ} {t : Bool} {hLat hLng : Pre p} {a c r : Lin p} {σ' : Cs p} {h : (FV (Lin p) × FV (Lin p) × FV (Lin p) × FV (Lin p)) × (FV (Lin p) × FV (Lin p) × FV (Lin p) × FV (Lin p))}
    (he : (preHead N f g t hLat hLng a c r : Bld p _) ⟨n, [], [], [], []⟩ = some (h, σ')) :
    ∃ k l, k + 16 ≤ l ∧ h = ((wireFloat k, wireFloat (k + 4), wireFloat (k + 8), wireFloat (k + 12)), (wireFloat l, wireFloat (l + 4), wireFloat (l + 8), wireFloat (l + 12))) ∧ σ'.next = l + 16 ∧
      Inv (k + 4) σ' ∧ Inv (l + 4) σ' := by
  unfold preHead at he
  obtain ⟨⟨x1, σ1⟩, e1, he⟩ := Option.bind_eq_some_iff.1 he
  obtain ⟨⟨x2, σ2⟩, e2, he⟩ := Option.bind_eq_some_iff.1 he
  obtain ⟨⟨u, σ3⟩, e3, he⟩ := Option.bind_eq_some_iff.1 he
  obtain ⟨⟨v, σ4⟩, e4, he⟩ := Option.bind_eq_some_iff.1 he
  obtain ⟨rfl, rfl⟩ := Prod.mk.inj (Option.some.inj he)
  have n2 : σ1.next ≤ σ2.next := nx_preUnused _ _ _ e2
  obtain ⟨k, hk, rfl, hk', kf⟩ := precompute_wires (σ := σ2) e3
  obtain ⟨l, hl, rfl, hl', lf⟩ := precompute_wires (σ := σ3) e4
  have inv : ∀ i, k ≤ i → Inv i σ3 := fun i hi => by
    have f1 := (fr_locInputs (i := i) _ _ σ1 e1 (.inr (by omega)) (fun h => absurd h (by simp))).2
    have f2 := (fr_preUnused (i := i) σ1 _ σ2 e2 (.inr (by omega)) f1).2
    exact kf i (.inr hi) f2
  exact ⟨k, l, by omega, rfl, hl', lf _ (.inl (by omega)) (inv _ (by omega)), lf _ (.inr (by omega)) (inv _ (by omega))⟩

end

/-! ### The circuit -/

section
variable [Fact p.Prime]

theorem mono_preUnused {t : Bool} {x y : FV (Lin p)} : Mono b (preUnused f g t x y : Bld p _) := by
  cases t
  · exact mono_pure
  · exact mono_bind mono_fAdd fun _ => mono_bind mono_shiftedLng fun _ => mono_pure
theorem ref_preUnused (hg : Small f g) {t : Bool} {x y : FV (Lin p)} {x' y' : FV (ZMod p)} (hx : DerO Γ x x') (hy : DerO Γ y y') : Ref b Γ (preUnused f g t x y : Bld p _) (preUnused f g t x' y' : Circ p _) := by
  cases t
  · exact ref_pure derO_unit
  · refine ref_bind (ref_fAdd hx derO_newConstant) (fun _ => mono_bind mono_shiftedLng fun _ => mono_pure) fun _ _ _ => ref_bind (ref_shiftedLng hg hy.tail) (fun _ => mono_pure) fun _ _ _ => ref_pure derO_unit
theorem mono_preHead {N : ℕ} {t : Bool} {hLat hLng : Pre p} {a c r : Lin p} : Mono b (preHead N f g t hLat hLng a c r : Bld p _) := by unfold preHead; mono
theorem ref_preHead (hg : Small f g) {N : ℕ} {t : Bool} {hLat hLng : Pre p} {a c r : Lin p} {a' c' r' : ZMod p} (ha : Der Γ a a') (hc : Der Γ c c') (hr : Der Γ r r') :
    Ref b Γ (preHead N f g t hLat hLng a c r : Bld p _) (preHead N f g t hLat hLng a' c' r' : Circ p _) := by
  unfold preHead
  refine ref_bind (ref_locInputs ha hc hr) (fun _ => by mono) fun _ _ _ => ref_bind (ref_preUnused hg derO_head.fst derO_head.snd) (fun _ => by mono) fun _ _ _ => ?_
  exact ref_bind ref_precompute (fun _ => by mono) fun _ _ _ => ref_bind ref_precompute (fun _ => by mono) fun _ _ _ => ref_pure (derO_prod derO_head.tail derO_head)
theorem mono_preBody {c1 c2 c2' c3 : Option ℕ} {u v : FV (Lin p) × FV (Lin p) × FV (Lin p) × FV (Lin p)} {r i j k : Lin p} : Mono b (preBody f g c1 c2 c2' c3 r i j k u v : Bld p _) := by unfold preBody; mono

/-- The circuit compiles to its meaning, from an empty system. -/
theorem refAt_precomputeCircuit (hg : Small f g) {n N : ℕ} {t : Bool} {c1 c2 c2' c3 : Option ℕ} {hLat hLng : Pre p} {a c r i j k : Lin p} {a' c' r' i' j' k' : ZMod p} (ha : Der Γ a a') (hc : Der Γ c c') (hr : Der Γ r r')
    (hi : Der Γ i i') (hj : Der Γ j j') (hk : Der Γ k k') :
    RefAt b ⟨n, [], [], [], []⟩ Γ (precomputeCircuit N f g t c1 c2 c2' c3 hLat hLng a c r i j k : Bld p _) (precomputeCircuit N f g t c1 c2 c2' c3 hLat hLng a' c' r' i' j' k' : Circ p _) := by
  unfold precomputeCircuit
  have body : ∀ (h : (FV (Lin p) × FV (Lin p) × FV (Lin p) × FV (Lin p)) × (FV (Lin p) × FV (Lin p) × FV (Lin p) × FV (Lin p)))
      (h' : (FV (ZMod p) × FV (ZMod p) × FV (ZMod p) × FV (ZMod p)) × (FV (ZMod p) × FV (ZMod p) × FV (ZMod p) × FV (ZMod p))), isBool h'.1.2.1.sign = true → isBool h'.2.2.1.sign = true → Ref b (Out.pairs h h' ++ Γ) (preBody f g c1 c2 c2' c3 r i j k h.1 h.2 : Bld p _)
      (preBody f g c1 c2 c2' c3 r' i' j' k' h'.1 h'.2 : Circ p _) := fun h h' h1 h2 => ref_preBody hg derO_head.fst derO_head.snd hr.tail hi.tail hj.tail hk.tail h1 h2
  constructor
  · intro w u σ'' he hh hΓ hb
    obtain ⟨⟨h, σ'⟩, e1, e2⟩ := Option.bind_eq_some_iff.1 he
    obtain ⟨h3, h4⟩ := (ref_preHead hg ha hc hr).sound w _ h σ' e1 (mono_preBody w σ' u σ'' e2 hh) hΓ hb
    obtain ⟨k, l, hkl, rfl, hn, v1, v2⟩ := preHead_wires e1
    have b1 : isBool (w (k + 4)) = true := fc_preBody (i := k + 4) (tame_wireFloat (by omega)) (tame_wireFloat (by omega)) (tame_wireFloat (by omega)) (tame_wireFloat (by omega)) (.inl rfl) w σ' u σ'' e2
      (by omega) v1 hh
    have b2 : isBool (w (l + 4)) = true := fc_preBody (i := l + 4) (tame_wireFloat (by omega)) (tame_wireFloat (by omega)) (tame_wireFloat (by omega)) (tame_wireFloat (by omega)) (.inr rfl) w σ' u σ'' e2
      (by omega) v2 hh
    obtain ⟨h5, h6⟩ := (body _ (Out.ev w _) ((congrArg isBool (Lin.eval_wire w (k + 4))).trans b1) ((congrArg isBool (Lin.eval_wire w (l + 4))).trans b2)).sound w σ' u σ'' e2 hh (fun q hq => by
      rcases List.mem_append.1 hq with hq | hq
      · exact (Out.law w _ _).2 rfl q hq
      · exact hΓ q hq) h4
    exact ⟨(Circ.sat_bind _ _ _).2 ⟨_, h3, h5⟩, h6⟩
  · intro w r wf hh hΓ hsat
    obtain ⟨y, h1, h2⟩ := (Circ.sat_bind _ _ _).1 hsat
    obtain ⟨h, σ', w', e1, wf', n', ag, hh', ok⟩ := (ref_preHead hg ha hc hr).complete w _ y wf hh hΓ h1
    obtain ⟨b1, b2⟩ := preBody_bools h2
    obtain ⟨a2, σ2, w2, e2, wf2, n2, ag2, hh2, ok2⟩ := (body h y b1 b2).complete w' σ' r wf' hh' (fun q hq => by
      rcases List.mem_append.1 hq with hq | hq
      · exact ok q hq
      · exact hΓ.ext ag n' q hq) h2
    refine ⟨a2, σ2, w2, ?_, wf2, n'.trans n2, ag.trans ag2 n', hh2, ok2⟩
    exact Option.bind_eq_some_iff.2 ⟨_, e1, e2⟩

end

end ZkLoc.R1cs
