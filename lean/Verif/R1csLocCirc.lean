import Verif.R1csLocRef

/-!
# The programs of R1csLoc.lean with the meaning `circApi` are the model of the location circuits
-/

namespace ZkLoc.R1cs

set_option maxRecDepth 8000

variable {p : ℕ} {b : ℕ} {f : Fmt}

/-- The record of the model. -/
def FD.var (d : FD (ZMod p)) : FaceData p :=
  ⟨d.sqDist.var, d.sinFaceLat.var, d.cosFaceLat.var, d.sinFaceLng.var, d.cosFaceLng.var, d.sinAzimuth.var, d.cosAzimuth.var, d.sinAzimuthRot.var, d.cosAzimuthRot.var⟩

macro_rules | `(tactic| same) => `(tactic| with_reducible exact eq_fIsGt _ _ _)
macro_rules | `(tactic| same) => `(tactic| with_reducible exact eq_fIsLt _ _ _)
macro_rules | `(tactic| same) => `(tactic| with_reducible exact eq_gIsPositive _ _)

/-- The same as `align`, also where parts of a result are used. -/
macro "align'" : tactic => `(tactic| (
  try dsimp only
  try simp only [cm_pure, op_lit, op_add, op_sub, op_neg, op_scale, ap_mul, ap_isZero, ap_gIsEq, ap_mark, ap_assertBool, ap_assertEq, ap_select, ap_and, ap_or, ap_xor, ap_inverse, ap_hint, ap_check,
    var_sign, var_exponent, var_mantissa, var_isAbnormal, List.getD_cons_zero, List.getD_cons_succ]
  repeat' first
    | ((with_reducible refine map_bind_id ?_ fun _ => ?_); same)
    | ((with_reducible refine map_bind (g := FV.var) ?_ fun _ => ?_); sameV)
    | simp only [var_sign, var_exponent, var_mantissa, var_isAbnormal]
  first | (refine map_pure ?_; rfl) | ((with_reducible refine map_id ?_); same) | exact map_id (Circ.bind_pure _) | sameV))

theorem eq_sinLoop (xs : FV (ZMod p)) : ∀ (ds : List ℕ) (even : Bool) (ret term : FV (ZMod p)),
    Map FV.var (sinLoop f xs ds even ret term : Circ p _) (ZkLoc.sinLoop f xs.var ds even ret.var term.var)
  | [], even, ret, term => map_pure rfl
  | d :: ds, false, ret, term => map_bind (eq_fAdd f _ _) fun _ => map_bind (eq_fMul f _ _) fun _ => map_bind (eq_fDiv f _ (newConstant f d)) fun _ => eq_sinLoop xs ds _ _ _
  | d :: ds, true, ret, term => map_bind (eq_fSub f _ _) fun _ => map_bind (eq_fMul f _ _) fun _ => map_bind (eq_fDiv f _ (newConstant f d)) fun _ => eq_sinLoop xs ds _ _ _

theorem eq_sinMag (ds : List ℕ) (e m : ZMod p) : Map FV.var (sinMag f ds e m : Circ p _) (ZkLoc.sinMag f ds e m) :=
  map_bind (eq_fMul f ⟨0, e, m, 0⟩ ⟨0, e, m, 0⟩) fun _ => eq_sinLoop _ ds false (newConstant f 0) ⟨0, e, m, 0⟩
macro_rules | `(tactic| sameV) => `(tactic| with_reducible exact eq_sinMag _ _ _)

theorem eq_sinTaylor (k : TrigConsts) (ds : List ℕ) (x : FV (ZMod p)) : Map FV.var (sinTaylor f k ds x : Circ p _) (ZkLoc.sinTaylor f k ds x.var) := by
  unfold sinTaylor ZkLoc.sinTaylor
  simp only [← eq_newConstant]
  align'
macro_rules | `(tactic| sameV) => `(tactic| with_reducible exact eq_sinTaylor _ _ _)

/-- The bits as a list. -/
def bitList (t : ZMod p × ZMod p × ZMod p × ZMod p) : List (ZMod p) := [t.1, t.2.1, t.2.2.1, t.2.2.2]

theorem eq_toBinary4 (v : ZMod p) : Map bitList (toBinary4 v : Circ p _) (ZkLoc.toBinary v 4) := by
  have h : ∀ b0 b1 b2 b3 : ZMod p, assertIsEqual (b0 + (b1 + (b2 + b3 * 2) * 2) * 2) v = assertIsEqual (compose 1 [b0, b1, b2, b3]) v := fun b0 b1 b2 b3 => by
    congr 1
    simp only [compose]
    ring
  show (Circ.hint _ fun b0 => Circ.assert (isBool b0) (Circ.hint _ fun b1 => Circ.assert (isBool b1) (Circ.hint _ fun b2 => Circ.assert (isBool b2) (Circ.hint _ fun b3 => Circ.assert (isBool b3)
    ((assertIsEqual (b0 + (b1 + (b2 + b3 * 2) * 2) * 2) v).bind fun _ => Circ.pure _))))) = (Circ.hint _ fun b0 => Circ.assert (isBool b0) (Circ.hint _ fun b1 => Circ.assert (isBool b1)
      (Circ.hint _ fun b2 => Circ.assert (isBool b2) (Circ.hint _ fun b3 => Circ.assert (isBool b3) ((assertIsEqual (compose 1 [b0, b1, b2, b3]) v).bind fun _ => Circ.pure _)))))
  simp only [h]
  rfl

theorem eq_scaleLoop : ∀ (bits : List (ZMod p)) (ps : List ℕ) (x : FV (ZMod p)), Map FV.var (scaleLoop f bits ps x : Circ p _) (ZkLoc.scaleLoop f bits ps x.var)
  | [], _, x => by unfold scaleLoop ZkLoc.scaleLoop; exact map_pure rfl
  | _ :: _, [], x => by unfold scaleLoop ZkLoc.scaleLoop; exact map_pure rfl
  | t :: bits, q :: ps, x => by
    unfold scaleLoop ZkLoc.scaleLoop
    exact map_bind (eq_fMul f x (newConstant f q)) fun _ => map_bind_id rfl fun e => map_bind_id rfl fun m => eq_scaleLoop bits ps ⟨0, e, m, 0⟩

theorem eq_scaleR (g : GeoConsts) (x : FV (ZMod p)) (r : ZMod p) : Map FV.var (scaleR f g x r : Circ p _) (ZkLoc.scaleR f g x.var r) := by
  unfold scaleR ZkLoc.scaleR
  exact map_bind (eq_toBinary4 r) fun t => map_bind (eq_scaleLoop _ _ (newConstant f g.one)) fun _ => eq_fMul f _ _
macro_rules | `(tactic| sameV) => `(tactic| with_reducible exact eq_scaleR _ _ _)

theorem eq_calculateR (g : GeoConsts) (x : FV (ZMod p)) (r : ZMod p) : Map FV.var (calculateR f g x r : Circ p _) (ZkLoc.calculateR f g x.var r) := by
  unfold calculateR ZkLoc.calculateR
  simp only [← eq_newConstant]
  align'

theorem eq_faceDist (c : Face) (x y z : FV (ZMod p)) : Map FV.var (faceDist f c x y z : Circ p _) (ZkLoc.faceDist f c x.var y.var z.var) := by
  unfold faceDist ZkLoc.faceDist
  simp only [← eq_newConstant]
  align'
macro_rules | `(tactic| sameV) => `(tactic| with_reducible exact eq_faceDist _ _ _ _)

theorem eq_faceStep (c : Face) (x y z : FV (ZMod p)) (s : FD (ZMod p)) : Map FD.var (faceStep f c x y z s : Circ p _) (ZkLoc.faceStep f c x.var y.var z.var s.var) := by
  unfold faceStep ZkLoc.faceStep
  simp only [← eq_newConstant, FD.var]
  align'

theorem eq_faceLoop (x y z : FV (ZMod p)) : ∀ (cs : List Face) (s : FD (ZMod p)), Map FD.var (faceLoop f x y z cs s : Circ p _) (ZkLoc.faceLoop f x.var y.var z.var cs s.var)
  | [], s => map_pure rfl
  | c :: cs, s => map_bind (eq_faceStep c x y z s) fun _ => eq_faceLoop x y z cs _

theorem eq_closestFace (g : GeoConsts) (x y z : FV (ZMod p)) : Map FD.var (closestFace f g x y z : Circ p _) (ZkLoc.closestFace f g x.var y.var z.var) := eq_faceLoop x y z _ _

theorem eq_calculateHex2d (a1 a2 a3 a4 r : FV (ZMod p)) (d : FD (ZMod p)) (q : ZMod p) :
    Map (Prod.map FV.var FV.var) (calculateHex2d f a1 a2 a3 a4 d r q : Circ p _) (ZkLoc.calculateHex2d f a1.var a2.var a3.var a4.var d.var r.var q) := by
  unfold calculateHex2d ZkLoc.calculateHex2d
  refine map_bind (eq_toBinary4 q) fun t => ?_
  simp only [bitList, List.headD_cons, FD.var]
  align'

theorem eq_normalizeIJK (a i c j e k : ZMod p) : (normalizeIJK a i c j e k : Circ p _) = ZkLoc.normalizeIJK a i c j e k := by
  refine Map.eq ?_
  unfold normalizeIJK ZkLoc.normalizeIJK
  align'
macro_rules | `(tactic| same) => `(tactic| with_reducible exact eq_normalizeIJK _ _ _ _ _ _)

theorem eq_foldAxes (a i c j : ZMod p) : (foldAxes a i c j : Circ p _) = ZkLoc.foldAxes a i c j := by
  refine Map.eq ?_
  unfold foldAxes ZkLoc.foldAxes
  align'
macro_rules | `(tactic| same) => `(tactic| with_reducible exact eq_foldAxes _ _ _ _)

theorem eq_fAbs (x : FV (ZMod p)) : (fAbs x).var = ZkLoc.fAbs x.var := rfl

theorem eq_quadrantIJ (g : GeoConsts) (x y : FV (ZMod p)) : (quadrantIJ f g x y : Circ p _) = ZkLoc.quadrantIJ f g x.var y.var := by
  refine Map.eq ?_
  unfold quadrantIJ ZkLoc.quadrantIJ
  simp only [← eq_newConstant, ← eq_fAbs]
  align'
macro_rules | `(tactic| same) => `(tactic| with_reducible exact eq_quadrantIJ _ _ _)

theorem eq_hex2dToCoordIJK (g : GeoConsts) (x y : FV (ZMod p)) : (hex2dToCoordIJK f g x y : Circ p _) = ZkLoc.hex2dToCoordIJK f g x.var y.var := by
  refine Map.eq ?_
  unfold hex2dToCoordIJK ZkLoc.hex2dToCoordIJK
  align'

theorem eq_locCell (g : GeoConsts) (a1 a2 a3 a4 : FV (ZMod p)) (q : ZMod p) : (locCell f g a1 a2 a3 a4 q : Circ p _) = ZkLoc.locCell f g a1.var a2.var a3.var a4.var q := by
  refine Map.eq ?_
  unfold locCell ZkLoc.locCell
  exact map_bind (eq_fMul f _ _) fun _ => map_bind (eq_fMul f _ _) fun _ => map_bind (eq_closestFace g _ _ _) fun d => map_bind (eq_calculateR g d.sqDist q) fun r =>
    map_bind (eq_calculateHex2d _ _ _ _ r d q) fun h => map_id (eq_hex2dToCoordIJK g _ _)

theorem eq_shiftedLng (g : GeoConsts) (x : FV (ZMod p)) : Map FV.var (shiftedLng f g x : Circ p _) (ZkLoc.shiftedLng f g x.var) := by
  unfold shiftedLng ZkLoc.shiftedLng
  simp only [← eq_newConstant]
  align'
macro_rules | `(tactic| sameV) => `(tactic| with_reducible exact eq_shiftedLng _ _)

/-- Componentwise. -/
def var4 (t : FV (ZMod p) × FV (ZMod p) × FV (ZMod p) × FV (ZMod p)) : FloatVar p × FloatVar p × FloatVar p × FloatVar p := (t.1.var, t.2.1.var, t.2.2.1.var, t.2.2.2.var)

theorem eq_wrapperTrig (k : TrigConsts) (ds : List ℕ) (g : GeoConsts) (x y : FV (ZMod p)) : Map var4 (wrapperTrig f k ds g x y : Circ p _) (ZkLoc.wrapperTrig f k ds g x.var y.var) := by
  unfold wrapperTrig ZkLoc.wrapperTrig
  simp only [← eq_newConstant]
  align'

/-! ### The bound on the resolution is compiled to bits -/

/-- The same results, up to their representation. -/
def SMap {α β : Type} (b : ℕ) (g : α → β) (c : Circ p α) (c' : Circ p β) : Prop := ∀ r, c'.Sat b true r ↔ ∃ a, c.Sat b true a ∧ g a = r

theorem Map.smap {α β : Type} {g : α → β} {c : Circ p α} {c' : Circ p β} (h : Map g c c') : SMap b g c c' := fun r => by
  rw [← h]
  refine (Circ.sat_bind c _ r).trans ?_
  exact exists_congr fun a => and_congr_right fun _ => eq_comm
theorem smap_bind {α β γ δ : Type} {g : α → β} {h : γ → δ} {c : Circ p α} {c' : Circ p β} {d : α → Circ p γ} {d' : β → Circ p δ} (hc : SMap b g c c') (hd : ∀ a, SMap b h (d a) (d' (g a))) :
    SMap b h (c >>= d) (c' >>= d') := fun r => by
  refine (Circ.sat_bind c' _ r).trans ?_
  rw [show (∃ a, (c >>= d).Sat b true a ∧ h a = r) ↔ ∃ t, (∃ a, c.Sat b true a ∧ (d a).Sat b true t) ∧ h t = r from exists_congr fun t => and_congr_left fun _ => Circ.sat_bind c d t]
  simp only [hc _]
  constructor
  · rintro ⟨y, ⟨a, h1, rfl⟩, h2⟩
    obtain ⟨t, h3, h4⟩ := (hd a r).1 h2
    exact ⟨t, ⟨a, h1, h3⟩, h4⟩
  · rintro ⟨t, ⟨a, h1, h3⟩, h4⟩
    exact ⟨g a, ⟨a, h1, rfl⟩, (hd a r).2 ⟨t, h3, h4⟩⟩

variable [Fact p.Prime]

theorem eq_locInputs (hp : 15 < p) {n : ℕ} (hn : 4 ≤ n) (g : GeoConsts) (x y r : ZMod p) :
    SMap b (Prod.map FV.var FV.var) (locInputs n f g x y r : Circ p _) (ZkLoc.locInputs f g x y r) := by
  unfold locInputs ZkLoc.locInputs
  refine smap_bind (eq_newFloat f x).smap fun lat => smap_bind (eq_newFloat f y).smap fun lng => ?_
  refine smap_bind (map_id (eq_fIsGt f lat (newConstant f g.halfPi))).smap fun c1 => smap_bind (map_id rfl).smap fun _ => ?_
  refine smap_bind (map_id (eq_fIsGt f lng (newConstant f g.pi))).smap fun c2 => smap_bind (map_id rfl).smap fun _ => ?_
  refine smap_bind (g := id) (fun t => ?_) fun _ => (map_pure rfl).smap
  rw [← lessOrEqual15_sat hp n hn r t]
  exact ⟨fun h => ⟨t, h, rfl⟩, fun ⟨_, h, _⟩ => h⟩

theorem eq_wrapperCircuit (hp : 15 < p) {n : ℕ} (hn : 4 ≤ n) (k : TrigConsts) (ds : List ℕ) (g : GeoConsts) (x y r i j l : ZMod p) :
    (wrapperCircuit n f k ds g x y r i j l : Circ p _).Sat b true () ↔ (ZkLoc.wrapperCircuit f k ds g x y r i j l).Sat b true () := by
  have : SMap b id (wrapperCircuit n f k ds g x y r i j l : Circ p _) (ZkLoc.wrapperCircuit f k ds g x y r i j l) := by
    unfold wrapperCircuit ZkLoc.wrapperCircuit
    exact smap_bind (eq_locInputs hp hn g x y r) fun t => smap_bind (eq_wrapperTrig k ds g _ _).smap fun s => smap_bind (map_id (eq_locCell g _ _ _ _ r)).smap fun c => (map_id rfl).smap
  rw [this]
  exact ⟨fun h => ⟨(), h, rfl⟩, fun ⟨_, h, _⟩ => h⟩

/-! ### The circuit -/

variable {Γ : Env p}

theorem locInputs_sign {n : ℕ} {g : GeoConsts} {x y r : ZMod p} {t : FV (ZMod p) × FV (ZMod p)} (h : (locInputs n f g x y r : Circ p _).Sat b true t) : isBool t.1.sign = true ∧ isBool t.2.sign = true := by
  have : Post b (locInputs n f g x y r : Circ p _) fun t => isBool t.1.sign = true ∧ isBool t.2.sign = true := by
    unfold locInputs
    exact post_bind fun _ h1 => post_bind fun _ h2 => post_bind fun _ _ => post_bind fun _ _ => post_bind fun _ _ => post_bind fun _ _ => post_bind fun _ _ => post_pure ⟨newFloat_sign h1, newFloat_sign h2⟩
  exact this t h

theorem mono_lessOrEqual15 {n : ℕ} {x : Lin p} : Mono b (lessOrEqual15 n x : Bld p _) := mono_leBits _ _ _
theorem ref_lessOrEqual15 {n : ℕ} {x : Lin p} {x' : ZMod p} (hx : Der Γ x x') : Ref b Γ (lessOrEqual15 n x : Bld p _) (lessOrEqual15 n x' : Circ p _) := ref_leBits n 0 Γ _ _ hx (der_lit 0)

theorem mono_locInputs {n : ℕ} {g : GeoConsts} {x y r : Lin p} : Mono b (locInputs n f g x y r : Bld p _) := by
  unfold locInputs
  mono
theorem ref_locInputs {n : ℕ} {g : GeoConsts} {x y r : Lin p} {x' y' r' : ZMod p} (hx : Der Γ x x') (hy : Der Γ y y') (hr : Der Γ r r') :
    Ref b Γ (locInputs n f g x y r : Bld p _) (locInputs n f g x' y' r' : Circ p _) := by
  unfold locInputs
  ref

theorem ref_wrapperCircuit {n : ℕ} {g : GeoConsts} (hg : Small f g) {k : TrigConsts} {ds : List ℕ} {x y r i j l : Lin p} {x' y' r' i' j' l' : ZMod p} (hx : Der Γ x x') (hy : Der Γ y y') (hr : Der Γ r r')
    (hi : Der Γ i i') (hj : Der Γ j j') (hl : Der Γ l l') : Ref b Γ (wrapperCircuit n f k ds g x y r i j l : Bld p _) (wrapperCircuit n f k ds g x' y' r' i' j' l' : Circ p _) := by
  unfold wrapperCircuit
  refine ref_bind (ref_locInputs hx hy hr) (fun _ => mono_bind mono_wrapperTrig fun _ => mono_bind mono_locCell fun _ => mono_assertCell) fun t t' h1 => ?_
  refine ref_bind (ref_wrapperTrig hg derO_head.fst derO_head.snd (locInputs_sign h1).1 (locInputs_sign h1).2) (fun _ => mono_bind mono_locCell fun _ => mono_assertCell) fun s s' h2 => ?_
  refine ref_bind (ref_locCell hg derO_head.fst derO_head.snd.fst derO_head.snd.snd.fst derO_head.snd.snd.snd hr.tail.tail (wrapperTrig_sign h2 (locInputs_sign h1).1)) (fun _ => mono_assertCell) fun c c' h3 => ?_
  exact ref_assertCell derO_head hi.tail.tail.tail hj.tail.tail.tail hl.tail.tail.tail

end ZkLoc.R1cs
