import Verif.R1csPre

/-!
# The order of the code and the order of the model

`precomputeCircuit32` and `precomputeCircuit64` of the model group the checks by angle; the code interleaves them. Both orders have the same solutions, and record the same range checks up to their order.
-/

namespace ZkLoc.R1cs

set_option maxRecDepth 8000

variable {p : ℕ} {b : ℕ} {f : Fmt} {g : GeoConsts}

/-- The record of the model. -/
def preVar (t : FV (ZMod p) × FV (ZMod p) × FV (ZMod p) × FV (ZMod p)) : Pre p := ⟨t.1.var, t.2.1.var, t.2.2.1.var, t.2.2.2.var⟩

/-- The comparison, with the functions of the model. -/
def cmp (f : Fmt) (u : Option ℕ) (x y : FloatVar p) : Circ p Unit :=
  match u with
  | some n => ZkLoc.fAssertIsEqualOrCustomULP f x y n
  | none => ZkLoc.fAssertIsEqualOrULP f x y

/-- `γ² + δ²`. -/
def ordIdentity (f : Fmt) (v : Pre p) : Circ p (FloatVar p) := do
  let dd ← ZkLoc.fMul f v.delta v.delta
  let gg ← ZkLoc.fMul f v.gamma v.gamma
  ZkLoc.fAdd f gg dd

/-- Check 2. -/
def ordCheck2 (f : Fmt) (u : Option ℕ) (v : Pre p) : Circ p Unit := do
  let ad ← ZkLoc.fMul f v.alpha v.delta
  cmp f u ad v.gamma

/-- Check 3. -/
def ordCheck3 (f : Fmt) (g : GeoConsts) (u : Option ℕ) (v : Pre p) : Circ p Unit := do
  let gd ← ZkLoc.fMul f v.gamma v.delta
  let gd2 ← ZkLoc.fMul f (ZkLoc.newConstant f g.two) gd
  cmp f u gd2 v.beta

/-- `preBody` with the functions of the model: /repo/loc2index32/loc2index32_test.go:112-150 in the order of the code. -/
def ordBody (f : Fmt) (g : GeoConsts) (c1 c2 c2' c3 : Option ℕ) (Resolution I J K : ZMod p) (u v : Pre p) : Circ p Unit := do
  let idLat ← ordIdentity f u
  let idLng ← ordIdentity f v
  cmp f c1 idLat (ZkLoc.newConstant f g.one)
  cmp f c1 idLng (ZkLoc.newConstant f g.one)
  ordCheck2 f c2 u
  ordCheck2 f c2' v
  ordCheck3 f g c3 u
  ordCheck3 f g c3 v
  let cosLat ← ZkLoc.preCos f u
  let cosLng ← ZkLoc.preCos f v
  let ijk ← ZkLoc.locCell f g u.beta cosLat v.beta cosLng Resolution
  ZkLoc.assertCell ijk I J K

theorem eq_hintFloat (h : FloatVar p) : Map FV.var (hintFloat h : Circ p (FV (ZMod p))) (ZkLoc.hintFloat h) := rfl

theorem eq_precompute (h : Pre p) : Map preVar (precompute f h : Circ p (FV (ZMod p) × FV (ZMod p) × FV (ZMod p) × FV (ZMod p))) (ZkLoc.precompute f h) :=
  map_bind (eq_newFloat f 0) fun _ => map_bind (eq_newFloat f 0) fun _ => map_bind (eq_newFloat f 0) fun _ => map_bind (eq_newFloat f 0) fun _ =>
    map_bind (eq_hintFloat h.alpha) fun _ => map_bind (eq_hintFloat h.beta) fun _ => map_bind (eq_hintFloat h.gamma) fun _ => map_bind (eq_hintFloat h.delta) fun _ => map_pure rfl

theorem eq_compare (u : Option ℕ) (x y : FV (ZMod p)) : (compare f u x y : Circ p Unit) = cmp f u x.var y.var := by
  cases u
  · exact eq_fAssertIsEqualOrULP f x y
  · exact eq_fAssertIsEqualOrCustomULP f x y _

variable (t : FV (ZMod p) × FV (ZMod p) × FV (ZMod p) × FV (ZMod p))

theorem eq_preIdentity : Map FV.var (preIdentity f t : Circ p _) (ordIdentity f (preVar t)) :=
  map_bind (eq_fMul f _ _) fun _ => map_bind (eq_fMul f _ _) fun _ => eq_fAdd f _ _
theorem eq_preCheck2 (u : Option ℕ) : Map id (preCheck2 f u t : Circ p _) (ordCheck2 f u (preVar t)) :=
  map_bind (eq_fMul f _ _) fun _ => map_id (eq_compare u _ _)
theorem eq_preCheck3 (u : Option ℕ) : Map id (preCheck3 f g u t : Circ p _) (ordCheck3 f g u (preVar t)) :=
  map_bind (eq_fMul f _ _) fun _ => map_bind (eq_fMul f (newConstant f g.two) _) fun _ => map_id (eq_compare u _ _)
theorem eq_preCos : Map FV.var (preCos f t : Circ p _) (ZkLoc.preCos f (preVar t)) :=
  map_bind (eq_fMul f _ _) fun _ => map_bind (eq_fMul f _ _) fun _ => eq_fSub f _ _

theorem eq_preBody (c1 c2 c2' c3 : Option ℕ) (r i j k : ZMod p) (u v : FV (ZMod p) × FV (ZMod p) × FV (ZMod p) × FV (ZMod p)) :
    Map id (preBody f g c1 c2 c2' c3 r i j k u v : Circ p _) (ordBody f g c1 c2 c2' c3 r i j k (preVar u) (preVar v)) :=
  map_bind (eq_preIdentity u) fun _ => map_bind (eq_preIdentity v) fun _ => map_bind (map_id (eq_compare c1 _ (newConstant f g.one))) fun _ => map_bind (map_id (eq_compare c1 _ (newConstant f g.one))) fun _ =>
    map_bind (eq_preCheck2 u c2) fun _ => map_bind (eq_preCheck2 v c2') fun _ => map_bind (eq_preCheck3 u c3) fun _ => map_bind (eq_preCheck3 v c3) fun _ =>
    map_bind (eq_preCos u) fun _ => map_bind (eq_preCos v) fun _ => map_bind (map_id (eq_locCell g _ _ _ _ r)) fun _ => map_id rfl

/-- Both orders have the same solutions. -/
theorem ordBody_sat (c1 c2 c2' c3 : Option ℕ) (r i j k : ZMod p) (u v : Pre p) :
    (ordBody f g c1 c2 c2' c3 r i j k u v).Sat b true () ↔ (preTail f g (preChecks f g (cmp f c1) (cmp f c2) (cmp f c3)) (preChecks f g (cmp f c1) (cmp f c2') (cmp f c3)) r i j k u v).Sat b true () := by
  unfold ordBody preTail preChecks ordIdentity ordCheck2 ordCheck3
  simp only [Circ.bind_eq, Circ.sat_bind]
  constructor
  · rintro ⟨a, ⟨d1, hd1, g1, hg1, ha⟩, c, ⟨d2, hd2, g2, hg2, hc⟩, _, h1, _, h2, _, ⟨e1, he1, h3⟩, _, ⟨e2, he2, h4⟩, _, ⟨q1, hq1, q2, hq2, h5⟩, _, ⟨q3, hq3, q4, hq4, h6⟩, rest⟩
    exact ⟨(), ⟨d1, hd1, g1, hg1, a, ha, (), h1, e1, he1, (), h3, q1, hq1, q2, hq2, h5⟩, (), ⟨d2, hd2, g2, hg2, c, hc, (), h2, e2, he2, (), h4, q3, hq3, q4, hq4, h6⟩, rest⟩
  · rintro ⟨_, ⟨d1, hd1, g1, hg1, a, ha, _, h1, e1, he1, _, h3, q1, hq1, q2, hq2, h5⟩, _, ⟨d2, hd2, g2, hg2, c, hc, _, h2, e2, he2, _, h4, q3, hq3, q4, hq4, h6⟩, rest⟩
    exact ⟨a, ⟨d1, hd1, g1, hg1, ha⟩, c, ⟨d2, hd2, g2, hg2, hc⟩, (), h1, (), h2, (), ⟨e1, he1, h3⟩, (), ⟨e2, he2, h4⟩, (), ⟨q1, hq1, q2, hq2, h5⟩, (), ⟨q3, hq3, q4, hq4, h6⟩, rest⟩

/-- The sums of the 64-bit code that nothing depends on. -/
def ordUnused (f : Fmt) (g : GeoConsts) (unused : Bool) (lat lng : FloatVar p) : Circ p Unit :=
  match unused with
  | false => pure ()
  | true => do
    let _ ← ZkLoc.fAdd f lat (ZkLoc.newConstant f g.halfPi)
    let _ ← ZkLoc.shiftedLng f g lng
    pure ()

/-- `preHead` with the functions of the model. -/
def ordHead (f : Fmt) (g : GeoConsts) (unused : Bool) (v w : Pre p) (x y r : ZMod p) : Circ p (Pre p × Pre p) := do
  let inp ← ZkLoc.locInputs f g x y r
  ordUnused f g unused inp.1 inp.2
  let u ← ZkLoc.precompute f v
  let v ← ZkLoc.precompute f w
  pure (u, v)

/-- `precomputeCircuit` with the functions of the model, in the order of the code. -/
def ordCircuit (f : Fmt) (g : GeoConsts) (unused : Bool) (c1 c2 c2' c3 : Option ℕ) (v w : Pre p) (x y r i j k : ZMod p) : Circ p Unit := do
  let h ← ordHead f g unused v w x y r
  ordBody f g c1 c2 c2' c3 r i j k h.1 h.2

theorem eq_preUnused (s : Bool) (x y : FV (ZMod p)) : Map id (preUnused f g s x y : Circ p Unit) (ordUnused f g s x.var y.var) := by
  cases s
  · exact map_pure rfl
  · exact map_bind (eq_fAdd f _ (newConstant f g.halfPi)) fun _ => map_bind (eq_shiftedLng g _) fun _ => map_pure rfl

variable [Fact p.Prime]

theorem smap_unit {c c' : Circ p Unit} (h : SMap b id c c') : c.Sat b true () ↔ c'.Sat b true () :=
  ⟨fun s => (h ()).2 ⟨(), s, rfl⟩, fun s => let ⟨_, s, _⟩ := (h ()).1 s; s⟩

theorem eq_preHead (hp : 15 < p) {n : ℕ} (hn : 4 ≤ n) (s : Bool) (v w : Pre p) (x y r : ZMod p) :
    SMap b (Prod.map preVar preVar) (preHead n f g s v w x y r : Circ p _) (ordHead f g s v w x y r) := by
  unfold preHead ordHead
  exact smap_bind (eq_locInputs hp hn g x y r) fun t => smap_bind (eq_preUnused s t.1 t.2).smap fun _ => smap_bind (eq_precompute v).smap fun _ => smap_bind (eq_precompute w).smap fun _ => (map_pure rfl).smap

theorem eq_precomputeCircuit (hp : 15 < p) {n : ℕ} (hn : 4 ≤ n) (s : Bool) (c1 c2 c2' c3 : Option ℕ) (v w : Pre p) (x y r i j k : ZMod p) :
    (precomputeCircuit n f g s c1 c2 c2' c3 v w x y r i j k : Circ p Unit).Sat b true () ↔ (ordCircuit f g s c1 c2 c2' c3 v w x y r i j k).Sat b true () := by
  apply smap_unit
  unfold precomputeCircuit ordCircuit
  exact smap_bind (eq_preHead hp hn s v w x y r) fun h => (eq_preBody c1 c2 c2' c3 r i j k h.1 h.2).smap

theorem ordCircuit_sat (s : Bool) (c1 c2 c2' c3 : Option ℕ) (v w : Pre p) (x y r i j k : ZMod p) :
    (ordCircuit f g s c1 c2 c2' c3 v w x y r i j k).Sat b true () ↔ ∃ t, (ZkLoc.locInputs f g x y r).Sat b true t ∧ (ordUnused f g s t.1 t.2).Sat b true () ∧
      ∃ u, (ZkLoc.precompute f v).Sat b true u ∧ ∃ u', (ZkLoc.precompute f w).Sat b true u' ∧
        (preTail f g (preChecks f g (cmp f c1) (cmp f c2) (cmp f c3)) (preChecks f g (cmp f c1) (cmp f c2') (cmp f c3)) r i j k u u').Sat b true () := by
  unfold ordCircuit ordHead
  simp only [Circ.bind_eq, Circ.sat_bind, ordBody_sat]
  constructor
  · rintro ⟨_, ⟨t, ht, _, hu, u, hv, u', hw, e⟩, h⟩
    obtain rfl : _ = (u, u') := e
    exact ⟨t, ht, hu, u, hv, u', hw, h⟩
  · rintro ⟨t, ht, hu, u, hv, u', hw, h⟩
    exact ⟨(u, u'), ⟨t, ht, (), hu, u, hv, u', hw, rfl⟩, h⟩

theorem eq_precompute32 (hp : 15 < p) {n : ℕ} (hn : 4 ≤ n) (v w : Pre p) (x y r i j k : ZMod p) :
    (precompute32 n v w x y r i j k : Circ p Unit).Sat b true () ↔ (precomputeCircuit32 v w x y r i j k).Sat b true () := by
  unfold precompute32
  rw [eq_precomputeCircuit hp hn, ordCircuit_sat]
  unfold precomputeCircuit32
  simp only [Circ.bind_eq, Circ.sat_bind]
  exact exists_congr fun _ => and_congr_right fun _ => ⟨fun h => h.2, fun h => ⟨rfl, h⟩⟩

theorem eq_precompute64 (hp : 15 < p) {n : ℕ} (hn : 4 ≤ n) (v w : Pre p) (x y r i j k : ZMod p) :
    (precompute64 n v w x y r i j k : Circ p Unit).Sat b true () ↔ (precomputeCircuit64 v w x y r i j k).Sat b true () := by
  unfold precompute64
  rw [eq_precomputeCircuit hp hn, ordCircuit_sat]
  unfold precomputeCircuit64 ordUnused
  simp only [Circ.bind_eq, Circ.sat_bind]
  refine exists_congr fun _ => and_congr_right fun _ => ⟨?_, ?_⟩
  · rintro ⟨⟨a, ha, c, hc, _⟩, h⟩
    exact ⟨a, ha, c, hc, h⟩
  · rintro ⟨a, ha, c, hc, h⟩
    exact ⟨⟨a, ha, c, hc, rfl⟩, h⟩

end ZkLoc.R1cs
