import Verif.R1csPreCirc
import Verif.Width64

/-!
# The range checks of the compiled precompute circuits

The width of the range table depends on the bit lengths asked for, not on their order; so the width known for the grouped program of the model (`width_precompute32`, `width_precompute64`) is that of the compiled one.
-/

namespace ZkLoc.R1cs

set_option maxRecDepth 8000

section
variable {p : ℕ} {f : Fmt} {g : GeoConsts} {x y : FV (Lin p)} {x' y' : FV (ZMod p)}

theorem wid_hintFloat {h h' : FloatVar p} : Wid (hintFloat h : Bld p (FV (Lin p))) (hintFloat h' : Circ p (FV (ZMod p))) := by unfold hintFloat; wids
theorem wid_precompute {h h' : Pre p} : Wid (precompute f h : Bld p (FV (Lin p) × FV (Lin p) × FV (Lin p) × FV (Lin p))) (precompute f h' : Circ p (FV (ZMod p) × FV (ZMod p) × FV (ZMod p) × FV (ZMod p))) := by
  unfold precompute; wids
theorem wid_compare {u : Option ℕ} : Wid (compare f u x y : Bld p _) (compare f u x' y' : Circ p _) := by
  cases u
  · exact wid_fAssertIsEqualOrULP
  · exact wid_fAssertIsEqualOrCustomULP
variable {t : FV (Lin p) × FV (Lin p) × FV (Lin p) × FV (Lin p)} {t' : FV (ZMod p) × FV (ZMod p) × FV (ZMod p) × FV (ZMod p)}
theorem wid_preIdentity : Wid (preIdentity f t : Bld p _) (preIdentity f t' : Circ p _) := by unfold preIdentity; wids
theorem wid_preCheck2 {u : Option ℕ} : Wid (preCheck2 f u t : Bld p _) (preCheck2 f u t' : Circ p _) := by unfold preCheck2; wids
theorem wid_preCheck3 {u : Option ℕ} : Wid (preCheck3 f g u t : Bld p _) (preCheck3 f g u t' : Circ p _) := by unfold preCheck3; wids
theorem wid_preCos : Wid (preCos f t : Bld p _) (preCos f t' : Circ p _) := by unfold preCos; wids
theorem wid_preUnused {s : Bool} : Wid (preUnused f g s x y : Bld p _) (preUnused f g s x' y' : Circ p _) := by
  cases s
  · exact wid_pure
  · exact wid_bind wid_fAdd fun _ _ => wid_bind wid_shiftedLng fun _ _ => wid_pure
theorem wid_preBody {c1 c2 c2' c3 : Option ℕ} {r i j k : Lin p} {r' i' j' k' : ZMod p} {t₁ : FV (Lin p) × FV (Lin p) × FV (Lin p) × FV (Lin p)} {t₁' : FV (ZMod p) × FV (ZMod p) × FV (ZMod p) × FV (ZMod p)} :
    Wid (preBody f g c1 c2 c2' c3 r i j k t t₁ : Bld p _) (preBody f g c1 c2 c2' c3 r' i' j' k' t' t₁' : Circ p _) := by unfold preBody; wids

/-- Four floats of the model. -/
def unVar (v : Pre p) : FV (ZMod p) × FV (ZMod p) × FV (ZMod p) × FV (ZMod p) :=
  (⟨v.alpha.1, v.alpha.2, v.alpha.3, v.alpha.4⟩, ⟨v.beta.1, v.beta.2, v.beta.3, v.beta.4⟩, ⟨v.gamma.1, v.gamma.2, v.gamma.3, v.gamma.4⟩, ⟨v.delta.1, v.delta.2, v.delta.3, v.delta.4⟩)

theorem wid_ordCircuit {n : ℕ} {s : Bool} {c1 c2 c2' c3 : Option ℕ} {v w v' w' : Pre p} {a c r i j k : Lin p} {a' c' r' i' j' k' : ZMod p} :
    Wid (precomputeCircuit n f g s c1 c2 c2' c3 v w a c r i j k : Bld p _) (ordCircuit f g s c1 c2 c2' c3 v' w' a' c' r' i' j' k') := by
  unfold precomputeCircuit ordCircuit preHead ordHead
  refine wid_bind (wid_bind wid_locInputs fun _ t => wid_bind (wid_map wid_preUnused (eq_preUnused s ⟨t.1.1, t.1.2, t.1.3, t.1.4⟩ ⟨t.2.1, t.2.2, t.2.3, t.2.4⟩)) fun _ _ =>
    wid_bind (wid_map wid_precompute (eq_precompute v')) fun _ _ => wid_bind (wid_map wid_precompute (eq_precompute w')) fun _ _ => wid_pure) fun _ h => ?_
  exact wid_map wid_preBody (eq_preBody c1 c2 c2' c3 r' i' j' k' (unVar h.1) (unVar h.2))
end

/-! ### The order -/

theorem optimalWidth_perm {l l' : List ℕ} (h : l.Perm l') (be : Backend) : getOptimalBasewidth be l = getOptimalBasewidth be l' := by
  have hd : ∀ j, nbDecomposed j l = nbDecomposed j l' := fun j => (h.map _).sum_eq
  cases be <;> simp only [getOptimalBasewidth, nbR1CSConstraints, nbPLONKConstraints, hd, h.length_eq]

variable {p : ℕ} {f : Fmt} {g : GeoConsts}

theorem widths_seq {α β : Type} {c : Circ p α} {d : α → Circ p β} {l k : List ℕ} (hc : c.widths = k) (hd : ∀ y, (d y).widths = l) : (c >>= d).widths = k ++ l := by
  obtain ⟨y, e⟩ := widths_bind c d
  rw [e, hd, hc]

theorem widths_cmp (u : Option ℕ) : ∃ l, ∀ x y : FloatVar p, (cmp f u x y).widths = l := by
  cases u
  · exact ⟨[], fun _ _ => rfl⟩
  · obtain ⟨l, q, h⟩ := shape_customULP (p := p) (f := f)
    exact ⟨l.map Prod.fst, fun x y => (h x y _).widths.symm⟩

theorem widths_ordBody (hg : g.powers.length = 4) (c1 c2 c2' c3 : Option ℕ) : ∃ l l', l.Perm l' ∧ ∀ (r i j k : ZMod p) (u v : Pre p), (ordBody f g c1 c2 c2' c3 r i j k u v).widths = l ∧
    (preTail f g (preChecks f g (cmp f c1) (cmp f c2) (cmp f c3)) (preChecks f g (cmp f c1) (cmp f c2') (cmp f c3)) r i j k u v).widths = l' := by
  obtain ⟨C1, h1⟩ := widths_cmp (p := p) (f := f) c1
  obtain ⟨C2, h2⟩ := widths_cmp (p := p) (f := f) c2
  obtain ⟨C2', h2'⟩ := widths_cmp (p := p) (f := f) c2'
  obtain ⟨C3, h3⟩ := widths_cmp (p := p) (f := f) c3
  obtain ⟨L, _, hL⟩ := shape_locCell (p := p) (f := f) hg
  have hm : ∀ x y : FloatVar p, (ZkLoc.fMul f x y).widths = (mulShape f).map Prod.fst := fun x y => (shape_mul x y).widths.symm
  have ha : ∀ x y : FloatVar p, (ZkLoc.fAdd f x y).widths = (addShape f).map Prod.fst := fun x y => (shape_add x y).widths.symm
  have hs : ∀ x y : FloatVar p, (ZkLoc.fSub f x y).widths = (addShape f).map Prod.fst := fun x y => (shape_sub x y).widths.symm
  generalize (mulShape f).map Prod.fst = M at hm
  generalize (addShape f).map Prod.fst = A at ha hs
  have hcos : ∀ v : Pre p, (ZkLoc.preCos f v).widths = M ++ (M ++ A) := fun v => widths_seq (hm _ _) fun _ => widths_seq (hm _ _) fun _ => hs _ _
  have hid : ∀ v : Pre p, (ordIdentity f v).widths = M ++ (M ++ A) := fun v => widths_seq (hm _ _) fun _ => widths_seq (hm _ _) fun _ => ha _ _
  have hend : ∀ (t : ZMod p × ZMod p × ZMod p) (i j k : ZMod p), (ZkLoc.assertCell t i j k).widths = [] := fun _ _ _ _ => rfl
  have hpc : ∀ (c2 : Option ℕ) (D : List ℕ), (∀ x y : FloatVar p, (cmp f c2 x y).widths = D) → ∀ v : Pre p, (preChecks f g (cmp f c1) (cmp f c2) (cmp f c3) v).widths = M ++ (M ++ (A ++ (C1 ++ (M ++ (D ++ (M ++ (M ++ C3))))))) :=
    fun c2 D hD v => widths_seq (hm _ _) fun _ => widths_seq (hm _ _) fun _ => widths_seq (ha _ _) fun _ => widths_seq (h1 _ _) fun _ => widths_seq (hm _ _) fun _ => widths_seq (hD _ _) fun _ =>
      widths_seq (hm _ _) fun _ => widths_seq (hm _ _) fun _ => h3 _ _
  have hl : ∀ (a b c d : FloatVar p) (n : ZMod p), (ZkLoc.locCell f g a b c d n).widths = L.map Prod.fst := fun _ _ _ _ _ => (hL _ _ _ _ _).widths.symm
  refine ⟨(M ++ (M ++ A)) ++ ((M ++ (M ++ A)) ++ (C1 ++ (C1 ++ ((M ++ C2) ++ ((M ++ C2') ++ ((M ++ (M ++ C3)) ++ ((M ++ (M ++ C3)) ++ ((M ++ (M ++ A)) ++ ((M ++ (M ++ A)) ++ (L.map Prod.fst ++ [])))))))))),
    (M ++ (M ++ (A ++ (C1 ++ (M ++ (C2 ++ (M ++ (M ++ C3)))))))) ++ ((M ++ (M ++ (A ++ (C1 ++ (M ++ (C2' ++ (M ++ (M ++ C3)))))))) ++ ((M ++ (M ++ A)) ++ ((M ++ (M ++ A)) ++ (L.map Prod.fst ++ [])))),
    ?_, fun r i j k u v => ⟨?_, ?_⟩⟩
  rotate_left
  · exact widths_seq (hid u) fun _ => widths_seq (hid v) fun _ => widths_seq (h1 _ _) fun _ => widths_seq (h1 _ _) fun _ =>
      widths_seq (widths_seq (hm _ _) fun _ => h2 _ _) fun _ => widths_seq (widths_seq (hm _ _) fun _ => h2' _ _) fun _ =>
      widths_seq (widths_seq (hm _ _) fun _ => widths_seq (hm _ _) fun _ => h3 _ _) fun _ => widths_seq (widths_seq (hm _ _) fun _ => widths_seq (hm _ _) fun _ => h3 _ _) fun _ =>
      widths_seq (hcos u) fun _ => widths_seq (hcos v) fun _ => widths_seq (hl _ _ _ _ _) fun _ => hend _ _ _ _
  · exact widths_seq (hpc c2 C2 h2 u) fun _ => widths_seq (hpc c2' C2' h2' v) fun _ => widths_seq (hcos u) fun _ => widths_seq (hcos v) fun _ => widths_seq (hl _ _ _ _ _) fun _ => hend _ _ _ _
  · rw [List.perm_iff_count]
    intro a
    simp only [List.count_append]
    omega

theorem width_ord32 (be : Backend) (v w : Pre bn254) (x y r i j k : ZMod bn254) :
    baseLength be 0 (ordCircuit f32 geo32 false (some 0x3f800000) (some 0x3f800000) (some 0x3f800000) (some 0x3f800000) v w x y r i j k).widths = 9 := by
  obtain ⟨l, l', hp, hb⟩ := widths_ordBody (p := bn254) (f := f32) (g := geo32) (by rfl) (some 0x3f800000) (some 0x3f800000) (some 0x3f800000) (some 0x3f800000)
  obtain ⟨I, _, hI⟩ := shape_locInputs (p := bn254) (f := f32) (g := geo32)
  obtain ⟨P, _, hP⟩ := shape_precompute (p := bn254) (f := f32)
  have h1 : (ordCircuit f32 geo32 false (some 0x3f800000) (some 0x3f800000) (some 0x3f800000) (some 0x3f800000) v w x y r i j k).widths = (I.map Prod.fst ++ ([] ++ (P.map Prod.fst ++ (P.map Prod.fst ++ [])))) ++ l :=
    widths_seq (widths_seq (hI _ _ _).widths.symm fun _ => widths_seq rfl fun _ => widths_seq (hP _).widths.symm fun _ => widths_seq (hP _).widths.symm fun _ => rfl) fun _ => (hb _ _ _ _ _ _).1
  have h2 : (precomputeCircuit32 (preOf f32 0 0 0 0) (preOf f32 0 0 0 0) 0 0 0 0 0 0).widths = I.map Prod.fst ++ (P.map Prod.fst ++ (P.map Prod.fst ++ l')) := by
    unfold precomputeCircuit32
    exact widths_seq (hI _ _ _).widths.symm fun _ => widths_seq (hP _).widths.symm fun _ => widths_seq (hP _).widths.symm fun _ => (hb _ _ _ _ _ _).2
  rw [← width_precompute32 be, h1, h2]
  unfold baseLength
  rw [if_pos rfl, if_pos rfl]
  refine optimalWidth_perm ?_ be
  simp only [List.nil_append, List.append_nil, List.append_assoc]
  exact ((hp.append_left _).append_left _).append_left _

theorem width_ord64 (be : Backend) (v w : Pre bn254) (x y r i j k : ZMod bn254) :
    baseLength be 0 (ordCircuit f64 geo64 true (some 0x4000000000000000) (some 0x4000000000000000) none none v w x y r i j k).widths = 11 := by
  obtain ⟨l, l', hp, hb⟩ := widths_ordBody (p := bn254) (f := f64) (g := geo64) (by rfl) (some 0x4000000000000000) (some 0x4000000000000000) none none
  obtain ⟨I, _, hI⟩ := shape_locInputs (p := bn254) (f := f64) (g := geo64)
  obtain ⟨P, _, hP⟩ := shape_precompute (p := bn254) (f := f64)
  obtain ⟨S, _, hS⟩ := shape_shiftedLng (p := bn254) (f := f64) (g := geo64)
  have ha : ∀ x y : FloatVar bn254, (ZkLoc.fAdd f64 x y).widths = (addShape f64).map Prod.fst := fun x y => (shape_add x y).widths.symm
  generalize (addShape f64).map Prod.fst = A at ha
  have h1 : (ordCircuit f64 geo64 true (some 0x4000000000000000) (some 0x4000000000000000) none none v w x y r i j k).widths =
      (I.map Prod.fst ++ ((A ++ (S.map Prod.fst ++ [])) ++ (P.map Prod.fst ++ (P.map Prod.fst ++ [])))) ++ l :=
    widths_seq (widths_seq (hI _ _ _).widths.symm fun _ => widths_seq (widths_seq (ha _ _) fun _ => widths_seq (hS _).widths.symm fun _ => rfl) fun _ => widths_seq (hP _).widths.symm fun _ => widths_seq (hP _).widths.symm fun _ => rfl)
      fun _ => (hb _ _ _ _ _ _).1
  have h2 : (precomputeCircuit64 (preOf f64 0 0 0 0) (preOf f64 0 0 0 0) 0 0 0 0 0 0).widths = I.map Prod.fst ++ (A ++ (S.map Prod.fst ++ (P.map Prod.fst ++ (P.map Prod.fst ++ l')))) := by
    unfold precomputeCircuit64
    exact widths_seq (hI _ _ _).widths.symm fun _ => widths_seq (ha _ _) fun _ => widths_seq (hS _).widths.symm fun _ => widths_seq (hP _).widths.symm fun _ => widths_seq (hP _).widths.symm fun _ => (hb _ _ _ _ _ _).2
  rw [← width_precompute64 be, h1, h2]
  unfold baseLength
  rw [if_pos rfl, if_pos rfl]
  refine optimalWidth_perm ?_ be
  simp only [List.nil_append, List.append_nil, List.append_assoc]
  exact ((((hp.append_left _).append_left _).append_left _).append_left _).append_left _

end ZkLoc.R1cs
