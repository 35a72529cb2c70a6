import Verif.Shape
import Verif.Loc2Index

/-!
# The range checks recorded by the location circuits

They are independent of the wires (`HasShape`); their widths are then obtained by evaluating the circuit on any wires (`Circ.widths`).
-/

namespace ZkLoc

variable {p : ℕ} {α β : Type} {s : ℕ} {f : Fmt} {g : GeoConsts}

/-- The sizes of the range checks met when the circuit is evaluated with honest hints, zero where there is no honest hint, ignoring assertions. -/
def Circ.widths : Circ p α → List ℕ
  | .pure _ => []
  | .hint h k => (k (h.getD 0)).widths
  | .assert _ k => k.widths
  | .soft _ k => k.widths
  | .check _ n _ k => n :: k.widths
  | .query _ _ k => k.widths

theorem HasShape.widths {c : Circ p α} {l : List (ℕ × Mode)} {q : ℕ} (h : HasShape s c l q) : l.map Prod.fst = c.widths := by
  induction c generalizing l q with
  | pure a => obtain ⟨rfl, rfl⟩ := h; rfl
  | hint h' k ih => exact ih _ (h _)
  | assert c k ih => exact ih h
  | soft c k ih => exact ih h
  | check v n m k ih => obtain ⟨l', rfl, h⟩ := h; simp [Circ.widths, ih h]
  | query s' v k ih => obtain ⟨_, q', rfl, h⟩ := h; exact ih h

theorem shape_isLt (x y : FloatVar p) : HasShape s (fIsLt f x y) (lessShape f) 0 := shape_less _ _ _
theorem shape_isLe (x y : FloatVar p) : HasShape s (fIsLe f x y) (lessShape f) 0 := shape_less _ _ _
theorem shape_isGt (x y : FloatVar p) : HasShape s (fIsGt f x y) (lessShape f) 0 := shape_less _ _ _

/-- One step of the composition. -/
syntax "shape_step" : tactic
macro_rules
  | `(tactic| shape_step) => `(tactic| with_reducible first
    | exact shape_pure _
    | (apply shape_pre (shape_mul _ _); intro _)
    | (apply shape_pre (shape_add _ _); intro _)
    | (apply shape_pre (shape_sub _ _); intro _)
    | (apply shape_pre (shape_div _ _); intro _)
    | (apply shape_pre (shape_sqrt _); intro _)
    | (apply shape_pre (shape_floor _); intro _)
    | (apply shape_pre (shape_toInt _); intro _)
    | (apply shape_pre (shape_isLt _ _); intro _)
    | (apply shape_pre (shape_isLe _ _); intro _)
    | (apply shape_pre (shape_isGt _ _); intro _)
    | (apply shape_pre (shape_isPositive _ _); intro _)
    | (apply shape_pre (shape_newFloat _); intro _)
    | (apply shape_bind0 (shape_select _ _ _); intro _)
    | (apply shape_bind0 (shape_fSelect _ _ _); intro _)
    | (apply shape_bind0 (shape_eq _ _); intro _)
    | (apply shape_bind0 (shape_or _ _); intro _)
    | (apply shape_bind0 (shape_and _ _); intro _)
    | (apply shape_bind0 (shape_hint _); intro _)
    | (apply shape_bind0 (shape_bool _); intro _)
    | exact shape_mul _ _
    | exact shape_add _ _
    | exact shape_sub _ _
    | exact shape_eq _ _)

theorem shape_le (v : ZMod p) (n : ℕ) : HasShape s (assertIsLessOrEqual v n) [] 0 := ⟨rfl, rfl⟩

/-- The four bits of the resolution. -/
theorem shape_toBinary4 {v : ZMod p} {d : List (ZMod p) → Circ p β} {l : List (ℕ × Mode)} {q : ℕ}
    (h : ∀ b0 b1 b2 b3, HasShape s (d [b0, b1, b2, b3]) l q) : HasShape s (Circ.bind (toBinary v 4) d) l q := by
  intro b0 b1 b2 b3
  exact h b0 b1 b2 b3

theorem shape_assertSameSign (x y : FloatVar p) : HasShape s (assertSameSign x y) [] 0 := ⟨rfl, rfl⟩
theorem shape_sameData (x y : FloatVar p) : HasShape s (sameData x y) [] 0 := ⟨rfl, rfl⟩
theorem shape_orULP (x y : FloatVar p) : HasShape s (fAssertIsEqualOrULP f x y) [] 0 := ⟨rfl, rfl⟩

theorem shape_customULP : ∃ l q, ∀ (x y : FloatVar p) (u : ℕ), HasShape f.pow2Size (fAssertIsEqualOrCustomULP f x y u) l q := by
  apply Exists.intro; apply Exists.intro; intro x y u
  unfold fAssertIsEqualOrCustomULP
  simp only [Circ.bind_eq, Circ.pure_eq]
  apply shape_bind0 (shape_assertSameSign _ _); intro _
  shape_step
  shape_step
  apply shape_bind0 (shape_sameData _ _); intro _
  shape_step
  shape_step

theorem shape_scaleLoop (ks : List ℕ) : ∃ l q, ∀ (bits : List (ZMod p)) (x : FloatVar p), bits.length = ks.length →
    HasShape f.pow2Size (scaleLoop f bits ks x) l q := by
  induction ks with
  | nil =>
    refine ⟨[], 0, fun bits x hb => ?_⟩
    rw [List.length_nil, List.length_eq_zero_iff] at hb
    subst hb
    exact ⟨rfl, rfl⟩
  | cons k ks ih =>
    obtain ⟨l, q, ih⟩ := ih
    refine ⟨mulShape f ++ l, q + 1, fun bits x hb => ?_⟩
    · rcases bits with _ | ⟨c, bits⟩
      · cases hb
      · unfold scaleLoop
        simp only [Circ.bind_eq]
        shape_step
        shape_step
        shape_step
        exact ih _ _ (by simpa using hb)

theorem shape_scaleR (hg : g.powers.length = 4) : ∃ l q, ∀ (r : FloatVar p) (n : ZMod p), HasShape f.pow2Size (scaleR f g r n) l q := by
  obtain ⟨l, q, h⟩ := shape_scaleLoop (p := p) (f := f) g.powers
  apply Exists.intro; apply Exists.intro; intro r n
  unfold scaleR
  simp only [Circ.bind_eq]
  apply shape_toBinary4; intro b0 b1 b2 b3
  apply shape_pre (h _ _ (by simp [hg])); intro _
  shape_step

theorem shape_calculateR (hg : g.powers.length = 4) : ∃ l q, ∀ (r : FloatVar p) (n : ZMod p), HasShape f.pow2Size (calculateR f g r n) l q := by
  obtain ⟨l, q, h⟩ := shape_scaleR (p := p) (f := f) hg
  apply Exists.intro; apply Exists.intro; intro r n
  unfold calculateR
  simp only [Circ.bind_eq]
  repeat shape_step
  exact h _ _

theorem shape_faceDist : ∃ l q, ∀ (c : Face) (x y z : FloatVar p), HasShape f.pow2Size (faceDist f c x y z) l q := by
  apply Exists.intro; apply Exists.intro; intro c x y z
  unfold faceDist
  simp only [Circ.bind_eq]
  repeat shape_step

theorem shape_faceStep : ∃ l q, ∀ (c : Face) (x y z : FloatVar p) (d : FaceData p), HasShape f.pow2Size (faceStep f c x y z d) l q := by
  obtain ⟨l, q, h⟩ := shape_faceDist (p := p) (f := f)
  apply Exists.intro; apply Exists.intro; intro c x y z d
  unfold faceStep
  simp only [Circ.bind_eq, Circ.pure_eq]
  apply shape_pre (h _ _ _ _); intro _
  repeat shape_step

theorem shape_faceLoop (cs : List Face) : ∃ l q, ∀ (x y z : FloatVar p) (d : FaceData p), HasShape f.pow2Size (faceLoop f x y z cs d) l q := by
  obtain ⟨l, q, h⟩ := shape_faceStep (p := p) (f := f)
  induction cs with
  | nil => exact ⟨[], 0, fun _ _ _ _ => ⟨rfl, rfl⟩⟩
  | cons c cs ih =>
    obtain ⟨l', q', ih⟩ := ih
    refine ⟨l ++ l', q' + q, fun x y z d => ?_⟩
    unfold faceLoop
    simp only [Circ.bind_eq]
    exact shape_pre (h _ _ _ _ _) fun _ => ih _ _ _ _

theorem shape_calculateHex2d : ∃ l q, ∀ (a b c d : FloatVar p) (e : FaceData p) (r : FloatVar p) (n : ZMod p),
    HasShape f.pow2Size (calculateHex2d f a b c d e r n) l q := by
  apply Exists.intro; apply Exists.intro; intro a b c d e r n
  unfold calculateHex2d
  simp only [Circ.bind_eq, Circ.pure_eq]
  apply shape_toBinary4; intro b0 b1 b2 b3
  repeat shape_step

theorem shape_normalizeIJK : ∃ l q, ∀ a i b j c k : ZMod p, HasShape s (normalizeIJK a i b j c k) l q := by
  apply Exists.intro; apply Exists.intro; intro a i b j c k
  unfold normalizeIJK
  simp only [Circ.bind_eq, Circ.pure_eq]
  repeat shape_step

theorem shape_foldAxes : ∃ l q, ∀ a b i j : ZMod p, HasShape s (foldAxes a b i j) l q := by
  apply Exists.intro; apply Exists.intro; intro a b i j
  unfold foldAxes
  simp only [Circ.bind_eq, Circ.pure_eq]
  repeat shape_step

theorem shape_quadrantIJ : ∃ l q, ∀ x y : FloatVar p, HasShape f.pow2Size (quadrantIJ f g x y) l q := by
  apply Exists.intro; apply Exists.intro; intro x y
  unfold quadrantIJ
  simp only [Circ.bind_eq, Circ.pure_eq]
  repeat shape_step

theorem shape_hex2d : ∃ l q, ∀ x y : FloatVar p, HasShape f.pow2Size (hex2dToCoordIJK f g x y) l q := by
  obtain ⟨l1, q1, h1⟩ := shape_quadrantIJ (p := p) (f := f) (g := g)
  obtain ⟨l2, q2, h2⟩ := shape_foldAxes (p := p) (s := f.pow2Size)
  obtain ⟨l3, q3, h3⟩ := shape_normalizeIJK (p := p) (s := f.pow2Size)
  apply Exists.intro; apply Exists.intro; intro x y
  unfold hex2dToCoordIJK
  simp only [Circ.bind_eq]
  exact shape_pre (h1 _ _) fun _ => shape_pre (h2 _ _ _ _) fun _ => h3 _ _ _ _ _ _

theorem shape_locCell (hg : g.powers.length = 4) : ∃ l q, ∀ (a b c d : FloatVar p) (n : ZMod p), HasShape f.pow2Size (locCell f g a b c d n) l q := by
  obtain ⟨l1, q1, h1⟩ := shape_faceLoop (p := p) (f := f) g.faces
  obtain ⟨l2, q2, h2⟩ := shape_calculateR (p := p) (f := f) hg
  obtain ⟨l3, q3, h3⟩ := shape_calculateHex2d (p := p) (f := f)
  obtain ⟨l4, q4, h4⟩ := shape_hex2d (p := p) (f := f) (g := g)
  apply Exists.intro; apply Exists.intro; intro a b c d n
  unfold locCell closestFace
  simp only [Circ.bind_eq]
  shape_step
  shape_step
  exact shape_pre (h1 _ _ _ _) fun _ => shape_pre (h2 _ _) fun _ => shape_pre (h3 _ _ _ _ _ _ _) fun _ => h4 _ _

theorem shape_assertCell (c : ZMod p × ZMod p × ZMod p) (I J K : ZMod p) : HasShape s (assertCell c I J K) [] 0 := ⟨rfl, rfl⟩

theorem shape_locInputs : ∃ l q, ∀ a b c : ZMod p, HasShape f.pow2Size (locInputs f g a b c) l q := by
  apply Exists.intro; apply Exists.intro; intro a b c
  unfold locInputs
  simp only [Circ.bind_eq, Circ.pure_eq]
  repeat shape_step
  apply shape_bind0 (shape_le _ _); intro _
  shape_step

theorem shape_shiftedLng : ∃ l q, ∀ x : FloatVar p, HasShape f.pow2Size (shiftedLng f g x) l q := by
  apply Exists.intro; apply Exists.intro; intro x
  unfold shiftedLng
  simp only [Circ.bind_eq, Circ.pure_eq]
  repeat shape_step

theorem shape_sinLoop (ds : List ℕ) (e : Bool) : ∃ l q, ∀ x r t : FloatVar p, HasShape f.pow2Size (sinLoop f x ds e r t) l q := by
  induction ds generalizing e with
  | nil => exact ⟨[], 0, fun _ _ _ => ⟨rfl, rfl⟩⟩
  | cons d ds ih =>
    obtain ⟨l, q, ih⟩ := ih (!e)
    cases e <;>
    · apply Exists.intro; apply Exists.intro; intro x r t
      unfold sinLoop
      simp only [Circ.bind_eq, if_true, Bool.false_eq_true, if_false]
      shape_step
      shape_step
      shape_step
      exact ih _ _ _

theorem shape_sinTaylor {k : TrigConsts} {ds : List ℕ} : ∃ l q, ∀ x : FloatVar p, HasShape f.pow2Size (sinTaylor f k ds x) l q := by
  obtain ⟨l, q, h⟩ := shape_sinLoop (p := p) (f := f) ds false
  apply Exists.intro; apply Exists.intro; intro x
  unfold sinTaylor sinMag
  simp only [Circ.bind_eq, Circ.pure_eq]
  shape_step
  shape_step
  shape_step
  shape_step
  exact shape_pre (shape_pre (shape_mul _ _) fun _ => h _ _ _) fun _ => shape_pure _

theorem shape_wrapper {k : TrigConsts} {ds : List ℕ} (hg : g.powers.length = 4) : ∃ l q, ∀ a b n i j m : ZMod p,
    HasShape f.pow2Size (wrapperCircuit f k ds g a b n i j m) l q := by
  obtain ⟨l1, q1, h1⟩ := shape_locInputs (p := p) (f := f) (g := g)
  obtain ⟨l2, q2, h2⟩ := shape_sinTaylor (p := p) (f := f) (k := k) (ds := ds)
  obtain ⟨l3, q3, h3⟩ := shape_shiftedLng (p := p) (f := f) (g := g)
  obtain ⟨l4, q4, h4⟩ := shape_locCell (p := p) (f := f) hg
  apply Exists.intro; apply Exists.intro; intro a b n i j m
  unfold wrapperCircuit wrapperTrig
  simp only [Circ.bind_eq, Circ.pure_eq]
  refine shape_pre (h1 _ _ _) fun _ => shape_pre (shape_pre (shape_add _ _) fun _ => shape_pre (h2 _) fun _ => shape_pre (h3 _) fun _ =>
    shape_pre (h2 _) fun _ => shape_pre (h2 _) fun _ => shape_pre (h2 _) fun _ => shape_pure _) fun _ =>
    shape_pre (h4 _ _ _ _ _) fun _ => shape_assertCell _ _ _ _

theorem shape_precompute : ∃ l q, ∀ h : Pre p, HasShape f.pow2Size (precompute f h) l q := by
  apply Exists.intro; apply Exists.intro; intro h
  unfold precompute hintFloat
  simp only [Circ.bind_eq, Circ.pure_eq]
  shape_step
  shape_step
  shape_step
  shape_step
  exact shape_bind0 (fun _ _ _ _ => ⟨rfl, rfl⟩) fun _ => shape_bind0 (fun _ _ _ _ => ⟨rfl, rfl⟩) fun _ => shape_bind0 (fun _ _ _ _ => ⟨rfl, rfl⟩)
    fun _ => shape_bind0 (fun _ _ _ _ => ⟨rfl, rfl⟩) fun _ => shape_pure _

theorem shape_preChecks {c1 c2 c3 : FloatVar p → FloatVar p → Circ p Unit} (h1 : ∃ l q, ∀ x y, HasShape f.pow2Size (c1 x y) l q)
    (h2 : ∃ l q, ∀ x y, HasShape f.pow2Size (c2 x y) l q) (h3 : ∃ l q, ∀ x y, HasShape f.pow2Size (c3 x y) l q) :
    ∃ l q, ∀ v : Pre p, HasShape f.pow2Size (preChecks f g c1 c2 c3 v) l q := by
  obtain ⟨l1, q1, h1⟩ := h1
  obtain ⟨l2, q2, h2⟩ := h2
  obtain ⟨l3, q3, h3⟩ := h3
  apply Exists.intro; apply Exists.intro; intro v
  unfold preChecks
  simp only [Circ.bind_eq]
  exact shape_pre (shape_mul _ _) fun _ => shape_pre (shape_mul _ _) fun _ => shape_pre (shape_add _ _) fun _ => shape_pre (h1 _ _) fun _ =>
    shape_pre (shape_mul _ _) fun _ => shape_pre (h2 _ _) fun _ => shape_pre (shape_mul _ _) fun _ => shape_pre (shape_mul _ _) fun _ => h3 _ _

theorem shape_preTail {c1 c2 : Pre p → Circ p Unit} (hg : g.powers.length = 4) (h1 : ∃ l q, ∀ v, HasShape f.pow2Size (c1 v) l q)
    (h2 : ∃ l q, ∀ v, HasShape f.pow2Size (c2 v) l q) :
    ∃ l q, ∀ (n i j m : ZMod p) (v w : Pre p), HasShape f.pow2Size (preTail f g c1 c2 n i j m v w) l q := by
  obtain ⟨l1, q1, h1⟩ := h1
  obtain ⟨l2, q2, h2⟩ := h2
  obtain ⟨l4, q4, h4⟩ := shape_locCell (p := p) (f := f) hg
  apply Exists.intro; apply Exists.intro; intro n i j m v w
  unfold preTail preCos
  simp only [Circ.bind_eq]
  exact shape_pre (h1 _) fun _ => shape_pre (h2 _) fun _ =>
    shape_pre (shape_pre (shape_mul _ _) fun _ => shape_pre (shape_mul _ _) fun _ => shape_sub _ _) fun _ =>
    shape_pre (shape_pre (shape_mul _ _) fun _ => shape_pre (shape_mul _ _) fun _ => shape_sub _ _) fun _ =>
    shape_pre (h4 _ _ _ _ _) fun _ => shape_assertCell _ _ _ _

theorem shape_precompute32 : ∃ l q, ∀ (v w : Pre p) (a b n i j m : ZMod p),
    HasShape f32.pow2Size (precomputeCircuit32 v w a b n i j m) l q := by
  obtain ⟨l0, q0, h0⟩ := shape_customULP (p := p) (f := f32)
  obtain ⟨l1, q1, h1⟩ := shape_locInputs (p := p) (f := f32) (g := geo32)
  obtain ⟨l2, q2, h2⟩ := shape_precompute (p := p) (f := f32)
  have hc := shape_preChecks (p := p) (f := f32) (g := geo32) ⟨l0, q0, fun x y => h0 x y 0x3f800000⟩ ⟨l0, q0, fun x y => h0 x y 0x3f800000⟩
    ⟨l0, q0, fun x y => h0 x y 0x3f800000⟩
  obtain ⟨l3, q3, h3⟩ := shape_preTail (p := p) (f := f32) (g := geo32) (by rfl) hc hc
  apply Exists.intro; apply Exists.intro; intro v w a b n i j m
  unfold precomputeCircuit32
  simp only [Circ.bind_eq]
  exact shape_pre (h1 _ _ _) fun _ => shape_pre (h2 _) fun _ => shape_pre (h2 _) fun _ => h3 _ _ _ _ _ _

theorem shape_precompute64 : ∃ l q, ∀ (v w : Pre p) (a b n i j m : ZMod p),
    HasShape f64.pow2Size (precomputeCircuit64 v w a b n i j m) l q := by
  obtain ⟨l0, q0, h0⟩ := shape_customULP (p := p) (f := f64)
  obtain ⟨l1, q1, h1⟩ := shape_locInputs (p := p) (f := f64) (g := geo64)
  obtain ⟨l2, q2, h2⟩ := shape_precompute (p := p) (f := f64)
  obtain ⟨l4, q4, h4⟩ := shape_shiftedLng (p := p) (f := f64) (g := geo64)
  obtain ⟨l3, q3, h3⟩ := shape_preTail (p := p) (f := f64) (g := geo64) (by rfl)
    (shape_preChecks (p := p) (f := f64) (g := geo64) ⟨l0, q0, fun x y => h0 x y 0x4000000000000000⟩
      ⟨l0, q0, fun x y => h0 x y 0x4000000000000000⟩ ⟨[], 0, fun x y => shape_orULP (f := f64) x y⟩)
    (shape_preChecks (p := p) (f := f64) (g := geo64) ⟨l0, q0, fun x y => h0 x y 0x4000000000000000⟩
      ⟨[], 0, fun x y => shape_orULP (f := f64) x y⟩ ⟨[], 0, fun x y => shape_orULP (f := f64) x y⟩)
  apply Exists.intro; apply Exists.intro; intro v w a b n i j m
  unfold precomputeCircuit64
  simp only [Circ.bind_eq]
  exact shape_pre (h1 _ _ _) fun _ => shape_pre (shape_add _ _) fun _ => shape_pre (h4 _) fun _ =>
    shape_pre (h2 _) fun _ => shape_pre (h2 _) fun _ => h3 _ _ _ _ _ _

/-- The width chosen for a circuit whose range checks do not depend on the wires. -/
theorem accepts_widths {ι : Type} {c : ι → Circ p α} (h : ∃ l q, ∀ i, HasShape s (c i) l q) (i₀ i : ι) (be : Backend) (st : Bool) (size : ℕ) (r : α) :
    Accepts be st size s (c i) r ↔ (c i).Sat (baseLength be size (c i₀).widths) st r := by
  obtain ⟨l, q, h⟩ := h
  rw [accepts_iff (h i), (h i₀).widths]

end ZkLoc
