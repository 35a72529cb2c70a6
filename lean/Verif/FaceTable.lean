import Verif.GeoFrame

/-!
# Helper lemmas: the closest face for points of the sphere
-/

namespace ZkLoc

variable {p : ℕ} [Fact p.Prime] {b : ℕ} {f : Fmt} {m : Prover} {g : GeoConsts}

/-- The exact squared distance of a point and a face centre. -/
noncomputable def faceSq (f : Fmt) (c : Face) (x y z : ℝ) : ℝ :=
  sqDistR (Ieee.patternVal ⟨f.E, f.M⟩ c.px) (Ieee.patternVal ⟨f.E, f.M⟩ c.py) (Ieee.patternVal ⟨f.E, f.M⟩ c.pz) x y z

/-- What is needed of the table of faces. -/
structure FaceTable (p : ℕ) (f : Fmt) (g : GeoConsts) : Prop where
  ok : ∀ c ∈ g.faces, FaceOk p f c
  five : Num f (newConstant f g.five : FloatVar p) 5
  unit : ∀ c ∈ g.faces, |Ieee.patternVal ⟨f.E, f.M⟩ c.px ^ 2 + Ieee.patternVal ⟨f.E, f.M⟩ c.py ^ 2 + Ieee.patternVal ⟨f.E, f.M⟩ c.pz ^ 2 - 1| ≤ 1 / 2 ^ 20
  cover : ∀ x y z : ℝ, |x ^ 2 + y ^ 2 + z ^ 2 - 1| ≤ 1 / 2 ^ 9 → ∃ c ∈ g.faces, faceSq f c x y z ≤ 0.9

theorem table_of_frame {k : ℕ} (hok : ∀ c ∈ g.faces, FaceOk p f c) (h5 : Num f (newConstant f g.five : FloatVar p) 5)
    (hs : ∀ c ∈ g.faces, scalable f.E f.M k c.px = true ∧ scalable f.E f.M k c.py = true ∧ scalable f.E f.M k c.pz = true)
    (hf : frameCheck k (g.faces.map (centreInt f.E f.M k)) = true) : FaceTable p f g where
  ok := hok
  five := h5
  unit := by
    intro c hc
    obtain ⟨h1, h2, h3⟩ := hs c hc
    rw [patternVal_scaled h1, patternVal_scaled h2, patternVal_scaled h3]
    simp only [frameCheck, Bool.and_eq_true, decide_eq_true_eq, List.all_eq_true] at hf
    obtain ⟨⟨⟨⟨⟨⟨⟨⟨h20, hunit⟩, hanti⟩, g11⟩, g22⟩, g33⟩, g12⟩, g13⟩, g23⟩ := hf
    have h := natAbs_real (hunit _ (List.mem_map_of_mem hc))
    simp only [centreInt] at h
    have hK2 : (2:ℝ) ^ (2 * k) = (2 ^ k) ^ 2 := by rw [← pow_mul, mul_comm]
    push_cast at h
    rw [hK2] at h
    have hK : (0:ℝ) < 2 ^ k := by positivity
    generalize (2:ℝ) ^ k = K at *
    have e : ∀ X Y Z : ℝ, (X / K) ^ 2 + (Y / K) ^ 2 + (Z / K) ^ 2 - 1 = (X ^ 2 + Y ^ 2 + Z ^ 2 - K ^ 2) / K ^ 2 := by
      intro X Y Z; field_simp
    rw [e, abs_div, abs_of_pos (show 0 < K ^ 2 by positivity), div_le_div_iff₀ (by positivity) (by positivity)]
    rw [le_div_iff₀ (by positivity)] at h
    linarith
  cover := by
    intro x y z hn
    obtain ⟨v, hv, hd⟩ := frame_cover hf hn
    obtain ⟨c, hc, rfl⟩ := List.mem_map.1 hv
    obtain ⟨h1, h2, h3⟩ := hs c hc
    refine ⟨c, hc, ?_⟩
    unfold faceSq
    rw [patternVal_scaled h1, patternVal_scaled h2, patternVal_scaled h3]
    exact hd

theorem faceTable32 : FaceTable p f32 geo32 :=
  table_of_frame (k := 40) faceOk32
    (num_exact (E := 8) (M := 23) (num := 5) (den := 1) (neg := false) (by decide) (by decide) (by decide) (by decide) (by simp [Ieee.signed]))
    scalable32 frame32

theorem faceTable64 : FaceTable p f64 geo64 :=
  table_of_frame (k := 64) faceOk64
    (num_exact (E := 11) (M := 52) (num := 5) (den := 1) (neg := false) (by decide) (by decide) (by decide) (by decide) (by simp [Ieee.signed]))
    scalable64 frame64

theorem FaceTable.sq_le (T : FaceTable p f g) {c : Face} (hc : c ∈ g.faces) {x y z : ℝ} (hn : |x ^ 2 + y ^ 2 + z ^ 2 - 1| ≤ 1 / 2 ^ 9) :
    faceSq f c x y z ≤ 5 := by
  have h1 := (abs_le.1 (T.unit c hc)).2
  have h2 := (abs_le.1 hn).2
  unfold faceSq sqDistR
  generalize Ieee.patternVal ⟨f.E, f.M⟩ c.px = a at *
  generalize Ieee.patternVal ⟨f.E, f.M⟩ c.py = b at *
  generalize Ieee.patternVal ⟨f.E, f.M⟩ c.pz = d at *
  norm_num at h1 h2
  nlinarith [sq_nonneg (a + x), sq_nonneg (b + y), sq_nonneg (d + z)]

theorem forall₂_mem {α β : Type} {R : α → β → Prop} {l : List α} {l' : List β} (h : List.Forall₂ R l l') {a : α} (ha : a ∈ l) : ∃ b ∈ l', R a b := by
  induction h with
  | nil => simp at ha
  | cons hr _ ih =>
    rcases List.mem_cons.1 ha with rfl | ha
    · exact ⟨_, by simp, hr⟩
    · obtain ⟨b, hb, hR⟩ := ih ha; exact ⟨b, List.mem_cons_of_mem _ hb, hR⟩

theorem forall₂_get {α β : Type} {R : α → β → Prop} {l : List α} {l' : List β} (h : List.Forall₂ R l l') {k : ℕ} {a : α} {b : β} (ha : l[k]? = some a)
    (hb : l'[k]? = some b) : R a b := by
  induction h generalizing k with
  | nil => simp at ha
  | cons hr _ ih =>
    cases k with
    | zero => simp at ha hb; rw [← ha, ← hb]; exact hr
    | succ k => exact ih (by simpa using ha) (by simpa using hb)

/-- The result of the search for the closest face. -/
structure Closest (f : Fmt) (g : GeoConsts) (x y z : ℝ) (s : FaceData p) (c : Face) (d : ℝ) : Prop where
  mem : c ∈ g.faces
  data : s = faceData f c s.sqDist
  num : Num f s.sqDist d
  first : ∃ k ds, g.faces[k]? = some c ∧ List.Forall₂ (FaceDist f x y z) g.faces ds ∧ H3.FirstMin ds k d
  nonneg : 0 ≤ d
  lt_one : d < 1
  accurate : |faceSq f c x y z - d| ≤ 66 * ulpHalf f
  nearest : ∀ c' ∈ g.faces, faceSq f c x y z ≤ faceSq f c' x y z + 132 * ulpHalf f

theorem ulpHalf_le (hM : 13 ≤ f.M) : ulpHalf f ≤ 1 / 2 ^ 14 := by
  unfold ulpHalf
  have : (2:ℝ) ^ (-(f.M:ℤ) - 1) ≤ 2 ^ (-14:ℤ) := zpow_le_zpow_right₀ (by norm_num) (by omega)
  refine this.trans ?_
  norm_num

theorem closestFace_ok (G : Good p b f) (hm : m.Fits b f) (T : FaceTable p f g) {x2 y2 z2 : FloatVar p} {x y z : ℝ} (hx : Num f x2 x)
    (hy : Num f y2 y) (hz : Num f z2 z) (hn : |x ^ 2 + y ^ 2 + z ^ 2 - 1| ≤ 1 / 2 ^ 9) :
    Ok m b (closestFace f g x2 y2 z2) (fun s => ∃ c d, Closest f g x y z s c d) := by
  have hM : 13 ≤ f.M := by have := G.hEM; have := G.hME; omega
  have hE : 3 ≤ f.E := by have := G.hE; omega
  have h2 := (abs_le.1 hn).2
  have bnd : ∀ t : ℝ, t ^ 2 ≤ x ^ 2 + y ^ 2 + z ^ 2 → |t| ≤ 2 ^ 10 := by
    intro t ht
    refine abs_le_of_sq_le_sq ?_ (by norm_num)
    norm_num at h2 ⊢
    linarith
  have hu := ulpHalf_le hM
  refine (faceLoop_ok G hm hx hy hz (bnd x (by nlinarith [sq_nonneg y, sq_nonneg z])) (bnd y (by nlinarith [sq_nonneg x, sq_nonneg z]))
    (bnd z (by nlinarith [sq_nonneg x, sq_nonneg y])) g.faces T.ok (s := faceInit f g) T.five).mono ?_
  rintro s ⟨ds, hds, hnn, h⟩
  obtain ⟨c0, hc0, hcl⟩ := T.cover x y z hn
  obtain ⟨d0, hd0, hR0⟩ := forall₂_mem hds hc0
  have he0 := squareDist_err hE hM hR0 (T.sq_le hc0 hn)
  have hd0' : d0 < 1 := by
    have := (abs_le.1 he0).1
    have h3 : sqDistR (Ieee.patternVal ⟨f.E, f.M⟩ c0.px) (Ieee.patternVal ⟨f.E, f.M⟩ c0.py) (Ieee.patternVal ⟨f.E, f.M⟩ c0.pz) x y z ≤ 0.9 := hcl
    norm_num at hu h3
    linarith
  rcases h with ⟨h, _⟩ | ⟨k, c, d, h1, h2, h3, h4, h5, h6⟩
  · have := h d0 hd0; linarith
  · have hmem : c ∈ g.faces := List.mem_of_getElem? h1
    have hR := forall₂_get hds h1 h2.at_k
    have he := squareDist_err hE hM hR (T.sq_le hmem hn)
    refine ⟨c, d, hmem, h6, h5, ⟨k, ds, h1, hds, h2⟩, hnn d (List.mem_of_getElem? h2.at_k), (h2.least d0 hd0).trans_lt hd0', he, ?_⟩
    intro c' hc'
    obtain ⟨d', hd', hR'⟩ := forall₂_mem hds hc'
    have he' := squareDist_err hE hM hR' (T.sq_le hc' hn)
    have := h2.least d' hd'
    have a1 := (abs_le.1 he).2
    have a2 := (abs_le.1 he').1
    unfold faceSq
    linarith

end ZkLoc
