import Verif.LocSpec

/-!
# Helper lemmas: the cell a location circuit computes
-/

namespace ZkLoc

variable {p : ℕ} [Fact p.Prime] {b : ℕ} {f : Fmt} {m : Prover} {g : GeoConsts}

/-- The triangle inequality. -/
theorem norm_tri {a c e A C E k : ℝ} (hk : 0 ≤ k) (h : (a - A) ^ 2 + (c - C) ^ 2 + (e - E) ^ 2 ≤ k ^ 2) :
    |Real.sqrt (a ^ 2 + c ^ 2 + e ^ 2) - Real.sqrt (A ^ 2 + C ^ 2 + E ^ 2)| ≤ k := by
  have s0 := Real.sqrt_nonneg (a ^ 2 + c ^ 2 + e ^ 2)
  have t0 := Real.sqrt_nonneg (A ^ 2 + C ^ 2 + E ^ 2)
  have sq := Real.sq_sqrt (show 0 ≤ a ^ 2 + c ^ 2 + e ^ 2 by positivity)
  have tq := Real.sq_sqrt (show 0 ≤ A ^ 2 + C ^ 2 + E ^ 2 by positivity)
  generalize Real.sqrt (a ^ 2 + c ^ 2 + e ^ 2) = s at *
  generalize Real.sqrt (A ^ 2 + C ^ 2 + E ^ 2) = t at *
  refine abs_le_of_sq_le_sq ?_ hk
  have hin : a * A + c * C + e * E ≤ s * t := by
    refine abs_le_of_sq_le_sq' ?_ (by positivity) |>.2
    rw [mul_pow, sq, tq]
    linarith [sq_nonneg (a * C - c * A), sq_nonneg (a * E - e * A), sq_nonneg (c * E - e * C),
      (by ring : (a ^ 2 + c ^ 2 + e ^ 2) * (A ^ 2 + C ^ 2 + E ^ 2) = (a * A + c * C + e * E) ^ 2 + (a * C - c * A) ^ 2 + (a * E - e * A) ^ 2 + (c * E - e * C) ^ 2)]
  linarith [(by ring : (s - t) ^ 2 = s ^ 2 + t ^ 2 - 2 * (s * t)),
    (by ring : (a - A) ^ 2 + (c - C) ^ 2 + (e - E) ^ 2 = (a ^ 2 + c ^ 2 + e ^ 2) + (A ^ 2 + C ^ 2 + E ^ 2) - 2 * (a * A + c * C + e * E))]

/-- The distance computed from the table is close to the true one. -/
theorem dist_near {τ : ℝ} (τ0 : 0 < τ) {φ l x y z : ℝ} {c : Face} {F : H3.FaceGeo} (hF : FaceNear f τ c F) (hx : |x - Real.cos φ * Real.cos l| ≤ 2.25 * τ)
    (hy : |y - Real.cos φ * Real.sin l| ≤ 2.25 * τ) (hz : |z - Real.sin φ| ≤ τ) :
    |Real.sqrt (faceSq f c x y z) - Real.sqrt (H3.sqd F φ l)| ≤ 5.1 * τ := by
  unfold faceSq sqDistR H3.sqd H3.vec3
  simp only
  refine norm_tri (by positivity) ?_
  have key : ∀ {a A t B ε δ : ℝ}, |a - A| ≤ τ → |t - B| ≤ δ → τ + δ ≤ ε → (a - t - (A - B)) ^ 2 ≤ ε ^ 2 := by
    intro a A t B ε δ h1 h2 h3
    rw [← sq_abs]
    refine pow_le_pow_left₀ (abs_nonneg _) ?_ 2
    rw [show a - t - (A - B) = (a - A) - (t - B) by ring]
    exact (abs_sub _ _).trans (by linarith)
  rw [mul_comm (Real.cos φ)] at hx hy
  have k1 := key hF.px hx (show τ + 2.25 * τ ≤ 3.25 * τ by linarith)
  have k2 := key hF.py hy (show τ + 2.25 * τ ≤ 3.25 * τ by linarith)
  have k3 := key hF.pz hz (show τ + τ ≤ 2 * τ by linarith)
  nlinarith

theorem FaceNear.mono {ε ε' : ℝ} {c : Face} {F : H3.FaceGeo} (h : FaceNear f ε c F) (he : ε ≤ ε') : FaceNear f ε' c F := by
  obtain ⟨h1, h2, h3, h4, h5, h6, h7, h8, h9, h10, h11⟩ := h
  constructor <;> linarith

theorem gno_sqd {F : H3.FaceGeo} {φ l : ℝ} (hW : 0 < H3.up F φ l) :
    gno (H3.sqd F φ l) = Real.sqrt (H3.north F φ l ^ 2 + H3.east F φ l ^ 2) / H3.up F φ l := by
  unfold gno
  rw [H3.sqd_eq]
  have e : (4 - (2 - 2 * H3.up F φ l)) * (2 - 2 * H3.up F φ l) = 2 ^ 2 * (H3.north F φ l ^ 2 + H3.east F φ l ^ 2) := by
    linear_combination (-4) * H3.frame_norm F φ l
  rw [e, Real.sqrt_mul (by norm_num), Real.sqrt_sq (by norm_num), show 2 - (2 - 2 * H3.up F φ l) = 2 * H3.up F φ l by ring]
  field_simp

/-- The face of the closest centre, in real numbers. -/
structure Chosen (f : Fmt) (τ φ l : ℝ) (c : Face) (F : H3.FaceGeo) (d : ℝ) : Prop where
  mem : F ∈ H3.faceGeo
  nearest : ∀ F' ∈ H3.faceGeo, H3.sqd F φ l ≤ H3.sqd F' φ l + 64 * τ
  d0 : 0 ≤ d
  d1 : d ≤ 0.95
  up : 0.54 ≤ H3.up F φ l
  root : |Real.sqrt d - Real.sqrt (H3.sqd F φ l)| ≤ 6.6 * τ

theorem chosen (K : CellConsts p f g) {τ : ℝ} (hτ : Unit' f τ) {φ l x y z : ℝ} (hx : |x - Real.cos φ * Real.cos l| ≤ 2.25 * τ)
    (hy : |y - Real.cos φ * Real.sin l| ≤ 2.25 * τ) (hz : |z - Real.sin φ| ≤ τ) (hn : |x ^ 2 + y ^ 2 + z ^ 2 - 1| ≤ 1 / 2 ^ 9) {s : FaceData p} {c : Face}
    {d : ℝ} (hc : Closest f g x y z s c d) : ∃ F, Same p f τ c F ∧ Chosen f τ φ l c F d := by
  have τ0 := hτ.pos
  have u0 := ulpHalf_pos (f := f)
  have h5 := hτ.ge
  have hτ2 := hτ.le
  norm_num at hτ2
  obtain ⟨k, ds, hk, hds, hmin⟩ := hc.first
  obtain ⟨F, hkF⟩ : ∃ F, H3.faceGeo[k]? = some F := by
    have hl := K.near.length_eq
    have : k < H3.faceGeo.length := by rw [← hl]; exact (List.getElem?_eq_some_iff.1 hk).1
    exact ⟨_, List.getElem?_eq_getElem this⟩
  have hF : FaceNear f τ c F := (forall₂_get K.near hk hkF).mono h5
  have hd := forall₂_get hds hk hmin.at_k
  obtain ⟨c0, hc0, hcov⟩ := K.table.cover x y z hn
  have hS : faceSq f c x y z ≤ 0.9005 := by have := hc.nearest c0 hc0; norm_num at *; linarith
  have hS0 : 0 ≤ faceSq f c x y z := by unfold faceSq sqDistR; positivity
  have hrel := squareDist_rel K.fine hd (K.table.sq_le hc.mem hn)
  change |Real.sqrt (faceSq f c x y z) - _| ≤ 7 * _ * Real.sqrt (faceSq f c x y z) + _ at hrel
  have hnear := dist_near τ0 hF hx hy hz
  have sD0 : 0 ≤ H3.sqd F φ l := by unfold H3.sqd; positivity
  have r1 : Real.sqrt (faceSq f c x y z) ≤ 0.949 := Real.sqrt_le_iff.2 ⟨by norm_num, by norm_num at *; linarith⟩
  have r0 := Real.sqrt_nonneg (faceSq f c x y z)
  have q0 := Real.sqrt_nonneg (H3.sqd F φ l)
  have qq := Real.sq_sqrt sD0
  have hroot : |Real.sqrt d - Real.sqrt (H3.sqd F φ l)| ≤ 6.6 * τ := by
    refine (abs_sub_le _ (Real.sqrt (faceSq f c x y z)) _).trans ?_
    rw [abs_sub_comm (Real.sqrt d)]
    have := mul_le_mul_of_nonneg_left r1 u0.le
    linarith
  have q1 : Real.sqrt (H3.sqd F φ l) ≤ 0.9495 := by
    have := (abs_le.1 hnear).1
    norm_num at *
    linarith
  have hD : H3.sqd F φ l ≤ 0.902 := by rw [← qq]; nlinarith
  refine ⟨F, ⟨K.unit c hc.mem, hF⟩, List.mem_of_getElem? hkF, ?_, hc.nonneg, ?_, ?_, hroot⟩
  · intro F' hF'
    obtain ⟨k', hk'⟩ := List.mem_iff_getElem?.1 hF'
    obtain ⟨c', hkc'⟩ : ∃ c', g.faces[k']? = some c' := by
      have hl := K.near.length_eq
      have : k' < g.faces.length := by rw [hl]; exact (List.getElem?_eq_some_iff.1 hk').1
      exact ⟨_, List.getElem?_eq_getElem this⟩
    have hF2 : FaceNear f τ c' F' := (forall₂_get K.near hkc' hk').mono h5
    have hnear' := dist_near τ0 hF2 hx hy hz
    have hnn := hc.nearest c' (List.mem_of_getElem? hkc')
    have hS' : 0 ≤ faceSq f c' x y z := by unfold faceSq sqDistR; positivity
    have hD' : 0 ≤ H3.sqd F' φ l := by unfold H3.sqd; positivity
    have hD4 : H3.sqd F' φ l ≤ 4 := by
      rw [H3.sqd_eq]
      have : |H3.up F' φ l| ≤ 1 := by
        refine abs_le_of_sq_le_sq ?_ zero_le_one
        nlinarith [H3.frame_norm F' φ l, sq_nonneg (H3.east F' φ l), sq_nonneg (H3.north F' φ l)]
      have := (abs_le.1 this).1
      linarith
    have a1 := Real.sq_sqrt hS0
    have a2 := Real.sq_sqrt hS'
    have a3 := Real.sq_sqrt hD'
    have b2 := Real.sqrt_nonneg (faceSq f c' x y z)
    have b3 := Real.sqrt_nonneg (H3.sqd F' φ l)
    have b4 : Real.sqrt (H3.sqd F' φ l) ≤ 2 := Real.sqrt_le_iff.2 ⟨by norm_num, by linarith⟩
    have n1 := abs_le.1 hnear
    have n2 := abs_le.1 hnear'
    have e1 : H3.sqd F φ l ≤ faceSq f c x y z + 10.2 * τ := by
      have : H3.sqd F φ l - faceSq f c x y z = (Real.sqrt (H3.sqd F φ l) - Real.sqrt (faceSq f c x y z)) * (Real.sqrt (H3.sqd F φ l) + Real.sqrt (faceSq f c x y z)) := by
        linear_combination a1 - qq
      have h1 : (Real.sqrt (H3.sqd F φ l) - Real.sqrt (faceSq f c x y z)) * (Real.sqrt (H3.sqd F φ l) + Real.sqrt (faceSq f c x y z)) ≤
          5.1 * τ * (Real.sqrt (H3.sqd F φ l) + Real.sqrt (faceSq f c x y z)) := mul_le_mul_of_nonneg_right (by linarith) (by linarith)
      have h2 : 5.1 * τ * (Real.sqrt (H3.sqd F φ l) + Real.sqrt (faceSq f c x y z)) ≤ 5.1 * τ * 2 := by
        refine mul_le_mul_of_nonneg_left ?_ (by positivity)
        norm_num at *; linarith
      linarith
    have e2 : faceSq f c' x y z ≤ H3.sqd F' φ l + 21 * τ := by
      have : faceSq f c' x y z - H3.sqd F' φ l = (Real.sqrt (faceSq f c' x y z) - Real.sqrt (H3.sqd F' φ l)) * (Real.sqrt (faceSq f c' x y z) + Real.sqrt (H3.sqd F' φ l)) := by
        linear_combination a3 - a2
      have h1 : (Real.sqrt (faceSq f c' x y z) - Real.sqrt (H3.sqd F' φ l)) * (Real.sqrt (faceSq f c' x y z) + Real.sqrt (H3.sqd F' φ l)) ≤
          5.1 * τ * (Real.sqrt (faceSq f c' x y z) + Real.sqrt (H3.sqd F' φ l)) := mul_le_mul_of_nonneg_right (by linarith) (by linarith)
      have h2 : 5.1 * τ * (Real.sqrt (faceSq f c' x y z) + Real.sqrt (H3.sqd F' φ l)) ≤ 5.1 * τ * 4.1 := by
        refine mul_le_mul_of_nonneg_left ?_ (by positivity)
        norm_num at *; linarith
      linarith
    linarith
  · have := abs_le.1 hc.accurate
    norm_num at *
    linarith
  · rw [H3.sqd_eq] at hD
    norm_num at *
    linarith

/-- Abnormal plane points have no cell. -/
theorem hex2d_abn (G : Good p b f) (hm : m.Fits b f) (K : CellConsts p f g) {x y : FloatVar p} (hx : Abn f x) (hy : Abn f y) :
    Fails m b (hex2dToCoordIJK f g x y) := by
  obtain ⟨s60, third, twoThirds, KH, _⟩ := K.hex
  unfold hex2dToCoordIJK
  simp only [Circ.bind_eq]
  refine Fails.bind ?_
  unfold quadrantIJ
  simp only [Circ.bind_eq, Circ.pure_eq]
  refine (abn_div G hm hy.abs KH.sin60).fails ?_
  intro x2 h2
  refine (abn_div G hm h2 KH.two).fails ?_
  intro t ht
  refine (abn_add G hm (.inl hx.abs) hx.abs.enc ht.enc).fails ?_
  intro x1 h1
  refine (abn_floor G hm h1).fails ?_
  intro m1 hm1
  refine (abn_floor G hm h2).fails ?_
  intro m2 hm2
  exact (abn_toInt G hm1 K.size).bind

/-- What is claimed of a computed cell: it is in normal form, it belongs to a face whose centre is the nearest up to `64 τ`, and the projected
location lies in its hexagon, enlarged by `768 τ √7^n`. An arbitrary prover can choose a hexagon next to it where a skewed coordinate is between one
and two. -/
def CellOk (m : Prover) (τ φ l : ℝ) (n : ℕ) (r : ZMod p × ZMod p × ZMod p) : Prop :=
  ∃ F ∈ H3.faceGeo, (∀ F' ∈ H3.faceGeo, H3.sqd F φ l ≤ H3.sqd F' φ l + 64 * τ) ∧
    ∃ i j k : ℤ, r = ((i : ZMod p), (j : ZMod p), (k : ZMod p)) ∧ 0 ≤ i ∧ 0 ≤ j ∧ 0 ≤ k ∧ (i = 0 ∨ j = 0 ∨ k = 0) ∧
      (H3.InHexagon (768 * τ * Real.sqrt 7 ^ n) i j k (H3.plane F n φ l).1 (H3.plane F n φ l).2 ∨
        (m ≠ .honest ∧ Ambiguous (1280 * τ * Real.sqrt 7 ^ n) (H3.plane F n φ l).1 (H3.plane F n φ l).2 ∧
          H3.InHexagon (1 + 768 * τ * Real.sqrt 7 ^ n) i j k (H3.plane F n φ l).1 (H3.plane F n φ l).2))

theorem Ambiguous.shift {δ δ' ε u v u' v' : ℝ} (h : Ambiguous δ u v) (h1 : |u' - u| ≤ ε) (h2 : |v' - v| ≤ ε) (he : δ + 2 * ε ≤ δ') : Ambiguous δ' u' v' := by
  have s3 : 1.7 ≤ Real.sqrt 3 := Real.le_sqrt_of_sq_le (by norm_num)
  have ε0 := (abs_nonneg _).trans h1
  have d1 := (abs_abs_sub_abs_le u' u).trans h1
  have d2 := (abs_abs_sub_abs_le v' v).trans h2
  have d3 : |(|v'| / Real.sqrt 3 - |v| / Real.sqrt 3)| ≤ ε := by
    rw [← sub_div, abs_div, abs_of_pos (show 0 < Real.sqrt 3 by norm_num at s3; linarith), div_le_iff₀ (by norm_num at s3; linarith)]
    norm_num at s3
    nlinarith
  have e1 : 2 * |v'| / Real.sqrt 3 = 2 * (|v'| / Real.sqrt 3) := by ring
  have e2 : 2 * |v| / Real.sqrt 3 = 2 * (|v| / Real.sqrt 3) := by ring
  unfold Ambiguous at *
  rw [e2] at h
  rw [e1]
  have k1 := abs_le.1 d1
  have k3 := abs_le.1 d3
  rcases h with h | h
  · left; constructor <;> linarith
  · right; constructor <;> linarith

theorem normalForm_zero {i j k : ℤ} {t : ℤ × ℤ × ℤ} (h : H3.NormalForm i j k t) : 0 ≤ t.1 ∧ 0 ≤ t.2.1 ∧ 0 ≤ t.2.2 ∧ (t.1 = 0 ∨ t.2.1 = 0 ∨ t.2.2 = 0) :=
  ⟨h.nonneg.1, h.nonneg.2.1, h.nonneg.2.2, h.zero⟩

theorem locCell_ok (G : Good p b f) (hm : m.Fits b f) (K : CellConsts p f g) {τ : ℝ} (hτ : Unit' f τ) {φ l : ℝ} {sinLat cosLat sinLng cosLng : FloatVar p}
    (h1 : Near f sinLat (Real.sin φ) τ) (h2 : Near f cosLat (Real.cos φ) τ) (h3 : Near f sinLng (Real.sin l) τ) (h4 : Near f cosLng (Real.cos l) τ)
    {res : ZMod p} (hres : m = .honest → res.val < 16) :
    OkOr m b (locCell f g sinLat cosLat sinLng cosLng res) (∃ F ∈ H3.faceGeo, H3.sqd F φ l ≤ (20 * τ) ^ 2)
      (fun r => ∃ n : ℕ, n < 16 ∧ res = (n : ZMod p) ∧ CellOk m τ φ l n r) := by
  have H := K.fine
  have τ0 := hτ.pos
  have hτ1 := hτ.ge
  have hτ2 := hτ.le
  norm_num at hτ2
  have u0 := ulpHalf_pos (f := f)
  have aF := Real.abs_sin_le_one
  have aC := Real.abs_cos_le_one
  obtain ⟨s60, third, twoThirds, KH, e60, e3, e6⟩ := K.hex
  unfold locCell
  simp only [Circ.bind_eq]
  refine (near_mul G hm H hτ h2 h4 (aC _) (aC _) (by linarith) (by linarith) (δ := 2.25 * τ) (by linarith)).bindOr ?_
  rintro x2 ⟨x, nx, ex⟩
  refine (near_mul G hm H hτ h2 h3 (aC _) (aF _) (by linarith) (by linarith) (δ := 2.25 * τ) (by linarith)).bindOr ?_
  rintro y2 ⟨y, ny, ey⟩
  have h1' := h1
  obtain ⟨z, nz, ez⟩ := h1'
  have hn : |x ^ 2 + y ^ 2 + z ^ 2 - 1| ≤ 1 / 2 ^ 9 := by
    have hone : (Real.cos φ * Real.cos l) ^ 2 + (Real.cos φ * Real.sin l) ^ 2 + Real.sin φ ^ 2 = 1 := by
      linear_combination (Real.cos φ) ^ 2 * Real.sin_sq_add_cos_sq l + Real.sin_sq_add_cos_sq φ
    have sqd : ∀ {t A : ℝ}, |t - A| ≤ 2.25 * τ → |A| ≤ 1 → |t ^ 2 - A ^ 2| ≤ 5 * τ := by
      intro t A h hA
      rw [show t ^ 2 - A ^ 2 = (t - A) * (t - A + 2 * A) by ring, abs_mul]
      have : |t - A + 2 * A| ≤ 2.1 := by
        refine (abs_add_le _ _).trans ?_
        rw [abs_mul, abs_two]
        norm_num; linarith
      have := mul_le_mul h this (abs_nonneg _) (by positivity)
      norm_num at *; linarith
    have mul1 : ∀ {a c : ℝ}, |a| ≤ 1 → |c| ≤ 1 → |a * c| ≤ 1 := by
      intro a c ha hc; rw [abs_mul]; exact mul_le_one₀ ha (abs_nonneg _) hc
    have k1 := abs_le.1 (sqd ex (mul1 (aC _) (aC _)))
    have k2 := abs_le.1 (sqd ey (mul1 (aC _) (aF _)))
    have k3 := abs_le.1 (sqd (show |z - Real.sin φ| ≤ 2.25 * τ by linarith) (aF _))
    rw [abs_le]
    norm_num at *
    constructor <;> linarith
  refine (closestFace_ok G hm K.table nx ny nz hn).bindOr ?_
  rintro s ⟨c, d, hc⟩
  obtain ⟨F, hsame, hch⟩ := chosen K hτ ex ey ez hn hc
  refine (calculateR_ok G hm K hc.num hch.d0 hch.d1 hres).bindOr ?_
  rintro r ⟨n, hn16, rfl, R, nR, eR⟩
  obtain ⟨T1, T2⟩ := sqrt7_le hn16
  obtain ⟨c1, c2⟩ := res0_bounds
  have hW0 : 0 < H3.up F φ l := by have := hch.up; norm_num at this; linarith
  have sD0 : 0 ≤ H3.sqd F φ l := by unfold H3.sqd; positivity
  have sD1 : H3.sqd F φ l ≤ 0.95 := by
    rw [H3.sqd_eq]; have := hch.up; norm_num at *; linarith
  have eR' : |R - Real.sqrt 7 ^ n * (Real.sqrt (H3.north F φ l ^ 2 + H3.east F φ l ^ 2) / H3.up F φ l / H3.res0)| ≤ 131 * τ * Real.sqrt 7 ^ n := by
    rw [← gno_sqd hW0]
    have hl := gno_lip hch.d0 hch.d1 sD0 sD1
    have hr := hch.root
    have hg : |gno d / H3.res0 - gno (H3.sqd F φ l) / H3.res0| ≤ 105 * τ := by
      norm_num at c1
      rw [← sub_div, abs_div, abs_of_pos (show 0 < H3.res0 by linarith), div_le_iff₀ (by linarith)]
      nlinarith
    generalize Real.sqrt 7 ^ n = T at *
    have e : R - T * (gno (H3.sqd F φ l) / H3.res0) = (R - T * (gno d / H3.res0)) + T * (gno d / H3.res0 - gno (H3.sqd F φ l) / H3.res0) := by ring
    rw [e]
    refine (abs_add_le _ _).trans ?_
    rw [abs_mul, abs_of_nonneg (show 0 ≤ T by linarith)]
    have k1 := mul_le_mul_of_nonneg_left hg (show 0 ≤ T by linarith)
    have k2 := mul_le_mul_of_nonneg_right hτ1 (show 0 ≤ T by linarith)
    have k3 : 0 ≤ τ * T := mul_nonneg τ0.le (by linarith)
    linarith
  rw [hc.data]
  refine (calculateHex2d_ok G hm H hτ h1 h2 h3 h4 hsame hn16 nR hch.up eR').bindOr ?_
  rintro ⟨U, V⟩ (⟨u, v, nu, nv, eu, ev, bu, bv⟩ | ⟨hcen, au, av⟩)
  · refine Ok.or ?_
    simp only at nu nv ⊢
    refine (hex2d_ok G hm KH nu nv (by norm_num at *; linarith) (by norm_num at *; linarith)).mono ?_
    rintro r' ⟨x1, x2', m1, m2, i, j, sx, sy, hsx, hsy, hsk, hp1, hp2, hpk, rfl⟩
    refine ⟨n, hn16, rfl, F, hch.mem, hch.nearest, ?_⟩
    obtain ⟨q1, q2, q3, q4⟩ := normalForm_zero (H3.ijkNormalize_normalForm (H3.fold sx sy i j).1 (H3.fold sx sy i j).2 0)
    refine ⟨_, _, _, rfl, q1, q2, q3, q4, ?_⟩
    have hu20 : ulpHalf f ≤ 1 / 2 ^ 10 := H.hu.trans (by norm_num)
    have sgn : ∀ {X : FloatVar p} {t : ℝ} {s : Bool}, Num f X t → X.sign = B s → |t| = if s then -t else t := by
      intro X t s hX hs
      obtain ⟨s', hs', k1, k2⟩ := hX.sign
      have : s = s' := (B_inj (p := p)).1 (by rw [← hs, ← hs'])
      subst this
      rcases lt_trichotomy t 0 with h | h | h
      · rw [k1 h, abs_of_neg h]; simp
      · subst h; cases s <;> simp
      · rw [k2 h, abs_of_pos h]; simp
    have hx := hexagon_of_part G hu20 e60 e3 e6 KH.twoThirds_le bu bv (by linarith) hsk hp1 hp2 hpk (sgn nu hsx) (sgn nv hsy) rfl
    have k2 := mul_le_mul_of_nonneg_right hτ1 (show 0 ≤ Real.sqrt 7 ^ n by linarith)
    have k3 : 0 ≤ τ * Real.sqrt 7 ^ n := by positivity
    rw [abs_sub_comm] at eu ev
    rcases hx with hx | ⟨ha, hb, hx⟩
    · left
      exact InHexagon.shift hx eu ev (by linarith)
    · right
      exact ⟨ha, hb.shift eu ev (by linarith), InHexagon.shift hx eu ev (by linarith)⟩
  · refine (hex2d_abn G hm K au av).or ⟨F, hch.mem, ?_⟩
    have hf := H3.frame_norm F φ l
    rw [H3.sqd_eq] at *
    have := hch.up
    norm_num at this
    nlinarith

end ZkLoc
