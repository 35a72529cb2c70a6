import Verif.Ground
import Verif.CellBound

/-!
# Helper lemmas for the concrete cases of C76 and C77

The face centres are apart, and the exact cells of one location are computed.
-/

namespace ZkLoc

/-- The centres, as integers. -/
def centres64 : List (ℤ × ℤ × ℤ) := geo64.faces.map (centreInt 11 52 64)

/-- The scalar product of two different centres is at most `0.7455`. -/
def apartCheck : Bool :=
  (List.range 20).all fun a => (List.range 20).all fun c => a == c || (match centres64[a]?, centres64[c]? with
    | some x, some y => decide (10000 * (x.1 * y.1 + x.2.1 * y.2.1 + x.2.2 * y.2.2) ≤ 7455 * (2 ^ 64 * 2 ^ 64))
    | _, _ => false)

theorem apart_ok : apartCheck = true := by decide +kernel

theorem prod_near {a a0 b b0 e e' : ℝ} (ha : |a - a0| ≤ e) (hb : |b - b0| ≤ e') (h1 : |a0| ≤ 1) (h2 : |b| ≤ 1) : |a * b - a0 * b0| ≤ e + e' := by
  have : a * b - a0 * b0 = (a - a0) * b + a0 * (b - b0) := by ring
  rw [this]
  refine (abs_add_le _ _).trans ?_
  rw [abs_mul, abs_mul]
  have := abs_nonneg (a - a0)
  have := abs_nonneg (b - b0)
  nlinarith

/-- Two face centres are at squared distance at least `1/2`. -/
theorem faces_apart {F F' : H3.FaceGeo} (hF : F ∈ H3.faceGeo) (hF' : F' ∈ H3.faceGeo) (hne : F ≠ F') : 1 / 2 ≤ H3.sqd F F'.lat F'.lng := by
  have K := cellConsts64 (p := bn254)
  have hl := K.near.length_eq
  obtain ⟨a, ha⟩ := List.mem_iff_getElem?.1 hF
  obtain ⟨c, hc⟩ := List.mem_iff_getElem?.1 hF'
  have la : a < geo64.faces.length := by rw [hl]; exact (List.getElem?_eq_some_iff.1 ha).1
  have lc : c < geo64.faces.length := by rw [hl]; exact (List.getElem?_eq_some_iff.1 hc).1
  have hac : a ≠ c := by rintro rfl; exact hne (Option.some.inj (ha.symm.trans hc))
  have n1 := forall₂_get K.near (List.getElem?_eq_getElem la) ha
  have n2 := forall₂_get K.near (List.getElem?_eq_getElem lc) hc
  generalize e1 : geo64.faces[a] = x at *
  generalize e2 : geo64.faces[c] = y at *
  have hx : geo64.faces[a]? = some x := by rw [List.getElem?_eq_getElem la, e1]
  have hy : geo64.faces[c]? = some y := by rw [List.getElem?_eq_getElem lc, e2]
  have l20 : geo64.faces.length = 20 := by decide +kernel
  have hk := apart_ok
  unfold apartCheck at hk
  rw [List.all_eq_true] at hk
  have hk := hk a (List.mem_range.2 (by omega))
  rw [List.all_eq_true] at hk
  have hk := hk c (List.mem_range.2 (by omega))
  rw [centres64, List.getElem?_map, List.getElem?_map, hx, hy] at hk
  simp only [Option.map_some, Bool.or_eq_true, beq_iff_eq, hac, false_or, decide_eq_true_eq] at hk
  obtain ⟨s1, s2, s3⟩ := scalable64 x (List.mem_of_getElem? hx)
  obtain ⟨t1, t2, t3⟩ := scalable64 y (List.mem_of_getElem? hy)
  have p1 := n1.px; have p2 := n1.py; have p3 := n1.pz
  have q1 := n2.px; have q2 := n2.py; have q3 := n2.pz
  simp only [show (f64.E) = 11 from rfl, show (f64.M) = 52 from rfl] at p1 p2 p3 q1 q2 q3
  rw [patternVal_scaled s1, abs_sub_comm] at p1
  rw [patternVal_scaled s2, abs_sub_comm] at p2
  rw [patternVal_scaled s3, abs_sub_comm] at p3
  rw [patternVal_scaled t1, abs_sub_comm] at q1
  rw [patternVal_scaled t2, abs_sub_comm] at q2
  rw [patternVal_scaled t3, abs_sub_comm] at q3
  simp only [centreInt] at hk
  have hk' := (Int.cast_le (R := ℝ)).2 hk
  push_cast at hk'
  generalize (scaledVal 11 52 64 x.px : ℝ) = X1 at *
  generalize (scaledVal 11 52 64 x.py : ℝ) = X2 at *
  generalize (scaledVal 11 52 64 x.pz : ℝ) = X3 at *
  generalize (scaledVal 11 52 64 y.px : ℝ) = Y1 at *
  generalize (scaledVal 11 52 64 y.py : ℝ) = Y2 at *
  generalize (scaledVal 11 52 64 y.pz : ℝ) = Y3 at *
  have hu : 5 * ulpHalf f64 ≤ 1 / 2 ^ 40 := by rw [ulpHalf64]; norm_num
  have tr (t : ℝ) : |Real.sin t| ≤ 1 ∧ |Real.cos t| ≤ 1 := ⟨Real.abs_sin_le_one t, Real.abs_cos_le_one t⟩
  have m (u v : ℝ) (h1 : |u| ≤ 1) (h2 : |v| ≤ 1) : |u * v| ≤ 1 := by rw [abs_mul]; exact mul_le_one₀ h1 (abs_nonneg _) h2
  have key (u v U V : ℝ) (hu' : |u - U| ≤ 5 * ulpHalf f64) (hv' : |v - V| ≤ 5 * ulpHalf f64) (h1 : |u| ≤ 1) (h2 : |v| ≤ 1) : u * v ≤ U * V + 1 / 2 ^ 38 := by
    have : |U - u| ≤ 1 / 2 ^ 40 := by rw [abs_sub_comm]; linarith
    have h3 : |V - v| ≤ 1 / 2 ^ 40 := by rw [abs_sub_comm]; linarith
    have hV : |V| ≤ 2 := by have := abs_sub_abs_le_abs_sub V v; norm_num at *; linarith
    have : U * V - u * v = (U - u) * V + u * (V - v) := by ring
    have h4 : |(U - u) * V + u * (V - v)| ≤ 1 / 2 ^ 40 * 2 + 1 * (1 / 2 ^ 40) := by
      refine (abs_add_le _ _).trans ?_
      rw [abs_mul, abs_mul]
      gcongr
    have := (abs_le.1 h4).1
    norm_num at *; linarith
  have k1 := key _ _ _ _ p1 q1 (m _ _ (tr _).2 (tr _).2) (m _ _ (tr _).2 (tr _).2)
  have k2 := key _ _ _ _ p2 q2 (m _ _ (tr _).1 (tr _).2) (m _ _ (tr _).1 (tr _).2)
  have k3 := key _ _ _ _ p3 q3 (tr _).1 (tr _).1
  rw [H3.sqd_eq]
  have eu : H3.up F F'.lat F'.lng = Real.cos F.lng * Real.cos F.lat * (Real.cos F'.lng * Real.cos F'.lat) + Real.sin F.lng * Real.cos F.lat * (Real.sin F'.lng * Real.cos F'.lat) +
      Real.sin F.lat * Real.sin F'.lat := by unfold H3.up; ring
  rw [eu]
  have : X1 / 2 ^ 64 * (Y1 / 2 ^ 64) + X2 / 2 ^ 64 * (Y2 / 2 ^ 64) + X3 / 2 ^ 64 * (Y3 / 2 ^ 64) = (X1 * Y1 + X2 * Y2 + X3 * Y3) / (2 ^ 64 * 2 ^ 64) := by ring
  have h5 : (X1 * Y1 + X2 * Y2 + X3 * Y3) / (2 ^ 64 * 2 ^ 64) ≤ 0.7455 := by
    rw [div_le_iff₀ (by positivity)]
    norm_num at hk' ⊢; linarith
  norm_num at *; linarith

/-- A location near a face centre is far from all other face centres. -/
theorem others_far {F : H3.FaceGeo} {φ l : ℝ} (hF : F ∈ H3.faceGeo) (h : H3.sqd F φ l ≤ 1 / 100) : ∀ F' ∈ H3.faceGeo, F' ≠ F → H3.sqd F φ l + 1 / 4 < H3.sqd F' φ l := by
  intro F' hF' hne
  have ha := faces_apart hF hF' hne.symm
  unfold H3.sqd at h ha ⊢
  generalize (H3.vec3 F.lat F.lng).1 = a1 at *
  generalize (H3.vec3 F.lat F.lng).2.1 = a2 at *
  generalize (H3.vec3 F.lat F.lng).2.2 = a3 at *
  generalize (H3.vec3 F'.lat F'.lng).1 = b1 at *
  generalize (H3.vec3 F'.lat F'.lng).2.1 = b2 at *
  generalize (H3.vec3 F'.lat F'.lng).2.2 = b3 at *
  generalize (H3.vec3 φ l).1 = c1 at *
  generalize (H3.vec3 φ l).2.1 = c2 at *
  generalize (H3.vec3 φ l).2.2 = c3 at *
  nlinarith [sq_nonneg (4 * (a1 - c1) - (c1 - b1) * (2 / 3)), sq_nonneg (4 * (a2 - c2) - (c2 - b2) * (2 / 3)), sq_nonneg (4 * (a3 - c3) - (c3 - b3) * (2 / 3))]

/-! ### The cells of the location with latitude 0 and longitude `77/32` -/

/-- Face 10. -/
noncomputable def face10 : H3.FaceGeo := .ofDecimals (79066118549212831, 2408163140208925497, 5930472956509811562)

theorem face10_mem : face10 ∈ H3.faceGeo := List.mem_map_of_mem (by decide)

theorem face10_lat : |95485512394804011233668 / 2 ^ 80 - Real.sin face10.lat| ≤ 6 / 2 ^ 80 ∧ |1205149017447056066653769 / 2 ^ 80 - Real.cos face10.lat| ≤ 6 / 2 ^ 80 := by
  have h : trigOk (decX 80 79066118549212831) 80 40 = true := by decide +kernel
  have e1 : trigVal imPow (decX 80 79066118549212831) 80 40 = 95485512394804011233668 := by decide +kernel
  have e2 : trigVal rePow (decX 80 79066118549212831) 80 40 = 1205149017447056066653769 := by decide +kernel
  have := trigOk_near (by norm_num) h (x := face10.lat) ((decX_err _ _).trans (by gcongr; norm_num))
  rw [e1, e2] at this
  push_cast at this
  exact this

theorem face10_lng : |809280686356330999691505 / 2 ^ 80 - Real.sin face10.lng| ≤ 6 / 2 ^ 80 ∧ |-898090423076389747518810 / 2 ^ 80 - Real.cos face10.lng| ≤ 6 / 2 ^ 80 := by
  have h : trigOk (decX 80 2408163140208925497) 80 40 = true := by decide +kernel
  have e1 : trigVal imPow (decX 80 2408163140208925497) 80 40 = 809280686356330999691505 := by decide +kernel
  have e2 : trigVal rePow (decX 80 2408163140208925497) 80 40 = -898090423076389747518810 := by decide +kernel
  have := trigOk_near (by norm_num) h (x := face10.lng) ((decX_err _ _).trans (by gcongr; norm_num))
  rw [e1, e2] at this
  push_cast at this
  exact this

theorem face10_axis : |-765964105804354042574661 / 2 ^ 80 - Real.sin (face10.az - H3.ap7rot)| ≤ 6 / 2 ^ 80 ∧ |935307770709855293624440 / 2 ^ 80 - Real.cos (face10.az - H3.ap7rot)| ≤ 6 / 2 ^ 80 := by
  have h : trigOk (decX 80 5930472956509811562 - rotX 80) 80 60 = true := by decide +kernel
  have e1 : trigVal imPow (decX 80 5930472956509811562 - rotX 80) 80 60 = -765964105804354042574661 := by decide +kernel
  have e2 : trigVal rePow (decX 80 5930472956509811562 - rotX 80) 80 60 = 935307770709855293624440 := by decide +kernel
  have := trigOk_near (by norm_num) h (x := face10.az - H3.ap7rot) (by
    have h1 := decX_err 80 5930472956509811562
    have h2 := rotX_err 80
    push_cast
    rw [sub_div, show ∀ a b c d : ℝ, a - b - (c - d) = (a - c) - (b - d) by intros; ring]
    refine (abs_sub _ _).trans ((add_le_add h1 h2).trans (by norm_num)))
  rw [e1, e2] at this
  push_cast at this
  exact this

theorem lng_trig : |810997377181976600449822 / 2 ^ 80 - Real.sin (77 / 32)| ≤ 6 / 2 ^ 80 ∧ |-896540513047156000014458 / 2 ^ 80 - Real.cos (77 / 32)| ≤ 6 / 2 ^ 80 := by
  have h : trigOk (77 * 2 ^ 75) 80 40 = true := by decide +kernel
  have e1 : trigVal imPow (77 * 2 ^ 75) 80 40 = 810997377181976600449822 := by decide +kernel
  have e2 : trigVal rePow (77 * 2 ^ 75) 80 40 = -896540513047156000014458 := by decide +kernel
  have := trigOk_near (by norm_num) h (x := 77 / 32) (by push_cast; norm_num)
  rw [e1, e2] at this
  push_cast at this
  exact this

/-- The two directions, divided by the height. -/
theorem point_dirs : |(Real.cos (face10.az - H3.ap7rot) * H3.north face10 0 (77 / 32) + Real.sin (face10.az - H3.ap7rot) * H3.east face10 0 (77 / 32)) / H3.up face10 0 (77 / 32) -
      -6008280242139670127 / 10 ^ 20| ≤ 1 / 10 ^ 15 ∧
    |(Real.sin (face10.az - H3.ap7rot) * H3.north face10 0 (77 / 32) - Real.cos (face10.az - H3.ap7rot) * H3.east face10 0 (77 / 32)) / H3.up face10 0 (77 / 32) -
      5168498238404185902 / 10 ^ 20| ≤ 1 / 10 ^ 15 := by
  have hD : |Real.cos (77 / 32) * Real.cos face10.lng + Real.sin (77 / 32) * Real.sin face10.lng| ≤ 1 := by rw [← Real.cos_sub]; exact Real.abs_cos_le_one _
  have hE : |Real.sin (77 / 32) * Real.cos face10.lng - Real.cos (77 / 32) * Real.sin face10.lng| ≤ 1 := by rw [← Real.sin_sub]; exact Real.abs_sin_le_one _
  unfold H3.north H3.east H3.up
  rw [Real.sin_zero, Real.cos_zero]
  simp only [mul_zero, zero_sub, zero_add, mul_one, one_mul]
  obtain ⟨a1, a2⟩ := face10_lat
  obtain ⟨b1, b2⟩ := face10_lng
  obtain ⟨c1, c2⟩ := face10_axis
  obtain ⟨d1, d2⟩ := lng_trig
  rw [abs_sub_comm] at a1 a2 b1 b2 c1 c2 d1 d2
  have A1 := Real.abs_sin_le_one face10.lat
  have B1 := Real.abs_sin_le_one face10.lng
  have B2 := Real.abs_cos_le_one face10.lng
  have q1 := prod_near d2 b2 (by rw [abs_le]; constructor <;> norm_num) B2
  have q2 := prod_near d1 b1 (by rw [abs_le]; constructor <;> norm_num) B1
  have q3 := prod_near d1 b2 (by rw [abs_le]; constructor <;> norm_num) B2
  have q4 := prod_near d2 b1 (by rw [abs_le]; constructor <;> norm_num) B1
  have qD : |Real.cos (77 / 32) * Real.cos face10.lng + Real.sin (77 / 32) * Real.sin face10.lng -
      (-896540513047156000014458 / 2 ^ 80 * (-898090423076389747518810 / 2 ^ 80) + 810997377181976600449822 / 2 ^ 80 * (809280686356330999691505 / 2 ^ 80))| ≤ 24 / 2 ^ 80 := by
    rw [abs_le] at q1 q2 ⊢
    constructor <;> linarith [q1.1, q1.2, q2.1, q2.2]
  have qE : |Real.sin (77 / 32) * Real.cos face10.lng - Real.cos (77 / 32) * Real.sin face10.lng -
      (810997377181976600449822 / 2 ^ 80 * (-898090423076389747518810 / 2 ^ 80) - -896540513047156000014458 / 2 ^ 80 * (809280686356330999691505 / 2 ^ 80))| ≤ 24 / 2 ^ 80 := by
    rw [abs_le] at q3 q4 ⊢
    constructor <;> linarith [q3.1, q3.2, q4.1, q4.2]
  clear q1 q2 q3 q4 b1 b2 d1 d2 B1 B2
  generalize Real.cos (77 / 32) * Real.cos face10.lng + Real.sin (77 / 32) * Real.sin face10.lng = D at *
  generalize Real.sin (77 / 32) * Real.cos face10.lng - Real.cos (77 / 32) * Real.sin face10.lng = E at *
  have r1 := prod_near a2 qD (by rw [abs_le]; constructor <;> norm_num) hD
  have r2 := prod_near a1 qD (by rw [abs_le]; constructor <;> norm_num) hD
  have hS : |Real.sin face10.lat * D| ≤ 1 := by rw [abs_mul]; exact mul_le_one₀ A1 (abs_nonneg _) hD
  have r3 := prod_near c2 r2 (by rw [abs_le]; constructor <;> norm_num) hS
  have r4 := prod_near c1 r2 (by rw [abs_le]; constructor <;> norm_num) hS
  have r5 := prod_near c1 qE (by rw [abs_le]; constructor <;> norm_num) hE
  have r6 := prod_near c2 qE (by rw [abs_le]; constructor <;> norm_num) hE
  clear a1 a2 c1 c2 qD qE hD hE hS A1 r2
  simp only [mul_neg]
  generalize Real.cos face10.lat * D = W at *
  generalize Real.cos (face10.az - H3.ap7rot) * (Real.sin face10.lat * D) = x1 at *
  generalize Real.sin (face10.az - H3.ap7rot) * (Real.sin face10.lat * D) = x2 at *
  generalize Real.sin (face10.az - H3.ap7rot) * E = x3 at *
  generalize Real.cos (face10.az - H3.ap7rot) * E = x4 at *
  rw [abs_le] at r1 r3 r4 r5 r6
  obtain ⟨r1, r1'⟩ := r1
  obtain ⟨r3, r3'⟩ := r3
  obtain ⟨r4, r4'⟩ := r4
  obtain ⟨r5, r5'⟩ := r5
  obtain ⟨r6, r6'⟩ := r6
  norm_num at r1 r1' r3 r3' r4 r4' r5 r5' r6 r6'
  have hW : (9 / 10 : ℝ) ≤ W := by linarith
  have hW0 : 0 < W := by linarith
  constructor
  · rw [div_sub' hW0.ne', abs_div, abs_of_pos hW0, div_le_iff₀ hW0, abs_le]
    constructor <;> norm_num <;> linarith
  · rw [div_sub' hW0.ne', abs_div, abs_of_pos hW0, div_le_iff₀ hW0, abs_le]
    constructor <;> norm_num <;> linarith

/-- The projected point at an odd resolution. -/
theorem point_plane {n : ℕ} (hn : n % 2 = 1) : |(H3.plane face10 n 0 (77 / 32)).1 - Real.sqrt 7 ^ n * (-15729881887856 / 10 ^ 14)| ≤ Real.sqrt 7 ^ n * (1 / 10 ^ 13) ∧
    |(H3.plane face10 n 0 (77 / 32)).2 - Real.sqrt 7 ^ n * (13531304058936 / 10 ^ 14)| ≤ Real.sqrt 7 ^ n * (1 / 10 ^ 13) := by
  obtain ⟨h1, h2⟩ := point_dirs
  have e : H3.axis face10 n = face10.az - H3.ap7rot := by unfold H3.axis; rw [if_pos hn]
  have hT : 0 < Real.sqrt 7 ^ n := by positivity
  rw [H3.plane_eq, e]
  generalize Real.cos (face10.az - H3.ap7rot) * H3.north face10 0 (77 / 32) + Real.sin (face10.az - H3.ap7rot) * H3.east face10 0 (77 / 32) = x at *
  generalize Real.sin (face10.az - H3.ap7rot) * H3.north face10 0 (77 / 32) - Real.cos (face10.az - H3.ap7rot) * H3.east face10 0 (77 / 32) = y at *
  generalize H3.up face10 0 (77 / 32) = W at *
  generalize Real.sqrt 7 ^ n = T at *
  have e1 : T / H3.res0 / W * x = T * (x / W / H3.res0) := by ring
  have e2 : T / H3.res0 / W * y = T * (y / W / H3.res0) := by ring
  simp only
  rw [e1, e2, ← mul_sub, ← mul_sub, abs_mul, abs_mul, abs_of_pos hT]
  unfold H3.res0
  rw [abs_le] at h1 h2
  constructor
  · refine mul_le_mul_of_nonneg_left ?_ hT.le
    rw [abs_le]; constructor <;> norm_num at * <;> linarith
  · refine mul_le_mul_of_nonneg_left ?_ hT.le
    rw [abs_le]; constructor <;> norm_num at * <;> linarith

theorem hexagon_of_near {u v u0 v0 η ε : ℝ} {i j k : ℤ} (hu : |u - u0| ≤ η) (hv : |v - v0| ≤ η) (h : H3.InHexagon (-(ε + 2 * η)) i j k u0 v0) : H3.InHexagon (-ε) i j k u v := by
  have s3 : Real.sqrt 3 ≤ 2 := Real.sqrt_le_iff.2 ⟨by norm_num, by norm_num⟩
  have s0 := Real.sqrt_nonneg 3
  unfold H3.InHexagon at h ⊢
  simp only at h ⊢
  generalize ((i - k : ℝ) - (j - k : ℝ) / 2) = a at *
  generalize (j - k : ℝ) * (Real.sqrt 3 / 2) = c at *
  have hη : 0 ≤ η := (abs_nonneg _).trans hu
  have hw : |Real.sqrt 3 / 2 * (v - v0)| ≤ η := by
    rw [abs_mul, abs_of_nonneg (by positivity)]
    nlinarith [abs_nonneg (v - v0)]
  have e : Real.sqrt 3 / 2 * (v - c) = Real.sqrt 3 / 2 * (v0 - c) + Real.sqrt 3 / 2 * (v - v0) := by ring
  rw [e]
  generalize Real.sqrt 3 / 2 * (v0 - c) = w at *
  generalize Real.sqrt 3 / 2 * (v - v0) = w' at *
  simp only [abs_le] at *
  refine ⟨⟨?_, ?_⟩, ⟨?_, ?_⟩, ?_, ?_⟩ <;> linarith [hu.1, hu.2, hw.1, hw.2, h.1.1, h.1.2, h.2.1.1, h.2.1.2, h.2.2.1, h.2.2.2]

theorem sqrt_bounds : (2.6457513110 : ℝ) ≤ Real.sqrt 7 ∧ Real.sqrt 7 ≤ 2.6457513111 ∧ (1.7320508075 : ℝ) ≤ Real.sqrt 3 ∧ Real.sqrt 3 ≤ 1.7320508076 := by
  refine ⟨Real.le_sqrt_of_sq_le (by norm_num), Real.sqrt_le_iff.2 ⟨by norm_num, by norm_num⟩, Real.le_sqrt_of_sq_le (by norm_num), Real.sqrt_le_iff.2 ⟨by norm_num, by norm_num⟩⟩

theorem face10_close : H3.sqd face10 0 (77 / 32) ≤ 1 / 100 := by
  rw [H3.sqd_eq]
  unfold H3.up
  rw [Real.sin_zero, Real.cos_zero, ← Real.cos_sub]
  have h1 := Real.one_sub_sq_div_two_le_cos (x := face10.lat)
  have h2 := Real.one_sub_sq_div_two_le_cos (x := 77 / 32 - face10.lng)
  generalize Real.cos (77 / 32 - face10.lng) = c at *
  generalize Real.cos face10.lat = d at *
  simp only [face10, H3.FaceGeo.ofDecimals] at h1 h2
  have h1' : (1 - 0.0032 : ℝ) ≤ d := by refine le_trans ?_ h1; norm_num
  have h2' : (1 - 0.0001 : ℝ) ≤ c := by refine le_trans ?_ h2; norm_num
  norm_num at h1' h2'
  nlinarith

/-- At resolution 3 the location is inside the cell `(0, 4, 1)`, and not near its border. -/
theorem inside3 : H3.Inside (1 / 4) (84 / 1000) 3 0 (77 / 32) 0 4 1 := by
  refine ⟨face10, face10_mem, others_far face10_mem face10_close, by norm_num, by norm_num, by norm_num, .inl rfl, 85 / 1000, by norm_num, ?_⟩
  obtain ⟨h1, h2⟩ := point_plane (n := 3) (by norm_num)
  obtain ⟨s1, s2, s3, s4⟩ := sqrt_bounds
  have e : Real.sqrt 7 ^ 3 = 7 * Real.sqrt 7 := by
    rw [show Real.sqrt 7 ^ 3 = Real.sqrt 7 ^ 2 * Real.sqrt 7 by ring, Real.sq_sqrt (by norm_num)]
  rw [e] at h1 h2
  refine hexagon_of_near (η := 1 / 10000) (h1.trans (by norm_num at *; linarith)) (h2.trans (by norm_num at *; linarith)) ?_
  unfold H3.InHexagon
  norm_num at s1 s2 s3 s4 ⊢
  have p1 : Real.sqrt 3 * Real.sqrt 3 = 3 := Real.mul_self_sqrt (by norm_num)
  have p2 : |Real.sqrt 3 * Real.sqrt 7 - 4.58257569| ≤ 1 / 10 ^ 7 := by rw [abs_le]; constructor <;> norm_num <;> nlinarith
  rw [abs_le] at p2
  norm_num at p2
  obtain ⟨p2, p3⟩ := p2
  simp only [abs_le]
  refine ⟨⟨?_, ?_⟩, ⟨?_, ?_⟩, ?_, ?_⟩ <;> nlinarith

/-- At resolution 5 the location is inside the cell `(0, 30, 10)`, a tenth of the grid unit from its border. -/
theorem inside5 : H3.Inside (1 / 4) (99 / 1000) 5 0 (77 / 32) 0 30 10 := by
  refine ⟨face10, face10_mem, others_far face10_mem face10_close, by norm_num, by norm_num, by norm_num, .inl rfl, 1 / 10, by norm_num, ?_⟩
  obtain ⟨h1, h2⟩ := point_plane (n := 5) (by norm_num)
  obtain ⟨s1, s2, s3, s4⟩ := sqrt_bounds
  have e : Real.sqrt 7 ^ 5 = 49 * Real.sqrt 7 := by
    rw [show Real.sqrt 7 ^ 5 = (Real.sqrt 7 ^ 2) ^ 2 * Real.sqrt 7 by ring, Real.sq_sqrt (by norm_num)]; norm_num
  rw [e] at h1 h2
  refine hexagon_of_near (η := 1 / 1000) (h1.trans (by norm_num at *; linarith)) (h2.trans (by norm_num at *; linarith)) ?_
  unfold H3.InHexagon
  norm_num at s1 s2 s3 s4 ⊢
  have p1 : Real.sqrt 3 * Real.sqrt 3 = 3 := Real.mul_self_sqrt (by norm_num)
  have p2 : |Real.sqrt 3 * Real.sqrt 7 - 4.58257569| ≤ 1 / 10 ^ 7 := by rw [abs_le]; constructor <;> norm_num <;> nlinarith
  rw [abs_le] at p2
  norm_num at p2
  obtain ⟨p2, p3⟩ := p2
  simp only [abs_le]
  refine ⟨⟨?_, ?_⟩, ⟨?_, ?_⟩, ?_, ?_⟩ <;> nlinarith

/-- At resolution 15 the location is inside the cell `(0, 512958, 172515)`. -/
theorem inside15 : H3.Inside (1 / 4) (14 / 100) 15 0 (77 / 32) 0 512958 172515 := by
  refine ⟨face10, face10_mem, others_far face10_mem face10_close, by norm_num, by norm_num, by norm_num, .inl rfl, 15 / 100, by norm_num, ?_⟩
  obtain ⟨h1, h2⟩ := point_plane (n := 15) (by norm_num)
  obtain ⟨s1, s2, s3, s4⟩ := sqrt_bounds
  have e : Real.sqrt 7 ^ 15 = 823543 * Real.sqrt 7 := by
    rw [show Real.sqrt 7 ^ 15 = (Real.sqrt 7 ^ 2) ^ 7 * Real.sqrt 7 by ring, Real.sq_sqrt (by norm_num)]; norm_num
  rw [e] at h1 h2
  refine hexagon_of_near (η := 1 / 1000) (h1.trans (by norm_num at *; linarith)) (h2.trans (by norm_num at *; linarith)) ?_
  unfold H3.InHexagon
  norm_num at s1 s2 s3 s4 ⊢
  have p1 : Real.sqrt 3 * Real.sqrt 3 = 3 := Real.mul_self_sqrt (by norm_num)
  have p2 : |Real.sqrt 3 * Real.sqrt 7 - 4.582575695| ≤ 1 / 10 ^ 8 := by rw [abs_le]; constructor <;> norm_num <;> nlinarith
  rw [abs_le] at p2
  norm_num at p2
  obtain ⟨p2, p3⟩ := p2
  simp only [abs_le]
  refine ⟨⟨?_, ?_⟩, ⟨?_, ?_⟩, ?_, ?_⟩ <;> nlinarith

end ZkLoc
