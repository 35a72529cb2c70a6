import Verif.Spec.Ground
import Verif.CellBound
import Mathlib.Analysis.SpecialFunctions.Trigonometric.Bounds

/-!
# Helper lemmas: from an enlarged hexagon to a nearby location inside it
-/

namespace H3

/-- Every point of the unit sphere has a latitude and a longitude. -/
theorem exists_angles {x y z : ℝ} (h : x ^ 2 + y ^ 2 + z ^ 2 = 1) : ∃ φ l, |φ| ≤ Real.pi / 2 ∧ |l| ≤ Real.pi ∧ vec3 φ l = (x, y, z) := by
  have hz : z ^ 2 ≤ 1 := by nlinarith [sq_nonneg x, sq_nonneg y]
  obtain ⟨z1, z2⟩ := abs_le.1 ((sq_le_one_iff_abs_le_one z).1 hz)
  refine ⟨Real.arcsin z, Complex.arg ⟨x, y⟩, ?_, Complex.abs_arg_le_pi _, ?_⟩
  · exact abs_le.2 ⟨Real.neg_pi_div_two_le_arcsin z, Real.arcsin_le_pi_div_two z⟩
  · unfold vec3
    rw [Real.cos_arcsin, Real.sin_arcsin z1 z2, show 1 - z ^ 2 = x ^ 2 + y ^ 2 by linarith]
    obtain ⟨h1, h2⟩ := cos_arg_mul x y
    rw [mul_comm, h1, mul_comm, h2]

/-- The coordinates seen from the face centre depend on the point of the sphere only. -/
theorem frame_eq (F : FaceGeo) {φ l x y z : ℝ} (h : vec3 φ l = (x, y, z)) :
    north F φ l = Real.cos F.lat * z - Real.sin F.lat * (Real.cos F.lng * x + Real.sin F.lng * y) ∧ east F φ l = Real.cos F.lng * y - Real.sin F.lng * x ∧
      up F φ l = Real.sin F.lat * z + Real.cos F.lat * (Real.cos F.lng * x + Real.sin F.lng * y) := by
  unfold vec3 at h
  simp only [Prod.mk.injEq] at h
  obtain ⟨rfl, rfl, rfl⟩ := h
  unfold north east up
  refine ⟨by ring, by ring, by ring⟩

theorem dot_eq (φ l φ' l' : ℝ) : Real.sin φ * Real.sin φ' + Real.cos φ * Real.cos φ' * Real.cos (l' - l) =
    (vec3 φ l).1 * (vec3 φ' l').1 + (vec3 φ l).2.1 * (vec3 φ' l').2.1 + (vec3 φ l).2.2 * (vec3 φ' l').2.2 := by
  unfold vec3; simp only; rw [Real.cos_sub]; ring

/-- The scalar product in the coordinates of a face. -/
theorem dot_frame (F : FaceGeo) (φ l φ' l' : ℝ) : Real.sin φ * Real.sin φ' + Real.cos φ * Real.cos φ' * Real.cos (l' - l) =
    north F φ l * north F φ' l' + east F φ l * east F φ' l' + up F φ l * up F φ' l' := by
  obtain ⟨a1, a2, a3⟩ := frame_eq F (show vec3 φ l = ((vec3 φ l).1, (vec3 φ l).2.1, (vec3 φ l).2.2) from rfl)
  obtain ⟨b1, b2, b3⟩ := frame_eq F (show vec3 φ' l' = ((vec3 φ' l').1, (vec3 φ' l').2.1, (vec3 φ' l').2.2) from rfl)
  rw [dot_eq, a1, a2, a3, b1, b2, b3]
  have h1 := Real.sin_sq_add_cos_sq F.lat
  have h2 := Real.sin_sq_add_cos_sq F.lng
  generalize Real.sin F.lat = s at *
  generalize Real.cos F.lat = c at *
  generalize Real.sin F.lng = t at *
  generalize Real.cos F.lng = d at *
  generalize (vec3 φ l).1 = x at *
  generalize (vec3 φ l).2.1 = y at *
  generalize (vec3 φ l).2.2 = z at *
  generalize (vec3 φ' l').1 = x' at *
  generalize (vec3 φ' l').2.1 = y' at *
  generalize (vec3 φ' l').2.2 = z' at *
  linear_combination (-(z * z') - (d * x + t * y) * (d * x' + t * y')) * h1 - (x * x' + y * y') * h2

/-- Every point of the plane of a face is the projection of a location. -/
theorem plane_surj (F : FaceGeo) (n : ℕ) (a c : ℝ) : ∃ φ l, |φ| ≤ Real.pi / 2 ∧ |l| ≤ Real.pi ∧ up F φ l = 1 / Real.sqrt (1 + a ^ 2 + c ^ 2) ∧
    north F φ l = a / Real.sqrt (1 + a ^ 2 + c ^ 2) ∧ east F φ l = c / Real.sqrt (1 + a ^ 2 + c ^ 2) := by
  have hq : Real.sqrt (1 + a ^ 2 + c ^ 2) ^ 2 = 1 + a ^ 2 + c ^ 2 := Real.sq_sqrt (by positivity)
  have q0 : 0 < Real.sqrt (1 + a ^ 2 + c ^ 2) := Real.sqrt_pos.2 (by positivity)
  generalize Real.sqrt (1 + a ^ 2 + c ^ 2) = q at *
  have h1 := Real.sin_sq_add_cos_sq F.lat
  have h2 := Real.sin_sq_add_cos_sq F.lng
  obtain ⟨φ, l, b1, b2, hv⟩ := exists_angles
    (x := (-(a * Real.sin F.lat * Real.cos F.lng) - c * Real.sin F.lng + Real.cos F.lat * Real.cos F.lng) / q)
    (y := (-(a * Real.sin F.lat * Real.sin F.lng) + c * Real.cos F.lng + Real.cos F.lat * Real.sin F.lng) / q)
    (z := (a * Real.cos F.lat + Real.sin F.lat) / q) (by
      rw [div_pow, div_pow, div_pow, ← add_div, ← add_div, div_eq_one_iff_eq (by positivity), hq]
      generalize Real.sin F.lat = s at *
      generalize Real.cos F.lat = d at *
      generalize Real.sin F.lng = t at *
      generalize Real.cos F.lng = e at *
      linear_combination (a ^ 2 + 1) * h1 + ((d - a * s) ^ 2 + c ^ 2) * h2)
  refine ⟨φ, l, b1, b2, ?_⟩
  obtain ⟨e1, e2, e3⟩ := frame_eq F hv
  rw [e1, e2, e3]
  generalize Real.sin F.lat = s at *
  generalize Real.cos F.lat = d at *
  generalize Real.sin F.lng = t at *
  generalize Real.cos F.lng = e at *
  refine ⟨?_, ?_, ?_⟩
  · field_simp
    linear_combination h1 + (-(a * s * d) + d ^ 2) * h2
  · field_simp
    linear_combination a * h1 + (a * s ^ 2 - s * d) * h2
  · field_simp
    linear_combination c * h2

/-- The angle between two points of a plane that touches the unit sphere is not larger than their distance, as far as cosines go. -/
theorem dot_lower {a c a' c' : ℝ} : 1 - ((a - a') ^ 2 + (c - c') ^ 2) / 2 ≤ (a * a' + c * c' + 1) / (Real.sqrt (1 + a ^ 2 + c ^ 2) * Real.sqrt (1 + a' ^ 2 + c' ^ 2)) := by
  have hp : Real.sqrt (1 + a ^ 2 + c ^ 2) ^ 2 = 1 + a ^ 2 + c ^ 2 := Real.sq_sqrt (by positivity)
  have hq : Real.sqrt (1 + a' ^ 2 + c' ^ 2) ^ 2 = 1 + a' ^ 2 + c' ^ 2 := Real.sq_sqrt (by positivity)
  have p1 : 1 ≤ Real.sqrt (1 + a ^ 2 + c ^ 2) := Real.le_sqrt_of_sq_le (by nlinarith [sq_nonneg a, sq_nonneg c])
  have q1 : 1 ≤ Real.sqrt (1 + a' ^ 2 + c' ^ 2) := Real.le_sqrt_of_sq_le (by nlinarith [sq_nonneg a', sq_nonneg c'])
  generalize Real.sqrt (1 + a ^ 2 + c ^ 2) = p at *
  generalize Real.sqrt (1 + a' ^ 2 + c' ^ 2) = q at *
  have e : (a - a') ^ 2 + (c - c') ^ 2 = p ^ 2 + q ^ 2 - 2 * (a * a' + c * c' + 1) := by rw [hp, hq]; ring
  rw [e]
  have hD : 0 ≤ p ^ 2 + q ^ 2 - 2 * (a * a' + c * c' + 1) := by rw [← e]; positivity
  have cs : a * a' + c * c' + 1 ≤ p * q := by
    refine (le_abs_self _).trans (abs_le_of_sq_le_sq ?_ (by positivity))
    rw [mul_pow, hp, hq]
    nlinarith [sq_nonneg (a - a'), sq_nonneg (c - c'), sq_nonneg (a * c' - a' * c)]
  generalize a * a' + c * c' + 1 = w at *
  rw [le_div_iff₀ (by positivity)]
  have h1 : 1 ≤ p * q := by nlinarith
  nlinarith [sq_nonneg (p - q), mul_nonneg (sub_nonneg.2 h1) (sub_nonneg.2 cs)]

/-- Small angles are hardly longer than their chords. -/
theorem arccos_le {c D : ℝ} (hD0 : 0 ≤ D) (hD : D ≤ 1 / 100) (h : 1 - D ^ 2 / 2 ≤ c) (hc : c ≤ 1) : Real.arccos c ≤ 1.0001 * D := by
  have h0 := Real.arccos_nonneg c
  have h1 := Real.arccos_le_pi c
  have hcos : Real.cos (Real.arccos c) = c := Real.cos_arccos (by nlinarith) hc
  generalize Real.arccos c = θ at *
  have hs : Real.sin (θ / 2) ^ 2 = (1 - c) / 2 := by
    have := Real.cos_sq (θ / 2)
    rw [mul_div_cancel₀ _ (by norm_num : (2:ℝ) ≠ 0), hcos] at this
    have h := Real.sin_sq_add_cos_sq (θ / 2)
    linarith
  have hs' : Real.sin (θ / 2) ≤ D / 2 := (le_abs_self _).trans (abs_le_of_sq_le_sq (by rw [hs]; nlinarith) (by positivity))
  have hp := Real.pi_gt_three
  have hp4 := Real.pi_le_four
  have k1 := Real.mul_le_sin (x := θ / 2) (by linarith) (by linarith)
  have k2 : θ / 2 * (1 / 2) ≤ 2 / Real.pi * (θ / 2) := by
    rw [mul_comm]
    refine mul_le_mul_of_nonneg_right ?_ (by linarith)
    rw [le_div_iff₀ (by linarith)]; linarith
  have k3 : θ / 2 ≤ 1 / 100 := by linarith
  rcases eq_or_lt_of_le h0 with h0 | h0
  · rw [← h0]; positivity
  · have k4 := Real.sin_gt_sub_cube (x := θ / 2) (by linarith)
    have k5 : (θ / 2) ^ 3 ≤ 1 / 10000 * (θ / 2) := by
      have : (θ / 2) ^ 2 ≤ (1 / 100) ^ 2 := pow_le_pow_left₀ (by linarith) k3 2
      nlinarith
    norm_num
    linarith

/-- The nearest point of a hexagon to a point of the enlarged hexagon is near. -/
theorem hexagon_shrink {ε u v : ℝ} {i j k : ℤ} (h0 : 0 ≤ ε) (h : InHexagon ε i j k u v) : ∃ u' v', InHexagon 0 i j k u' v' ∧ (u - u') ^ 2 + (v - v') ^ 2 ≤ 4 / 3 * ε ^ 2 := by
  unfold InHexagon at *
  simp only at *
  have eu : u = ((i - k : ℝ) - (j - k : ℝ) / 2) + (u - ((i - k : ℝ) - (j - k : ℝ) / 2)) := by ring
  have ev : v = (j - k : ℝ) * (Real.sqrt 3 / 2) + (v - (j - k : ℝ) * (Real.sqrt 3 / 2)) := by ring
  generalize ((i - k : ℝ) - (j - k : ℝ) / 2) = U at *
  generalize (j - k : ℝ) * (Real.sqrt 3 / 2) = V at *
  generalize u - U = du at *
  generalize v - V = dv at *
  subst eu ev
  obtain ⟨h1, h2, h3⟩ := h
  have hpos : 0 < 1 + 2 * ε := by linarith
  have s3 : Real.sqrt 3 ^ 2 = 3 := Real.sq_sqrt (by norm_num)
  refine ⟨U + du / (1 + 2 * ε), V + dv / (1 + 2 * ε), ⟨?_, ?_, ?_⟩, ?_⟩
  · rw [add_sub_cancel_left, abs_div, abs_of_pos hpos, div_le_iff₀ hpos]; linarith
  · rw [add_sub_cancel_left, add_sub_cancel_left, show du / (1 + 2 * ε) / 2 + Real.sqrt 3 / 2 * (dv / (1 + 2 * ε)) = (du / 2 + Real.sqrt 3 / 2 * dv) / (1 + 2 * ε) by ring,
      abs_div, abs_of_pos hpos, div_le_iff₀ hpos]; linarith
  · rw [add_sub_cancel_left, add_sub_cancel_left, show -(du / (1 + 2 * ε)) / 2 + Real.sqrt 3 / 2 * (dv / (1 + 2 * ε)) = (-du / 2 + Real.sqrt 3 / 2 * dv) / (1 + 2 * ε) by ring,
      abs_div, abs_of_pos hpos, div_le_iff₀ hpos]; linarith
  · have hn : du ^ 2 + dv ^ 2 ≤ (1 + 2 * ε) ^ 2 / 3 := by
      have a1 : |du| / 2 + Real.sqrt 3 / 2 * |dv| ≤ 1 / 2 + ε := by
        obtain ⟨h21, h22⟩ := abs_le.1 h2
        obtain ⟨h31, h32⟩ := abs_le.1 h3
        rcases abs_cases du with ⟨e, _⟩ | ⟨e, _⟩ <;> rcases abs_cases dv with ⟨e', _⟩ | ⟨e', _⟩ <;> rw [e, e'] <;> linarith
      have d0 := abs_nonneg du
      have d1 := abs_nonneg dv
      rw [← sq_abs du, ← sq_abs dv]
      generalize |du| = t at *
      generalize |dv| = s at *
      have sq0 := Real.sqrt_nonneg 3
      have b1 : Real.sqrt 3 / 2 * s ≤ 1 / 2 + ε - t / 2 := by linarith
      have b2 : (Real.sqrt 3 / 2 * s) ^ 2 ≤ (1 / 2 + ε - t / 2) ^ 2 := pow_le_pow_left₀ (by positivity) b1 2
      have b3 : (Real.sqrt 3 / 2 * s) ^ 2 = 3 / 4 * s ^ 2 := by rw [mul_pow, div_pow, s3]; ring
      rw [b3] at b2
      nlinarith [mul_nonneg d0 (sub_nonneg.2 h1)]
    have e : (U + du - (U + du / (1 + 2 * ε))) ^ 2 + (V + dv - (V + dv / (1 + 2 * ε))) ^ 2 = (du ^ 2 + dv ^ 2) * (2 * ε / (1 + 2 * ε)) ^ 2 := by
      field_simp; ring
    rw [e]
    refine (mul_le_mul_of_nonneg_right hn (sq_nonneg _)).trans (le_of_eq ?_)
    field_simp; ring

/-- Face centres are as near to a nearby location, nearly. -/
theorem sqd_lip (F : FaceGeo) {φ l φ' l' D : ℝ} (hD : 0 ≤ D) (h : 1 - D ^ 2 / 2 ≤ Real.sin φ * Real.sin φ' + Real.cos φ * Real.cos φ' * Real.cos (l' - l)) :
    |sqd F φ l - sqd F φ' l'| ≤ 2 * D := by
  rw [sqd_eq, sqd_eq, show 2 - 2 * up F φ l - (2 - 2 * up F φ' l') = 2 * (up F φ' l' - up F φ l) by ring, abs_mul, abs_two]
  refine mul_le_mul_of_nonneg_left (abs_le_of_sq_le_sq ?_ hD) (by norm_num)
  rw [dot_frame F] at h
  have h1 := frame_norm F φ l
  have h2 := frame_norm F φ' l'
  nlinarith [sq_nonneg (north F φ l - north F φ' l'), sq_nonneg (east F φ l - east F φ' l')]

theorem dot_le_one (φ l φ' l' : ℝ) : Real.sin φ * Real.sin φ' + Real.cos φ * Real.cos φ' * Real.cos (l' - l) ≤ 1 := by
  have F : FaceGeo := ⟨0, 0, 0⟩
  rw [dot_frame F]
  have h1 := frame_norm F φ l
  have h2 := frame_norm F φ' l'
  nlinarith [sq_nonneg (north F φ l - north F φ' l'), sq_nonneg (east F φ l - east F φ' l'), sq_nonneg (up F φ l - up F φ' l')]

theorem sqrt_of_frame {N E W : ℝ} (hW : 0 < W) (h : N ^ 2 + E ^ 2 + W ^ 2 = 1) : Real.sqrt (1 + (N / W) ^ 2 + (E / W) ^ 2) = 1 / W := by
  rw [show 1 + (N / W) ^ 2 + (E / W) ^ 2 = (1 / W) ^ 2 by field_simp; linarith]
  exact Real.sqrt_sq (by positivity)

/-- Two points of the plane and the locations they are projections of. -/
theorem nearby (F : FaceGeo) (n : ℕ) {φ l u' v' : ℝ} (hW : 0 < up F φ l) : ∃ φ' l', |φ'| ≤ Real.pi / 2 ∧ |l'| ≤ Real.pi ∧ plane F n φ' l' = (u', v') ∧
    1 - (res0 / Real.sqrt 7 ^ n) ^ 2 * (((plane F n φ l).1 - u') ^ 2 + ((plane F n φ l).2 - v') ^ 2) / 2 ≤
      Real.sin φ * Real.sin φ' + Real.cos φ * Real.cos φ' * Real.cos (l' - l) := by
  have hs : 0 < Real.sqrt 7 ^ n := by positivity
  have hr : 0 < res0 := by unfold res0; norm_num
  have hcs := Real.sin_sq_add_cos_sq (axis F n)
  obtain ⟨φ', l', b1, b2, e1, e2, e3⟩ := plane_surj F n (res0 / Real.sqrt 7 ^ n * (Real.cos (axis F n) * u' + Real.sin (axis F n) * v'))
    (res0 / Real.sqrt 7 ^ n * (Real.sin (axis F n) * u' - Real.cos (axis F n) * v'))
  have fr := frame_norm F φ l
  have sq := sqrt_of_frame hW fr
  refine ⟨φ', l', b1, b2, ?_, ?_⟩
  · rw [plane_eq, e1, e2, e3]
    have q0 : 0 < Real.sqrt (1 + (res0 / Real.sqrt 7 ^ n * (Real.cos (axis F n) * u' + Real.sin (axis F n) * v')) ^ 2 +
      (res0 / Real.sqrt 7 ^ n * (Real.sin (axis F n) * u' - Real.cos (axis F n) * v')) ^ 2) := Real.sqrt_pos.2 (by positivity)
    generalize Real.sqrt (1 + (res0 / Real.sqrt 7 ^ n * (Real.cos (axis F n) * u' + Real.sin (axis F n) * v')) ^ 2 +
      (res0 / Real.sqrt 7 ^ n * (Real.sin (axis F n) * u' - Real.cos (axis F n) * v')) ^ 2) = q at *
    generalize Real.sqrt 7 ^ n = s at *
    generalize Real.sin (axis F n) = x at *
    generalize Real.cos (axis F n) = y at *
    ext
    · field_simp
      linear_combination u' * hcs
    · field_simp
      linear_combination v' * hcs
  · have key := dot_lower (a := north F φ l / up F φ l) (c := east F φ l / up F φ l) (a' := res0 / Real.sqrt 7 ^ n * (Real.cos (axis F n) * u' + Real.sin (axis F n) * v'))
      (c' := res0 / Real.sqrt 7 ^ n * (Real.sin (axis F n) * u' - Real.cos (axis F n) * v'))
    rw [dot_frame F, e1, e2, e3]
    rw [sq] at key
    rw [plane_eq]
    simp only
    have q0 : 0 < Real.sqrt (1 + (res0 / Real.sqrt 7 ^ n * (Real.cos (axis F n) * u' + Real.sin (axis F n) * v')) ^ 2 +
      (res0 / Real.sqrt 7 ^ n * (Real.sin (axis F n) * u' - Real.cos (axis F n) * v')) ^ 2) := Real.sqrt_pos.2 (by positivity)
    generalize Real.sqrt (1 + (res0 / Real.sqrt 7 ^ n * (Real.cos (axis F n) * u' + Real.sin (axis F n) * v')) ^ 2 +
      (res0 / Real.sqrt 7 ^ n * (Real.sin (axis F n) * u' - Real.cos (axis F n) * v')) ^ 2) = q at *
    generalize Real.sqrt 7 ^ n = s at *
    generalize Real.sin (axis F n) = x at *
    generalize Real.cos (axis F n) = y at *
    generalize north F φ l = N at *
    generalize east F φ l = E at *
    generalize up F φ l = W at *
    refine le_of_eq_of_le ?_ (key.trans (le_of_eq ?_))
    · have g1 : res0 / s * (s / res0 / W * (y * N + x * E) - u') = y * (N / W) + x * (E / W) - res0 / s * u' := by field_simp
      have g2 : res0 / s * (s / res0 / W * (x * N - y * E) - v') = x * (N / W) - y * (E / W) - res0 / s * v' := by field_simp
      rw [mul_add, ← mul_pow, ← mul_pow, g1, g2]
      generalize res0 / s = κ at *
      generalize N / W = m at *
      generalize E / W = t at *
      linear_combination (-(m ^ 2 + t ^ 2) / 2 + κ ^ 2 * (u' ^ 2 + v' ^ 2) / 2) * hcs
    · field_simp

/-- An enlarged hexagon: the cell is exactly that of a location nearby. -/
theorem cell_nearby {δ ε φ l : ℝ} {n : ℕ} {i j k : ℤ} (h : CellAt δ ε n φ l i j k) (hδ : δ ≤ 0.01) (h0 : 0 ≤ ε) (hε : ε ≤ Real.sqrt 7 ^ n / 100) :
    ∃ φ' l', |φ'| ≤ Real.pi / 2 ∧ |l'| ≤ Real.pi ∧ arc φ l φ' l' ≤ 0.4412 * ε / Real.sqrt 7 ^ n ∧ CellAt (δ + 1.765 * ε / Real.sqrt 7 ^ n) 0 n φ' l' i j k := by
  obtain ⟨F, hF, hmin, i0, j0, k0, hz, hx⟩ := h
  obtain ⟨F', hF', hc⟩ := ZkLoc.face_cover φ l
  have hd : sqd F φ l ≤ 0.92 := by have := hmin F' hF'; norm_num at *; linarith
  have hW : 0 < up F φ l := by rw [sqd_eq] at hd; norm_num at hd; linarith
  obtain ⟨u', v', hx', hdist⟩ := hexagon_shrink h0 hx
  obtain ⟨φ', l', b1, b2, hp, hdot⟩ := nearby F n (u' := u') (v' := v') hW
  have hs : 0 < Real.sqrt 7 ^ n := by positivity
  have hr : 0 < res0 := by unfold res0; norm_num
  have hr2 : res0 ≤ 0.381967 := by unfold res0; norm_num
  generalize (plane F n φ l).1 = u at *
  generalize (plane F n φ l).2 = v at *
  obtain ⟨D, hD⟩ : ∃ D, D = 0.44107 * ε / Real.sqrt 7 ^ n := ⟨_, rfl⟩
  have D0 : 0 ≤ D := by rw [hD]; positivity
  have D1 : D ≤ 1 / 100 := by
    rw [hD, div_le_iff₀ hs]
    norm_num at *; linarith
  have hdot' : 1 - D ^ 2 / 2 ≤ Real.sin φ * Real.sin φ' + Real.cos φ * Real.cos φ' * Real.cos (l' - l) := by
    refine le_trans ?_ hdot
    have : (res0 / Real.sqrt 7 ^ n) ^ 2 * ((u - u') ^ 2 + (v - v') ^ 2) ≤ D ^ 2 := by
      refine (mul_le_mul_of_nonneg_left hdist (sq_nonneg _)).trans ?_
      rw [hD, div_pow, div_pow, mul_pow, div_mul_eq_mul_div]
      refine div_le_div_of_nonneg_right ?_ (by positivity)
      have : res0 ^ 2 ≤ 0.381967 ^ 2 := pow_le_pow_left₀ hr.le hr2 2
      nlinarith [sq_nonneg ε]
    linarith
  refine ⟨φ', l', b1, b2, ?_, F, hF, ?_, i0, j0, k0, hz, by rw [hp]; exact hx'⟩
  · refine (arccos_le D0 D1 hdot' (dot_le_one _ _ _ _)).trans ?_
    rw [hD]
    have : 0 ≤ ε / Real.sqrt 7 ^ n := by positivity
    rw [mul_div_assoc, mul_div_assoc]
    norm_num
    nlinarith
  · intro F'' hF''
    have l1 := abs_le.1 (sqd_lip F D0 hdot')
    have l2 := abs_le.1 (sqd_lip F'' D0 hdot')
    have := hmin F'' hF''
    have e : 4 * D ≤ 1.765 * ε / Real.sqrt 7 ^ n := by
      rw [hD, mul_div_assoc, mul_div_assoc]
      have : 0 ≤ ε / Real.sqrt 7 ^ n := by positivity
      norm_num
      nlinarith
    linarith

/-- Hexagons do not overlap: a point well inside one is not in another. -/
theorem hexagon_unique {ε ε' u v : ℝ} {i j k i' j' k' : ℤ} (hε : ε < ε') (h : InHexagon (-ε') i j k u v) (h' : InHexagon ε i' j' k' u v) : i - k = i' - k' ∧ j - k = j' - k' := by
  unfold InHexagon at *
  simp only [abs_le] at h h'
  have s3 : Real.sqrt 3 ^ 2 = 3 := Real.sq_sqrt (by norm_num)
  obtain ⟨a, ha⟩ : ∃ a : ℤ, a = (i' - k') - (i - k) := ⟨_, rfl⟩
  obtain ⟨c, hc⟩ : ∃ c : ℤ, c = (j' - k') - (j - k) := ⟨_, rfl⟩
  have ha' : ((i' - k' : ℝ)) = (i - k : ℝ) + a := by rw [ha]; push_cast; ring
  have hc' : ((j' - k' : ℝ)) = (j - k : ℝ) + c := by rw [hc]; push_cast; ring
  rw [ha', hc'] at h'
  generalize ((i - k : ℝ)) = A at *
  generalize ((j - k : ℝ)) = C at *
  have e : ∀ w : ℝ, Real.sqrt 3 / 2 * (v - w * (Real.sqrt 3 / 2)) = Real.sqrt 3 / 2 * v - 3 / 4 * w := fun w => by linear_combination (-w / 4) * s3
  rw [e] at h h'
  obtain ⟨⟨p1, p2⟩, ⟨p3, p4⟩, p5, p6⟩ := h
  obtain ⟨⟨q1, q2⟩, ⟨q3, q4⟩, q5, q6⟩ := h'
  have r1 : ((2 * a - c : ℤ) : ℝ) < 2 := by push_cast; linarith
  have r2 : (-2 : ℝ) < ((2 * a - c : ℤ) : ℝ) := by push_cast; linarith
  have r3 : ((a + c : ℤ) : ℝ) < 2 := by push_cast; linarith
  have r4 : (-2 : ℝ) < ((a + c : ℤ) : ℝ) := by push_cast; linarith
  have r5 : ((2 * c - a : ℤ) : ℝ) < 2 := by push_cast; linarith
  have r6 : (-2 : ℝ) < ((2 * c - a : ℤ) : ℝ) := by push_cast; linarith
  have t1 : 2 * a - c < 2 := by exact_mod_cast r1
  have t2 : -2 < 2 * a - c := by exact_mod_cast r2
  have t3 : a + c < 2 := by exact_mod_cast r3
  have t4 : -2 < a + c := by exact_mod_cast r4
  have t5 : 2 * c - a < 2 := by exact_mod_cast r5
  have t6 : -2 < 2 * c - a := by exact_mod_cast r6
  omega

/-- A location inside a cell is in no other cell. -/
theorem inside_unique {δ ε φ l : ℝ} {n : ℕ} {i j k i' j' k' : ℤ} (h : Inside δ ε n φ l i j k) (h' : CellAt δ ε n φ l i' j' k') : i' = i ∧ j' = j ∧ k' = k := by
  obtain ⟨F, hF, hmin, i0, j0, k0, hz, ε', hε, hx⟩ := h
  obtain ⟨F', hF', hmin', i0', j0', k0', hz', hx'⟩ := h'
  obtain rfl : F' = F := by
    by_contra hne
    have h1 := hmin F' hF' hne
    have h2 := hmin' F hF
    linarith
  obtain ⟨h1, h2⟩ := hexagon_unique hε hx hx'
  omega

end H3
