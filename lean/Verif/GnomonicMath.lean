import Verif.Spec.Gnomonic
import Mathlib.Tactic.Ring
import Mathlib.Tactic.Linarith
import Mathlib.Tactic.NormNum

/-!
# Helper lemmas: H3's projection as a rational function of sines and cosines
-/

namespace H3

/-- Northward, eastward and radial coordinate of the location, seen from the face centre. -/
noncomputable def north (F : FaceGeo) (φ l : ℝ) : ℝ :=
  Real.cos F.lat * Real.sin φ - Real.sin F.lat * Real.cos φ * (Real.cos l * Real.cos F.lng + Real.sin l * Real.sin F.lng)
noncomputable def east (F : FaceGeo) (φ l : ℝ) : ℝ := Real.cos φ * (Real.sin l * Real.cos F.lng - Real.cos l * Real.sin F.lng)
noncomputable def up (F : FaceGeo) (φ l : ℝ) : ℝ :=
  Real.sin F.lat * Real.sin φ + Real.cos F.lat * Real.cos φ * (Real.cos l * Real.cos F.lng + Real.sin l * Real.sin F.lng)

/-- The direction of the first axis of the grid. -/
noncomputable def axis (F : FaceGeo) (n : ℕ) : ℝ := F.az - if n % 2 = 1 then ap7rot else 0

theorem frame_norm (F : FaceGeo) (φ l : ℝ) : north F φ l ^ 2 + east F φ l ^ 2 + up F φ l ^ 2 = 1 := by
  unfold north east up
  have h1 := Real.sin_sq_add_cos_sq F.lat
  have h2 := Real.sin_sq_add_cos_sq F.lng
  have h3 := Real.sin_sq_add_cos_sq φ
  have h4 := Real.sin_sq_add_cos_sq l
  generalize Real.sin F.lat = a at *
  generalize Real.cos F.lat = b at *
  generalize Real.sin F.lng = c at *
  generalize Real.cos F.lng = d at *
  generalize Real.sin φ = e at *
  generalize Real.cos φ = g at *
  generalize Real.sin l = s at *
  generalize Real.cos l = t at *
  have e1 : (b * e - a * g * (t * d + s * c)) ^ 2 + (g * (s * d - t * c)) ^ 2 + (a * e + b * g * (t * d + s * c)) ^ 2 =
      (a ^ 2 + b ^ 2) * (e ^ 2 + g ^ 2 * (t * d + s * c) ^ 2) + g ^ 2 * (s * d - t * c) ^ 2 := by ring
  have e2 : (t * d + s * c) ^ 2 + (s * d - t * c) ^ 2 = (s ^ 2 + t ^ 2) * (c ^ 2 + d ^ 2) := by ring
  rw [e1, h1, one_mul, add_assoc, ← mul_add, e2, h4, h2, one_mul, mul_one, h3]

theorem sqd_eq (F : FaceGeo) (φ l : ℝ) : sqd F φ l = 2 - 2 * up F φ l := by
  unfold sqd vec3 up
  simp only
  have h1 := Real.sin_sq_add_cos_sq F.lat
  have h2 := Real.sin_sq_add_cos_sq F.lng
  have h3 := Real.sin_sq_add_cos_sq φ
  have h4 := Real.sin_sq_add_cos_sq l
  generalize Real.sin F.lat = a at *
  generalize Real.cos F.lat = b at *
  generalize Real.sin F.lng = c at *
  generalize Real.cos F.lng = d at *
  generalize Real.sin φ = e at *
  generalize Real.cos φ = g at *
  generalize Real.sin l = s at *
  generalize Real.cos l = t at *
  have e1 : (d * b - t * g) ^ 2 + (c * b - s * g) ^ 2 + (a - e) ^ 2 =
      (c ^ 2 + d ^ 2) * b ^ 2 + a ^ 2 + ((s ^ 2 + t ^ 2) * g ^ 2 + e ^ 2) - 2 * (a * e + b * g * (t * d + s * c)) := by ring
  rw [e1, h2, h4]
  linarith

theorem azimuth_eq (F : FaceGeo) (φ l : ℝ) : azimuth F φ l = Complex.arg ⟨north F φ l, east F φ l⟩ := by
  unfold azimuth north east
  rw [Real.cos_sub, Real.sin_sub]

theorem cos_arg_mul (x y : ℝ) : Real.sqrt (x ^ 2 + y ^ 2) * Real.cos (Complex.arg ⟨x, y⟩) = x ∧
    Real.sqrt (x ^ 2 + y ^ 2) * Real.sin (Complex.arg ⟨x, y⟩) = y := by
  have hn : ‖(⟨x, y⟩ : ℂ)‖ = Real.sqrt (x ^ 2 + y ^ 2) := by
    rw [Complex.norm_def, Complex.normSq_mk]; ring_nf
  by_cases h : (⟨x, y⟩ : ℂ) = 0
  · have hx : x = 0 := congrArg Complex.re h
    have hy : y = 0 := congrArg Complex.im h
    subst hx hy
    simp
  · have h0 : ‖(⟨x, y⟩ : ℂ)‖ ≠ 0 := norm_ne_zero_iff.2 h
    rw [Complex.cos_arg h, Complex.sin_arg, ← hn]
    exact ⟨mul_div_cancel₀ _ h0, mul_div_cancel₀ _ h0⟩

/-- The plane point, without angles. -/
theorem plane_eq (F : FaceGeo) (n : ℕ) (φ l : ℝ) :
    plane F n φ l = (Real.sqrt 7 ^ n / res0 / up F φ l * (Real.cos (axis F n) * north F φ l + Real.sin (axis F n) * east F φ l),
      Real.sqrt 7 ^ n / res0 / up F φ l * (Real.sin (axis F n) * north F φ l - Real.cos (axis F n) * east F φ l)) := by
  have hW : 1 - sqd F φ l / 2 = up F φ l := by rw [sqd_eq]; ring
  have hθ : F.az - azimuth F φ l - (if n % 2 = 1 then ap7rot else 0) = axis F n - azimuth F φ l := by unfold axis; ring
  have hρ : 1 - up F φ l ^ 2 = north F φ l ^ 2 + east F φ l ^ 2 := by linarith [frame_norm F φ l]
  unfold plane
  simp only
  rw [hW, hθ, Real.tan_arccos, hρ, azimuth_eq, Real.cos_sub, Real.sin_sub]
  obtain ⟨h1, h2⟩ := cos_arg_mul (north F φ l) (east F φ l)
  generalize Complex.arg ⟨north F φ l, east F φ l⟩ = z at *
  generalize Real.sqrt (north F φ l ^ 2 + east F φ l ^ 2) = ρ at *
  rw [← h1, ← h2]
  ext <;> simp only <;> ring

end H3
