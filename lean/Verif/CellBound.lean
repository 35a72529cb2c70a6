import Verif.LocCell
import Verif.CellConsts

/-!
# The cells of the grid are small numbers

Every location has a face centre near it, so the projected point is bounded, and so are the numbers of a cell that contains it. A cell given by residues modulo the field is therefore
given by its numbers.
-/

namespace ZkLoc

/-- Every location has a face centre at squared distance at most `0.91`. -/
theorem face_cover (φ l : ℝ) : ∃ F ∈ H3.faceGeo, H3.sqd F φ l ≤ 0.91 := by
  have K := cellConsts64 (p := bn254)
  have e : (Real.cos φ * Real.cos l) ^ 2 + (Real.cos φ * Real.sin l) ^ 2 + Real.sin φ ^ 2 - 1 = 0 := by
    linear_combination Real.cos φ ^ 2 * Real.sin_sq_add_cos_sq l + Real.sin_sq_add_cos_sq φ
  obtain ⟨c, hc, h⟩ := K.table.cover (Real.cos φ * Real.cos l) (Real.cos φ * Real.sin l) (Real.sin φ) (by rw [e]; norm_num)
  obtain ⟨k, hk⟩ := List.mem_iff_getElem?.1 hc
  obtain ⟨F, hkF⟩ : ∃ F, H3.faceGeo[k]? = some F := by
    have hl := K.near.length_eq
    have : k < H3.faceGeo.length := by rw [← hl]; exact (List.getElem?_eq_some_iff.1 hk).1
    exact ⟨_, List.getElem?_eq_getElem this⟩
  have hF : FaceNear f64 (1 / 2 ^ 16) c F := (forall₂_get K.near hk hkF).mono (by rw [ulpHalf64]; norm_num)
  refine ⟨F, List.mem_of_getElem? hkF, ?_⟩
  have hd := dist_near (by norm_num) hF (φ := φ) (l := l) (x := Real.cos φ * Real.cos l) (y := Real.cos φ * Real.sin l) (z := Real.sin φ)
    (by rw [sub_self, abs_zero]; norm_num) (by rw [sub_self, abs_zero]; norm_num) (by rw [sub_self, abs_zero]; norm_num)
  have sD0 : 0 ≤ H3.sqd F φ l := by unfold H3.sqd; positivity
  have r1 : Real.sqrt (faceSq f64 c (Real.cos φ * Real.cos l) (Real.cos φ * Real.sin l) (Real.sin φ)) ≤ 0.949 :=
    Real.sqrt_le_iff.2 ⟨by norm_num, h.trans (by norm_num)⟩
  have qq := Real.sq_sqrt sD0
  have q0 := Real.sqrt_nonneg (H3.sqd F φ l)
  have h1 := (abs_le.1 hd).1
  have q1 : Real.sqrt (H3.sqd F φ l) ≤ 0.9495 := by norm_num at *; linarith
  rw [← qq]; norm_num at q1 ⊢; nlinarith

/-- The projected point for a face near the location, in units of the grid of resolution 0. -/
theorem plane_bound {F : H3.FaceGeo} {φ l : ℝ} (h : H3.sqd F φ l ≤ 0.92) (n : ℕ) :
    |(H3.plane F n φ l).1| ≤ 4.1 * Real.sqrt 7 ^ n ∧ |(H3.plane F n φ l).2| ≤ 4.1 * Real.sqrt 7 ^ n := by
  have s0 : 0 ≤ H3.sqd F φ l := by unfold H3.sqd; positivity
  have hr : |Real.tan (Real.arccos (1 - H3.sqd F φ l / 2)) / H3.res0 * Real.sqrt 7 ^ n| ≤ 4.1 * Real.sqrt 7 ^ n := by
    have t1 : 0.54 ≤ 1 - H3.sqd F φ l / 2 := by norm_num at *; linarith
    have t2 : 1 - H3.sqd F φ l / 2 ≤ 1 := by linarith
    generalize 1 - H3.sqd F φ l / 2 = t at *
    rw [abs_mul, abs_of_nonneg (show (0:ℝ) ≤ Real.sqrt 7 ^ n by positivity)]
    refine mul_le_mul_of_nonneg_right ?_ (by positivity)
    rw [Real.tan_arccos]
    have hs : Real.sqrt (1 - t ^ 2) ≤ 0.8417 := Real.sqrt_le_iff.2 ⟨by norm_num, by norm_num at *; nlinarith⟩
    have h0 := Real.sqrt_nonneg (1 - t ^ 2)
    have ht : 0 < t := by norm_num at t1; linarith
    have hres : 0.3819 < H3.res0 := by unfold H3.res0; norm_num
    have hres0 : 0 < H3.res0 := by norm_num at hres; linarith
    rw [abs_of_nonneg (by positivity), div_div, div_le_iff₀ (by positivity)]
    have : 0.54 * 0.3819 ≤ t * H3.res0 := mul_le_mul t1 hres.le (by norm_num) ht.le
    norm_num at *
    linarith
  unfold H3.plane
  simp only
  constructor
  · rw [abs_mul]
    exact (mul_le_of_le_one_right (abs_nonneg _) (Real.abs_cos_le_one _)).trans hr
  · rw [abs_mul]
    exact (mul_le_of_le_one_right (abs_nonneg _) (Real.abs_sin_le_one _)).trans hr

theorem sqrt7_pow {n : ℕ} (hn : n ≤ 15) : 1 ≤ Real.sqrt 7 ^ n ∧ Real.sqrt 7 ^ n ≤ 2180000 := by
  have h1 : 1 ≤ Real.sqrt 7 := Real.le_sqrt_of_sq_le (by norm_num)
  refine ⟨one_le_pow₀ h1, (pow_le_pow_right₀ h1 hn).trans ?_⟩
  refine abs_le_of_sq_le_sq ?_ (by norm_num) |> (le_abs_self _).trans
  rw [← pow_mul, mul_comm, pow_mul, Real.sq_sqrt (by norm_num)]
  norm_num

/-- A hexagon in normal form that contains a bounded point has small numbers. -/
theorem hexagon_bound {ε B u v : ℝ} {i j k : ℤ} (hu : |u| ≤ B) (hv : |v| ≤ B) (h : H3.InHexagon ε i j k u v) (i0 : 0 ≤ i) (j0 : 0 ≤ j) (k0 : 0 ≤ k)
    (hz : i = 0 ∨ j = 0 ∨ k = 0) : (i : ℝ) ≤ 3 * B + 4 * (1 / 2 + ε) ∧ (j : ℝ) ≤ 3 * B + 4 * (1 / 2 + ε) ∧ (k : ℝ) ≤ 3 * B + 4 * (1 / 2 + ε) := by
  obtain ⟨h1, h2, h3⟩ := h

  have s3 : Real.sqrt 3 ^ 2 = 3 := Real.sq_sqrt (by norm_num)
  have s0 := Real.sqrt_nonneg 3
  have s1 : Real.sqrt 3 ≤ 1.7321 := Real.sqrt_le_iff.2 ⟨by norm_num, by norm_num⟩
  have hv' : |Real.sqrt 3 / 2 * v| ≤ 0.86605 * B := by
    rw [abs_mul, abs_of_nonneg (by positivity)]
    exact mul_le_mul (by norm_num at *; linarith) hv (abs_nonneg _) (by norm_num)
  have e : Real.sqrt 3 / 2 * (v - (j - k : ℝ) * (Real.sqrt 3 / 2)) = Real.sqrt 3 / 2 * v - 3 / 4 * (j - k : ℝ) := by linear_combination (-(j - k : ℝ) / 4) * s3
  rw [e] at h2 h3
  generalize Real.sqrt 3 / 2 * v = w at *
  rw [abs_le] at *
  have i0' : (0:ℝ) ≤ i := by exact_mod_cast i0
  have j0' : (0:ℝ) ≤ j := by exact_mod_cast j0
  have k0' : (0:ℝ) ≤ k := by exact_mod_cast k0
  rcases hz with rfl | rfl | rfl <;> push_cast at * <;> norm_num at * <;> refine ⟨?_, ?_, ?_⟩ <;> linarith

/-- The numbers of a cell at a location. -/
theorem cellAt_bound {δ ε φ l : ℝ} {n : ℕ} {i j k : ℤ} (hδ : δ ≤ 0.01) (hn : n ≤ 15) (hε : ε ≤ 1 + Real.sqrt 7 ^ n / 10) (h : H3.CellAt δ ε n φ l i j k) :
    (0 ≤ i ∧ i < 2 ^ 26) ∧ (0 ≤ j ∧ j < 2 ^ 26) ∧ (0 ≤ k ∧ k < 2 ^ 26) := by
  obtain ⟨F, -, hmin, i0, j0, k0, hz, hx⟩ := h
  obtain ⟨F', hF', hc⟩ := face_cover φ l
  have hd : H3.sqd F φ l ≤ 0.92 := by have := hmin F' hF'; norm_num at *; linarith
  obtain ⟨p1, p2⟩ := plane_bound hd n
  obtain ⟨q1, q2⟩ := sqrt7_pow hn
  obtain ⟨b1, b2, b3⟩ := hexagon_bound p1 p2 hx i0 j0 k0 hz
  have key : ∀ {m : ℤ}, (m : ℝ) ≤ 3 * (4.1 * Real.sqrt 7 ^ n) + 4 * (1 / 2 + ε) → m < 2 ^ 26 := by
    intro m hm
    have : (m : ℝ) < 2 ^ 26 := by norm_num at *; linarith
    exact_mod_cast this
  exact ⟨⟨i0, key b1⟩, ⟨j0, key b2⟩, ⟨k0, key b3⟩⟩

/-- Residues that are those of a cell are its numbers. -/
theorem cellAt_val {p : ℕ} [Fact p.Prime] (hp : 2 ^ 26 ≤ p) {δ ε φ l : ℝ} {n : ℕ} (hδ : δ ≤ 0.01) (hn : n ≤ 15) (hε : ε ≤ 1 + Real.sqrt 7 ^ n / 10) {I J K : ZMod p} {i j k : ℤ}
    (hi : I = i) (hj : J = j) (hk : K = k) (h : H3.CellAt δ ε n φ l i j k) : H3.CellAt δ ε n φ l I.val J.val K.val := by
  obtain ⟨⟨i0, i1⟩, ⟨j0, j1⟩, ⟨k0, k1⟩⟩ := cellAt_bound hδ hn hε h
  have key : ∀ {X : ZMod p} {x : ℤ}, 0 ≤ x → x < 2 ^ 26 → X = (x : ZMod p) → (X.val : ℤ) = x := by
    intro X x x0 x1 hx
    obtain ⟨m, rfl⟩ := Int.eq_ofNat_of_zero_le x0
    have hm : m < p := by have : (m : ℤ) < 2 ^ 26 := x1; have : m < 2 ^ 26 := by exact_mod_cast this
                          omega
    rw [hx]
    simp [ZMod.val_natCast_of_lt hm]
  rw [key i0 i1 hi, key j0 j1 hj, key k0 k1 hk]
  exact h

end ZkLoc
