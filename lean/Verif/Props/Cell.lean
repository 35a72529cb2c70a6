import Verif.CellConsts
import Verif.GoodInst
import Verif.TrigBound

/-!
# Property theorems C45: the cell that a location circuit computes

The location is given by its latitude `φ` and longitude `l`; the circuit gets floats within `τ` of their sines and cosines. `τ` may be any number from five
half units in the last place up to `2^-16`. `H3.CellAt` and `H3.plane` (Verif/Spec/Gnomonic.lean) are H3's projection in exact arithmetic.
-/

namespace ZkLoc

variable {p : ℕ} [Fact p.Prime] {b : ℕ} {f : Fmt} {g : GeoConsts}

/-- The four inputs of the common part of the location circuits are within `τ` of the sines and cosines of a location. -/
structure TrigInputs (f : Fmt) (τ φ l : ℝ) (sinLat cosLat sinLng cosLng : FloatVar p) : Prop where
  ge : 5 * ulpHalf f ≤ τ
  le : τ ≤ 1 / 2 ^ 16
  sinLat : ∃ a, Num f sinLat a ∧ |a - Real.sin φ| ≤ τ
  cosLat : ∃ a, Num f cosLat a ∧ |a - Real.cos φ| ≤ τ
  sinLng : ∃ a, Num f sinLng a ∧ |a - Real.sin l| ≤ τ
  cosLng : ∃ a, Num f cosLng a ∧ |a - Real.cos l| ≤ τ

/-- **C45** Every cell that the honest prover obtains, at any table width, contains the location: it belongs to a face whose centre is the nearest (up to
`64 τ`), and H3's exact projection of the location lies in the hexagon of the cell, enlarged by `768 τ √7^n`. -/
theorem C45_cell_correct (G : Good p b f) (K : CellConsts p f g) {τ φ l : ℝ} {sinLat cosLat sinLng cosLng : FloatVar p}
    (h : TrigInputs f τ φ l sinLat cosLat sinLng cosLng) {n : ℕ} (hn : n ≤ 15) {r : ZMod p × ZMod p × ZMod p}
    (hr : (locCell f g sinLat cosLat sinLng cosLng (n : ZMod p)).run b = some r) :
    ∃ i j k : ℤ, r = ((i : ZMod p), (j : ZMod p), (k : ZMod p)) ∧ H3.CellAt (64 * τ) (768 * τ * Real.sqrt 7 ^ n) n φ l i j k := by
  have hp : 2 ^ 4 ≤ p := (Nat.pow_le_pow_right (by norm_num) (by omega)).trans G.hp
  have hval : ∀ k : ℕ, k < 16 → ((k : ℕ) : ZMod p).val = k := fun k hk => ZMod.val_natCast_of_lt (by omega)
  rcases locCell_ok (m := .honest) G (.inl rfl) K ⟨h.ge, h.le⟩ h.sinLat h.cosLat h.sinLng h.cosLng (res := (n : ZMod p))
    (fun _ => by rw [hval n (by omega)]; omega) with ⟨r', hr', n', hn', he, hcell⟩ | ⟨_, hr'⟩
  · obtain rfl : n = n' := by
      have := congrArg ZMod.val he
      rwa [hval n (by omega), hval n' hn'] at this
    obtain rfl : r = r' := Option.some.inj (hr.symm.trans hr')
    obtain ⟨F, hF, hF', i, j, k, e, i0, j0, k0, z, hx | ⟨hx, _⟩⟩ := hcell
    · exact ⟨i, j, k, e, F, hF, hF', i0, j0, k0, z, hx⟩
    · exact absurd rfl hx
  · rw [hr'] at hr; simp at hr

/-- **C45** The honest prover obtains a cell, at any table width and resolution, for every location that is farther than `20 τ` from all face centres. -/
theorem C45_cell_complete (G : Good p b f) (K : CellConsts p f g) {τ φ l : ℝ} {sinLat cosLat sinLng cosLng : FloatVar p}
    (h : TrigInputs f τ φ l sinLat cosLat sinLng cosLng) {n : ℕ} (hn : n ≤ 15) (hfar : ∀ F ∈ H3.faceGeo, (20 * τ) ^ 2 < H3.sqd F φ l) :
    ∃ r, (locCell f g sinLat cosLat sinLng cosLng (n : ZMod p)).run b = some r := by
  have hp : 2 ^ 4 ≤ p := (Nat.pow_le_pow_right (by norm_num) (by omega)).trans G.hp
  have hval : ∀ k : ℕ, k < 16 → ((k : ℕ) : ZMod p).val = k := fun k hk => ZMod.val_natCast_of_lt (by omega)
  rcases locCell_ok (m := .honest) G (.inl rfl) K ⟨h.ge, h.le⟩ h.sinLat h.cosLat h.sinLng h.cosLng (res := (n : ZMod p))
    (fun _ => by rw [hval n (by omega)]; omega) with ⟨r', hr', _⟩ | ⟨⟨F, hF, hF'⟩, _⟩
  · exact ⟨r', hr'⟩
  · exact absurd hF' (not_le.2 (hfar F hF))

/-- **C45** (missing: the exact cell, which the code does not enforce, see `C38`) For every prover, where the table width divides the lookup size: the
resolution is at most 15 and the cell contains the location or is next to it (its hexagon enlarged by `1 + 768 τ √7^n` contains the projected location). -/
theorem C45_cell_sound_partial (G : Good p b f) (hb : b ∣ f.pow2Size) (K : CellConsts p f g) {τ φ l : ℝ} {sinLat cosLat sinLng cosLng : FloatVar p}
    (h : TrigInputs f τ φ l sinLat cosLat sinLng cosLng) {res : ZMod p} {st : Bool} {r : ZMod p × ZMod p × ZMod p}
    (hr : (locCell f g sinLat cosLat sinLng cosLng res).Sat b st r) :
    ∃ n : ℕ, n ≤ 15 ∧ res = (n : ZMod p) ∧ ∃ i j k : ℤ, r = ((i : ZMod p), (j : ZMod p), (k : ZMod p)) ∧
      H3.CellAt (64 * τ) (1 + 768 * τ * Real.sqrt 7 ^ n) n φ l i j k := by
  obtain ⟨n, hn, he, F, hF, hF', i, j, k, e, i0, j0, k0, z, hx⟩ :=
    locCell_ok (m := .any st) G (.inr hb) K ⟨h.ge, h.le⟩ h.sinLat h.cosLat h.sinLng h.cosLng (res := res) (by simp) r hr
  refine ⟨n, by omega, he, i, j, k, e, F, hF, hF', i0, j0, k0, z, ?_⟩
  rcases hx with hx | ⟨_, _, hx⟩
  · exact InHexagon.shift hx (δ := 0) (by simp) (by simp) (by linarith)
  · exact hx

/-- **C45** For every prover, where the table width divides the lookup size, and for locations whose skewed plane coordinates `|u| + |v|/√3` and `2|v|/√3` (for
the nearest faces) are both outside the range from one to two: the cell contains the location as for the honest prover. -/
theorem C45_cell_sound_away (G : Good p b f) (hb : b ∣ f.pow2Size) (K : CellConsts p f g) {τ φ l : ℝ} {sinLat cosLat sinLng cosLng : FloatVar p}
    (h : TrigInputs f τ φ l sinLat cosLat sinLng cosLng) {n : ℕ} (hn : n ≤ 15)
    (haway : ∀ F ∈ H3.faceGeo, (∀ F' ∈ H3.faceGeo, H3.sqd F φ l ≤ H3.sqd F' φ l + 64 * τ) →
      ¬ Ambiguous (1280 * τ * Real.sqrt 7 ^ n) (H3.plane F n φ l).1 (H3.plane F n φ l).2)
    {st : Bool} {r : ZMod p × ZMod p × ZMod p} (hr : (locCell f g sinLat cosLat sinLng cosLng (n : ZMod p)).Sat b st r) :
    ∃ i j k : ℤ, r = ((i : ZMod p), (j : ZMod p), (k : ZMod p)) ∧ H3.CellAt (64 * τ) (768 * τ * Real.sqrt 7 ^ n) n φ l i j k := by
  have hp : 2 ^ 4 ≤ p := (Nat.pow_le_pow_right (by norm_num) (by omega)).trans G.hp
  have hval : ∀ k : ℕ, k < 16 → ((k : ℕ) : ZMod p).val = k := fun k hk => ZMod.val_natCast_of_lt (by omega)
  obtain ⟨n', hn', he, F, hF, hF', i, j, k, e, i0, j0, k0, z, hx⟩ :=
    locCell_ok (m := .any st) G (.inr hb) K ⟨h.ge, h.le⟩ h.sinLat h.cosLat h.sinLng h.cosLng (res := (n : ZMod p)) (by simp) r hr
  obtain rfl : n = n' := by
    have := congrArg ZMod.val he
    rwa [hval n (by omega), hval n' hn'] at this
  refine ⟨i, j, k, e, F, hF, hF', i0, j0, k0, z, ?_⟩
  rcases hx with hx | ⟨_, ha, _⟩
  · exact hx
  · exact absurd ha (haway F hF hF')

/-- **C45** What the theorems above assume of the constants holds for the tables of both packages, over every field. -/
theorem C45_constants : CellConsts p f32 geo32 ∧ CellConsts p f64 geo64 := ⟨cellConsts32, cellConsts64⟩

/-! ## A concrete location: on the equator at longitude 77/32 (137.9°E), 4.5° south of the centre of face 10 -/

theorem exampleInputs : TrigInputs (p := bn254) f32 (1 / 2 ^ 20) 0 (77 / 32) (newConstant f32 0) (newConstant f32 0x3f800000) (newConstant f32 0x3f2bbc42)
    (newConstant f32 0xbf3dd98f) where
  ge := by rw [ulpHalf32]; norm_num
  le := by norm_num
  sinLat := by
    refine ⟨_, num_const (f := f32) (by decide) (by decide) (by decide) (by decide), ?_⟩
    rw [Real.sin_zero, show Ieee.patternVal ⟨f32.E, f32.M⟩ 0 = 0 by
      simp [Ieee.patternVal, Ieee.decodeBits, Ieee.signed, f32]]
    norm_num
  cosLat := ⟨1, num_exact (E := 8) (M := 23) (neg := false) (num := 1) (den := 1) (by norm_num) (by norm_num) (by decide) (by decide +kernel)
    (by simp [Ieee.signed]), by rw [Real.cos_zero]; norm_num⟩
  sinLng := by
    refine ⟨11254850 / 2 ^ 24, num_exact (E := 8) (M := 23) (neg := false) (num := 11254850) (den := 2 ^ 24) (by norm_num) (by norm_num) (by decide)
      (by decide +kernel) (by norm_num [Ieee.signed]), ?_⟩
    have h := trigCheck_sin (X := 77 * 2 ^ 19) (V := 11254850) (k := 24) (n := 30) (t := 20) (by decide +kernel)
    rw [show (((77 * 2 ^ 19 : ℤ) : ℝ) / 2 ^ 24) = 77 / 32 by norm_num] at h
    push_cast at h
    exact h
  cosLng := by
    refine ⟨-(12441999 / 2 ^ 24), num_exact (E := 8) (M := 23) (neg := true) (num := 12441999) (den := 2 ^ 24) (by norm_num) (by norm_num) (by decide)
      (by decide +kernel) (by norm_num [Ieee.signed]), ?_⟩
    have h := trigCheck_cos (X := 77 * 2 ^ 19) (V := -12441999) (k := 24) (n := 30) (t := 20) (by decide +kernel)
    rw [show (((77 * 2 ^ 19 : ℤ) : ℝ) / 2 ^ 24) = 77 / 32 by norm_num] at h
    push_cast at h
    rwa [neg_div] at h

theorem exampleRun : (locCell (p := bn254) f32 geo32 (newConstant f32 0) (newConstant f32 0x3f800000) (newConstant f32 0x3f2bbc42)
    (newConstant f32 0xbf3dd98f) 5).run 9 = some (0, 30, 10) := by decide +kernel

/-- No face centre is on the equator. -/
theorem equator_far : ∀ F ∈ H3.faceGeo, ∀ l : ℝ, (1 / 1000 : ℝ) ≤ H3.sqd F 0 l := by
  have key : ∀ t ∈ H3.faceDecimals, 7 * 10 ^ 16 ≤ t.1.natAbs ∧ t.1.natAbs ≤ 15 * 10 ^ 17 := by decide
  intro F hF l
  obtain ⟨t, ht, rfl⟩ := List.mem_map.1 hF
  obtain ⟨h1, h2⟩ := key t ht
  have h1' : (7 * 10 ^ 16 : ℝ) ≤ |(t.1 : ℝ)| := by rw [← Int.cast_abs, ← Nat.cast_natAbs]; exact_mod_cast h1
  have h2' : |(t.1 : ℝ)| ≤ 15 * 10 ^ 17 := by rw [← Int.cast_abs, ← Nat.cast_natAbs]; exact_mod_cast h2
  set x : ℝ := (H3.FaceGeo.ofDecimals t).lat with hx
  have ex : x = t.1 / 10 ^ 18 := rfl
  have ax : |x| = |(t.1 : ℝ)| / 10 ^ 18 := by rw [ex, abs_div]; norm_num
  have hpi := Real.pi_gt_three
  have hpi4 := Real.pi_le_four
  have hs : 2 / Real.pi * |x| ≤ Real.sin |x| := Real.mul_le_sin (abs_nonneg x) (by rw [ax, div_le_iff₀ (by norm_num)]; linarith)
  have hlow : (1 / 2) * (7 / 100) ≤ 2 / Real.pi * |x| := by
    refine mul_le_mul ?_ ?_ (by norm_num) (by positivity)
    · rw [div_le_div_iff₀ (by norm_num) (by linarith)]; linarith
    · rw [ax, le_div_iff₀ (by norm_num)]; linarith
  have hsq : Real.sin x ^ 2 = Real.sin |x| ^ 2 := by
    rcases abs_choice x with h | h <;> rw [h]
    rw [Real.sin_neg]; ring
  have hge : Real.sin x ^ 2 ≤ H3.sqd (H3.FaceGeo.ofDecimals t) 0 l := by
    unfold H3.sqd H3.vec3
    simp only [Real.sin_zero, sub_zero, ← hx]
    nlinarith [sq_nonneg (Real.cos (H3.FaceGeo.ofDecimals t).lng * Real.cos x - Real.cos l * Real.cos 0),
      sq_nonneg (Real.sin (H3.FaceGeo.ofDecimals t).lng * Real.cos x - Real.sin l * Real.cos 0)]
  refine le_trans ?_ hge
  rw [hsq]
  nlinarith

/-- The hypotheses of `C45_cell_complete` are met. -/
example (n : ℕ) (hn : n ≤ 15) : ∃ r, (locCell (p := bn254) f32 geo32 (newConstant f32 0) (newConstant f32 0x3f800000) (newConstant f32 0x3f2bbc42)
    (newConstant f32 0xbf3dd98f) (n : ZMod bn254)).run 9 = some r :=
  C45_cell_complete (good_bn254_f32 ⟨by norm_num, by norm_num⟩) cellConsts32 exampleInputs hn (fun F hF => (by norm_num : (20 * (1 / 2 ^ 20) : ℝ) ^ 2 < 1 / 1000).trans_le (equator_far F hF _))

/-- The hypotheses of `C45_cell_correct` are met: the cell of resolution 5 is `(0, 30, 10)`. -/
example : ∃ i j k : ℤ, ((0, 30, 10) : ZMod bn254 × ZMod bn254 × ZMod bn254) = ((i : ZMod bn254), (j : ZMod bn254), (k : ZMod bn254)) ∧
    H3.CellAt (64 * (1 / 2 ^ 20)) (768 * (1 / 2 ^ 20) * Real.sqrt 7 ^ 5) 5 0 (77 / 32) i j k :=
  C45_cell_correct (b := 9) (good_bn254_f32 ⟨by norm_num, by norm_num⟩) cellConsts32 exampleInputs (by norm_num) (by exact_mod_cast exampleRun)

/-- Near the centre of a face the projected point at resolution 0 is near the origin. -/
theorem point_near {F : H3.FaceGeo} {φ l : ℝ} (h : H3.sqd F φ l ≤ 1 / 100) : |(H3.plane F 0 φ l).1| ≤ 3 / 10 ∧ |(H3.plane F 0 φ l).2| ≤ 3 / 10 := by
  have hW : 0.995 ≤ H3.up F φ l := by have := H3.sqd_eq F φ l; norm_num; linarith
  have hfr := H3.frame_norm F φ l
  obtain ⟨c1, c2⟩ := res0_bounds
  norm_num at hW c1 c2
  have hcs := Real.sin_sq_add_cos_sq (H3.axis F 0)
  have hr : (H3.plane F 0 φ l).1 ^ 2 + (H3.plane F 0 φ l).2 ^ 2 ≤ (3 / 10) ^ 2 := by
    rw [H3.plane_eq]
    simp only [pow_zero]
    have e : (1 / H3.res0 / H3.up F φ l * (Real.cos (H3.axis F 0) * H3.north F φ l + Real.sin (H3.axis F 0) * H3.east F φ l)) ^ 2 +
        (1 / H3.res0 / H3.up F φ l * (Real.sin (H3.axis F 0) * H3.north F φ l - Real.cos (H3.axis F 0) * H3.east F φ l)) ^ 2 =
        (H3.north F φ l ^ 2 + H3.east F φ l ^ 2) / (H3.res0 * H3.up F φ l) ^ 2 := by
      rw [div_div, eq_div_iff (by positivity)]
      have hne : H3.res0 * H3.up F φ l ≠ 0 := by positivity
      generalize H3.res0 * H3.up F φ l = q at *
      field_simp
      linear_combination (H3.north F φ l ^ 2 + H3.east F φ l ^ 2) * hcs
    rw [e, div_le_iff₀ (by positivity)]
    have h1 : (379 / 1000 : ℝ) ^ 2 ≤ (H3.res0 * H3.up F φ l) ^ 2 := pow_le_pow_left₀ (by norm_num) (by nlinarith) 2
    nlinarith
  have hu : |(H3.plane F 0 φ l).1| ≤ 3 / 10 := abs_le_of_sq_le_sq (by nlinarith [sq_nonneg (H3.plane F 0 φ l).2]) (by norm_num)
  have hv : |(H3.plane F 0 φ l).2| ≤ 3 / 10 := abs_le_of_sq_le_sq (by nlinarith [sq_nonneg (H3.plane F 0 φ l).1]) (by norm_num)
  exact ⟨hu, hv⟩

/-- Near the centre of a face nothing is ambiguous at resolution 0. -/
theorem not_ambiguous {F : H3.FaceGeo} {φ l : ℝ} (h : H3.sqd F φ l ≤ 1 / 100) : ¬ Ambiguous (1 / 10) (H3.plane F 0 φ l).1 (H3.plane F 0 φ l).2 := by
  obtain ⟨hu, hv⟩ := point_near h
  have h3 : 1 ≤ Real.sqrt 3 := Real.le_sqrt_of_sq_le (by norm_num)
  have hd : |(H3.plane F 0 φ l).2| / Real.sqrt 3 ≤ 3 / 10 := (div_le_self (abs_nonneg _) h3).trans hv
  rintro (⟨ha, _⟩ | ⟨ha, _⟩)
  · linarith
  · rw [mul_div_assoc] at ha; linarith

theorem exampleClose : ∃ F ∈ H3.faceGeo, H3.sqd F 0 (77 / 32) ≤ 8 / 1000 := by
  refine ⟨.ofDecimals (79066118549212831, 2408163140208925497, 5930472956509811562), List.mem_map_of_mem (by decide), ?_⟩
  rw [H3.sqd_eq]
  unfold H3.up
  rw [Real.sin_zero, Real.cos_zero, ← Real.cos_sub]
  have h1 := Real.one_sub_sq_div_two_le_cos (x := (H3.FaceGeo.ofDecimals (79066118549212831, 2408163140208925497, 5930472956509811562)).lat)
  have h2 := Real.one_sub_sq_div_two_le_cos (x := 77 / 32 - (H3.FaceGeo.ofDecimals (79066118549212831, 2408163140208925497, 5930472956509811562)).lng)
  generalize Real.cos (77 / 32 - (H3.FaceGeo.ofDecimals (79066118549212831, 2408163140208925497, 5930472956509811562)).lng) = c at *
  generalize Real.cos (H3.FaceGeo.ofDecimals (79066118549212831, 2408163140208925497, 5930472956509811562)).lat = d at *
  simp only [H3.FaceGeo.ofDecimals] at h1 h2
  have h1' : (1 - 0.0032 : ℝ) ≤ d := by refine le_trans ?_ h1; norm_num
  have h2' : (1 - 0.0001 : ℝ) ≤ c := by refine le_trans ?_ h2; norm_num
  norm_num at h1' h2'
  nlinarith

/-- The hypotheses of `C45_cell_sound_away` (and with it of `C45_cell_sound_partial`) are met, and there is an accepted cell. -/
example (st : Bool) : (∃ r, (locCell (p := bn254) f32 geo32 (newConstant f32 0) (newConstant f32 0x3f800000) (newConstant f32 0x3f2bbc42)
    (newConstant f32 0xbf3dd98f) ((0 : ℕ) : ZMod bn254)).Sat 8 st r) ∧
    ∀ r, (locCell (p := bn254) f32 geo32 (newConstant f32 0) (newConstant f32 0x3f800000) (newConstant f32 0x3f2bbc42)
    (newConstant f32 0xbf3dd98f) ((0 : ℕ) : ZMod bn254)).Sat 8 st r → ∃ i j k : ℤ, r = ((i : ZMod bn254), (j : ZMod bn254), (k : ZMod bn254)) ∧
      H3.CellAt (64 * (1 / 2 ^ 20)) (768 * (1 / 2 ^ 20) * Real.sqrt 7 ^ 0) 0 0 (77 / 32) i j k := by
  refine ⟨?_, fun r hr => C45_cell_sound_away good8 (by decide) cellConsts32 exampleInputs (by norm_num) (fun F _ hF => ?_) hr⟩
  · obtain ⟨r, hr⟩ := C45_cell_complete good8 cellConsts32 exampleInputs (n := 0) (by norm_num) (fun F hF => (by norm_num : (20 * (1 / 2 ^ 20) : ℝ) ^ 2 < 1 / 1000).trans_le (equator_far F hF _))
    exact ⟨r, Circ.sat_of_run _ _ hr⟩
  · obtain ⟨F', hF', hs⟩ := exampleClose
    have := hF F' hF'
    have hna := not_ambiguous (F := F) (φ := 0) (l := 77 / 32) (by norm_num at this ⊢; linarith)
    intro ha
    refine hna (ha.imp ?_ ?_) <;>
    · rintro ⟨h1, h2⟩
      norm_num at h1 h2 ⊢
      constructor <;> linarith

end ZkLoc
