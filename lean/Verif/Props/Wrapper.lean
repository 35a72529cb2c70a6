import Verif.WrapSpec
import Verif.Props.Cell

/-!
# Property theorems C47 (accuracy of the sine) and C48 (the location circuit from its input to the cell)
-/

namespace ZkLoc

variable {p : ℕ} [Fact p.Prime] {b : ℕ} {f : Fmt} {k : TrigConsts} {ds : List ℕ}

/-! ### C47 -/

/-- **C47** On `[-P, P]`, where `P` is the constant of the format for `π`, the honest prover's `SinTaylor` succeeds at every table width and is within
`72` half units (of the last place of `1`) of the sine. -/
theorem C47_sin_accuracy (G : Good p b f) (K : SinConsts p f k ds) {x : FloatVar p} {v P : ℝ} (hx : Num f x v)
    (hP : Num f (newConstant f k.pi : FloatVar p) P) (hv : |v| ≤ P) :
    ∃ r w, (sinTaylor f k ds x).run b = some r ∧ Num f r w ∧ |w - Real.sin v| ≤ 72 * ulpHalf f := by
  obtain ⟨r, h, w, h1, h2⟩ := sinTaylor_ok (m := .honest) G (.inl rfl) K hx hP hv
  exact ⟨r, w, h, h1, h2⟩

/-- **C47** The same accuracy is enforced on every prover where the table width divides the lookup size. -/
theorem C47_sin_accuracy_sound (G : Good p b f) (hb : b ∣ f.pow2Size) (K : SinConsts p f k ds) {x r : FloatVar p} {v P : ℝ} (hx : Num f x v)
    (hP : Num f (newConstant f k.pi : FloatVar p) P) (hv : |v| ≤ P) {st : Bool} (hr : (sinTaylor f k ds x).Sat b st r) :
    ∃ w, Num f r w ∧ |w - Real.sin v| ≤ 72 * ulpHalf f :=
  sinTaylor_ok (m := .any st) G (.inr hb) K hx hP hv r hr

/-- **C47** What is assumed of the constants holds for the two precisions. -/
theorem C47_constants : SinConsts p f32 consts32 sinDenoms32 ∧ SinConsts p f64 consts64 sinDenoms64 := ⟨sinConsts32, sinConsts64⟩

/-- `SinTaylor32(-2.5)` is `-0.598472…`, up to `72 * 2^-24`. -/
example : ∃ r w, (sinTaylor32 (newConstant f32 0xC0200000 : FloatVar bn254)).run 8 = some r ∧ Num f32 r w ∧ |w - Real.sin (-(5 / 2))| ≤ 72 * (1 / 2 ^ 24) := by
  rw [← ulpHalf32]
  refine C47_sin_accuracy good8 sinConsts32 (num_exact (E := 8) (M := 23) (neg := true) (num := 5) (den := 2) (by norm_num) (by norm_num) (by decide)
    (by decide +kernel) (by simp [Ieee.signed])) (wrapConsts32 (p := bn254)).h2 ?_
  rw [abs_neg, abs_of_pos] <;> norm_num

/-! ### C48 -/

/-- **C48** Every cell that the honest prover proves with the single-precision location circuit, at any table width, contains the location given by
latitude `φ` and longitude `l` (radians, `13176795 / 2^23` is the single-precision `π/2`): nearest face up to `64 τ`, hexagon enlarged by `768 τ √7^n`, with
`τ = 96 * 2^-24`. -/
theorem C48_location_correct32 (G : Good p b f32) {Lat Lng n : ℕ} {φ l : ℝ} (hφ : PatternOf f32 Lat φ) (hl : PatternOf f32 Lng l)
    (hφ1 : |φ| ≤ 13176795 / 2 ^ 23) (hl1 : |l| ≤ 13176795 / 2 ^ 22) (hn : n ≤ 15) {I J K : ZMod p}
    (h : (wrapperCircuit f32 consts32 sinDenoms32 geo32 (Lat : ZMod p) (Lng : ZMod p) (n : ZMod p) I J K).run b = some ()) :
    ∃ i j k : ℤ, I = i ∧ J = j ∧ K = k ∧ H3.CellAt (64 * (96 / 2 ^ 24)) (768 * (96 / 2 ^ 24) * Real.sqrt 7 ^ n) n φ l i j k := by
  have hp : 2 ^ 4 ≤ p := (Nat.pow_le_pow_right (by norm_num) (by omega)).trans G.hp
  have hval : ∀ k : ℕ, k < 16 → ((k : ℕ) : ZMod p).val = k := fun k hk => ZMod.val_natCast_of_lt (by omega)
  have eu : 96 * ulpHalf f32 = 96 / 2 ^ 24 := by rw [ulpHalf32]; ring
  rw [wrapperCircuit_eq, Circ.run_bind] at h
  rcases wrapperCell_ok (m := .honest) G (.inl rfl) (by decide) cellConsts32 wrapConsts32 (by rw [eu]; norm_num) hφ hl hφ1 (by norm_num at hl1 ⊢; exact hl1)
    (res := (n : ZMod p)) (fun _ => by rw [hval n (by omega)]; exact hn) with ⟨r, hr, n', hn', he, hcell⟩ | ⟨_, hr⟩
  · rw [hr] at h
    obtain rfl : n = n' := by
      have := congrArg ZMod.val he
      rwa [hval n (by omega), hval n' hn'] at this
    obtain ⟨F, hF, hF', i, j, k, e, i0, j0, k0, z, hx | ⟨hx, _⟩⟩ := hcell
    · rw [eu] at hF' hx
      rw [e] at h
      simp only [Option.bind_some, assertCell, assertIsEqual, Circ.bind_eq, Circ.bind, Circ.run] at h
      split_ifs at h with a1 a2 a3
      simp only [decide_eq_true_eq] at a1 a2 a3
      exact ⟨i, j, k, a1, a2, a3, F, hF, hF', i0, j0, k0, z, hx⟩
    · exact absurd rfl hx
  · rw [hr] at h; simp at h

/-- **C48** For every location in range that is farther than `20 τ` from all face centres, the honest prover proves a cell, and one that contains it. -/
theorem C48_location_complete32 (G : Good p b f32) {Lat Lng n : ℕ} {φ l : ℝ} (hφ : PatternOf f32 Lat φ) (hl : PatternOf f32 Lng l)
    (hφ1 : |φ| ≤ 13176795 / 2 ^ 23) (hl1 : |l| ≤ 13176795 / 2 ^ 22) (hn : n ≤ 15) (hfar : ∀ F ∈ H3.faceGeo, (20 * (96 / 2 ^ 24)) ^ 2 < H3.sqd F φ l) :
    ∃ i j k : ℤ, (wrapperCircuit f32 consts32 sinDenoms32 geo32 (Lat : ZMod p) (Lng : ZMod p) (n : ZMod p) i j k).run b = some () ∧
      H3.CellAt (64 * (96 / 2 ^ 24)) (768 * (96 / 2 ^ 24) * Real.sqrt 7 ^ n) n φ l i j k := by
  have hp : 2 ^ 4 ≤ p := (Nat.pow_le_pow_right (by norm_num) (by omega)).trans G.hp
  have hval : ∀ k : ℕ, k < 16 → ((k : ℕ) : ZMod p).val = k := fun k hk => ZMod.val_natCast_of_lt (by omega)
  have eu : 96 * ulpHalf f32 = 96 / 2 ^ 24 := by rw [ulpHalf32]; ring
  rcases wrapperCell_ok (m := .honest) G (.inl rfl) (by decide) cellConsts32 wrapConsts32 (by rw [eu]; norm_num) hφ hl hφ1 (by norm_num at hl1 ⊢; exact hl1)
    (res := (n : ZMod p)) (fun _ => by rw [hval n (by omega)]; exact hn) with ⟨r, hr, n', hn', he, hcell⟩ | ⟨⟨F, hF, hF'⟩, _⟩
  · obtain rfl : n = n' := by
      have := congrArg ZMod.val he
      rwa [hval n (by omega), hval n' hn'] at this
    obtain ⟨F, hF, hF', i, j, k, e, i0, j0, k0, z, hx | ⟨hx, _⟩⟩ := hcell
    · rw [eu] at hF' hx
      refine ⟨i, j, k, ?_, F, hF, hF', i0, j0, k0, z, hx⟩
      rw [wrapperCircuit_eq, Circ.run_bind, hr, e]
      simp [assertCell, assertIsEqual, Circ.bind_eq, Circ.bind, Circ.run]
    · exact absurd rfl hx
  · rw [eu] at hF'
    exact absurd hF' (not_le.2 (hfar F hF))

theorem sat_assertCell {ijk : ZMod p × ZMod p × ZMod p} {I J K : ZMod p} {st : Bool} (h : (assertCell ijk I J K).Sat b st ()) :
    ijk = (I, J, K) := by
  simp only [assertCell, assertIsEqual, Circ.bind_eq, Circ.bind, Circ.Sat, decide_eq_true_eq] at h
  obtain ⟨rfl, rfl, rfl, _⟩ := h
  rfl

/-- **C48** (missing: the exact cell, and widths that do not divide the lookup size; neither is enforced by the code, see C38 and C41) Every cell that any
prover has accepted, where the table width divides the lookup size, contains the location or is next to it. -/
theorem C48_location_sound32_partial (G : Good p b f32) (hb : b ∣ f32.pow2Size) {Lat Lng : ℕ} {φ l : ℝ} (hφ : PatternOf f32 Lat φ) (hl : PatternOf f32 Lng l)
    (hφ1 : |φ| ≤ 13176795 / 2 ^ 23) (hl1 : |l| ≤ 13176795 / 2 ^ 22) {res I J K : ZMod p} {st : Bool}
    (h : (wrapperCircuit f32 consts32 sinDenoms32 geo32 (Lat : ZMod p) (Lng : ZMod p) res I J K).Sat b st ()) :
    ∃ n : ℕ, n ≤ 15 ∧ res = n ∧ ∃ i j k : ℤ, I = i ∧ J = j ∧ K = k ∧
      H3.CellAt (64 * (96 / 2 ^ 24)) (1 + 768 * (96 / 2 ^ 24) * Real.sqrt 7 ^ n) n φ l i j k := by
  have eu : 96 * ulpHalf f32 = 96 / 2 ^ 24 := by rw [ulpHalf32]; ring
  rw [wrapperCircuit_eq, Circ.sat_bind] at h
  obtain ⟨r, hr, ha⟩ := h
  obtain rfl := sat_assertCell ha
  obtain ⟨n, hn, he, F, hF, hF', i, j, k, e, i0, j0, k0, z, hx⟩ := wrapperCell_ok (m := .any st) G (.inr hb) (by decide) cellConsts32 wrapConsts32
    (by rw [eu]; norm_num) hφ hl hφ1 (by norm_num at hl1 ⊢; exact hl1) (res := res) (by simp) _ hr
  rw [eu] at hF' hx
  simp only [Prod.mk.injEq] at e
  refine ⟨n, by omega, he, i, j, k, e.1, e.2.1, e.2.2, F, hF, hF', i0, j0, k0, z, ?_⟩
  rcases hx with hx | ⟨_, _, hx⟩
  · exact InHexagon.shift hx (δ := 0) (by simp) (by simp) (by linarith)
  · exact hx

/-- **C48** For every prover, where the table width divides the lookup size, and for locations whose skewed plane coordinates are outside the range from one to two
(compare `C45_cell_sound_away`): the cell contains the location as for the honest prover. -/
theorem C48_location_sound32_away (G : Good p b f32) (hb : b ∣ f32.pow2Size) {Lat Lng n : ℕ} {φ l : ℝ} (hφ : PatternOf f32 Lat φ) (hl : PatternOf f32 Lng l)
    (hφ1 : |φ| ≤ 13176795 / 2 ^ 23) (hl1 : |l| ≤ 13176795 / 2 ^ 22) (hn : n ≤ 15)
    (haway : ∀ F ∈ H3.faceGeo, (∀ F' ∈ H3.faceGeo, H3.sqd F φ l ≤ H3.sqd F' φ l + 64 * (96 / 2 ^ 24)) →
      ¬ Ambiguous (1280 * (96 / 2 ^ 24) * Real.sqrt 7 ^ n) (H3.plane F n φ l).1 (H3.plane F n φ l).2) {I J K : ZMod p} {st : Bool}
    (h : (wrapperCircuit f32 consts32 sinDenoms32 geo32 (Lat : ZMod p) (Lng : ZMod p) (n : ZMod p) I J K).Sat b st ()) :
    ∃ i j k : ℤ, I = i ∧ J = j ∧ K = k ∧ H3.CellAt (64 * (96 / 2 ^ 24)) (768 * (96 / 2 ^ 24) * Real.sqrt 7 ^ n) n φ l i j k := by
  have hp : 2 ^ 4 ≤ p := (Nat.pow_le_pow_right (by norm_num) (by omega)).trans G.hp
  have hval : ∀ k : ℕ, k < 16 → ((k : ℕ) : ZMod p).val = k := fun k hk => ZMod.val_natCast_of_lt (by omega)
  have eu : 96 * ulpHalf f32 = 96 / 2 ^ 24 := by rw [ulpHalf32]; ring
  rw [wrapperCircuit_eq, Circ.sat_bind] at h
  obtain ⟨r, hr, ha⟩ := h
  obtain rfl := sat_assertCell ha
  obtain ⟨n', hn', he, F, hF, hF', i, j, k, e, i0, j0, k0, z, hx⟩ := wrapperCell_ok (m := .any st) G (.inr hb) (by decide) cellConsts32 wrapConsts32
    (by rw [eu]; norm_num) hφ hl hφ1 (by norm_num at hl1 ⊢; exact hl1) (res := (n : ZMod p)) (by simp) _ hr
  obtain rfl : n = n' := by
    have := congrArg ZMod.val he
    rwa [hval n (by omega), hval n' hn'] at this
  rw [eu] at hF' hx
  simp only [Prod.mk.injEq] at e
  refine ⟨i, j, k, e.1, e.2.1, e.2.2, F, hF, hF', i0, j0, k0, z, ?_⟩
  rcases hx with hx | ⟨_, ha, _⟩
  · exact hx
  · exact absurd ha (haway F hF hF')

/-! The same location as in `Verif/Props/Cell.lean`: latitude 0, longitude `77/32`. -/

theorem exampleLat : PatternOf f32 0 0 := ⟨by decide, false, 0, by simp [Ieee.decodeBits, f32], by simp [Ieee.signed]⟩
theorem exampleLng : PatternOf f32 0x401A0000 (77 / 32) := by
  refine ⟨by decide, false, ((77 : ℕ) / (32 : ℕ) : ℝ), ?_, by simp [Ieee.signed]⟩
  exact exactBits_decode (E := 8) (M := 23) (by decide +kernel)


/-- At the deployed width 9 there is a proof for this location at each resolution. -/
example (n : ℕ) (hn : n ≤ 15) : ∃ i j k : ℤ,
    (wrapperCircuit f32 consts32 sinDenoms32 geo32 ((0 : ℕ) : ZMod bn254) ((0x401A0000 : ℕ) : ZMod bn254) (n : ZMod bn254) i j k).run 9 = some () ∧
      H3.CellAt (64 * (96 / 2 ^ 24)) (768 * (96 / 2 ^ 24) * Real.sqrt 7 ^ n) n 0 (77 / 32) i j k :=
  C48_location_complete32 (good_bn254_f32 ⟨by norm_num, by norm_num⟩) exampleLat exampleLng (by norm_num) (by rw [abs_of_pos] <;> norm_num) hn
    (fun F hF => (by norm_num : (20 * (96 / 2 ^ 24) : ℝ) ^ 2 < 1 / 1000).trans_le (equator_far F hF _))

/-- At width 8 and resolution 0 every accepted cell contains the location. -/
example (st : Bool) (I J K : ZMod bn254)
    (h : (wrapperCircuit f32 consts32 sinDenoms32 geo32 ((0 : ℕ) : ZMod bn254) ((0x401A0000 : ℕ) : ZMod bn254) ((0 : ℕ) : ZMod bn254) I J K).Sat 8 st ()) :
    ∃ i j k : ℤ, I = i ∧ J = j ∧ K = k ∧ H3.CellAt (64 * (96 / 2 ^ 24)) (768 * (96 / 2 ^ 24) * Real.sqrt 7 ^ 0) 0 0 (77 / 32) i j k := by
  refine C48_location_sound32_away good8 (by decide) exampleLat exampleLng (by norm_num) (by rw [abs_of_pos] <;> norm_num) (by norm_num) (fun F _ hF => ?_) h
  obtain ⟨F', hF', hs⟩ := exampleClose
  have := hF F' hF'
  have hna := not_ambiguous (F := F) (φ := 0) (l := 77 / 32) (by norm_num at this ⊢; linarith)
  intro ha
  refine hna (ha.imp ?_ ?_) <;>
  · rintro ⟨h1, h2⟩
    norm_num at h1 h2 ⊢
    constructor <;> linarith

end ZkLoc
