import Verif.GroundCases
import Verif.Props.Hints
import Verif.Props.Wrapper
import Verif.Props.Text

/-!
# Property theorems C76 and C77: what the location circuits prove, in metres

C45, C48, C49 and C74 say that the proved hexagon, slightly enlarged, contains the projected location. Here this is turned into a statement about locations: the proved cell is the exact cell
of a location within a stated distance (C76), and for a location that is not that near to a border it is its own cell (C77).
-/

namespace ZkLoc

open Ieee Hints

variable {p : ℕ} [Fact p.Prime] {b : ℕ} {f : Fmt} {g : GeoConsts} {L : Libm} {ε : ℝ}

/-- **C76** The distance is that of `OldHaversine` (in exact arithmetic), whose arguments are degrees. -/
theorem C76_ground_haversine (lat1 lon1 lat2 lon2 : ℝ) :
    H3.ground (lat1 * Real.pi / 180) (lon1 * Real.pi / 180) (lat2 * Real.pi / 180) (lon2 * Real.pi / 180) = Text.oldHaversine lat1 lon1 lat2 lon2 := by
  rw [Text.C57_haversine]
  unfold H3.ground H3.arc
  rw [← sub_div, ← sub_mul]

/-- A cell that contains a location up to an enlargement is the exact cell of a location nearby. -/
theorem cell_ground {δ τ φ l : ℝ} {n : ℕ} {i j k : ℤ} (h0 : 0 ≤ τ) (hτ : τ ≤ 1 / 2 ^ 17) (hδ : δ ≤ 0.01) (h : H3.CellAt δ (768 * τ * Real.sqrt 7 ^ n) n φ l i j k) :
    ∃ φ' l', |φ'| ≤ Real.pi / 2 ∧ |l'| ≤ Real.pi ∧ H3.ground φ l φ' l' ≤ 6371000 * (339 * τ) ∧ H3.CellAt (δ + 1356 * τ) 0 n φ' l' i j k := by
  have hs : 0 < Real.sqrt 7 ^ n := by positivity
  obtain ⟨φ', l', b1, b2, ha, F, hF, hmin, hc⟩ := H3.cell_nearby h hδ (by positivity) (by
    rw [le_div_iff₀ (by norm_num)]
    have : 768 * τ * 100 ≤ 1 := by norm_num at *; linarith
    nlinarith)
  rw [← mul_assoc, mul_div_cancel_right₀ _ hs.ne'] at ha
  simp only [← mul_assoc, mul_div_cancel_right₀ _ hs.ne'] at hmin
  refine ⟨φ', l', b1, b2, ?_, F, hF, fun F' hF' => (hmin F' hF').trans ?_, hc⟩
  · unfold H3.ground
    refine mul_le_mul_of_nonneg_left ?_ (by norm_num)
    norm_num at ha ⊢; linarith
  · norm_num; linarith

/-- **C76** The common part of the location circuits, honest prover, every width and resolution: the cell is the exact H3 cell of a location whose distance is at most `339 τ` earth radii, on a face
that is the nearest one up to `1420 τ`. -/
theorem C76_cell_ground (G : Good p b f) (K : CellConsts p f g) {τ φ l : ℝ} (hτ : τ ≤ 1 / 2 ^ 17) {sinLat cosLat sinLng cosLng : FloatVar p}
    (h : TrigInputs f τ φ l sinLat cosLat sinLng cosLng) {n : ℕ} (hn : n ≤ 15) {r : ZMod p × ZMod p × ZMod p}
    (hr : (locCell f g sinLat cosLat sinLng cosLng (n : ZMod p)).run b = some r) :
    ∃ i j k : ℤ, r = ((i : ZMod p), (j : ZMod p), (k : ZMod p)) ∧ ∃ φ' l', |φ'| ≤ Real.pi / 2 ∧ |l'| ≤ Real.pi ∧ H3.ground φ l φ' l' ≤ 6371000 * (339 * τ) ∧
      H3.CellAt (1420 * τ) 0 n φ' l' i j k := by
  obtain ⟨i, j, k, e, hc⟩ := C45_cell_correct G K h hn hr
  have u0 := ulpHalf_pos (f := f)
  obtain ⟨φ', l', b1, b2, b3, b4⟩ := cell_ground (by have := h.ge; linarith) hτ (by norm_num at *; linarith) hc
  exact ⟨i, j, k, e, φ', l', b1, b2, b3, by rwa [← add_mul, show (64 : ℝ) + 1356 = 1420 by norm_num] at b4⟩

/-- **C76** Double precision with the repository's hint function and a correctly rounded library: the cell that the honest prover proves is the exact H3 cell of a location within 4 micrometres of the
given one. -/
theorem C76_location_ground64 (G : Good p b f64) (hL : L.CorrectlyRounded) {Lat Lng n : ℕ} {φ l : ℝ} (hφ : PatternOf f64 Lat φ) (hl : PatternOf f64 Lng l)
    (hφ4 : |φ| ≤ 4) (hl4 : |l| ≤ 4) {hLat hLng : Pre p} (H1 : PrecomputeHint64 L (Lat : ZMod p) hLat) (H2 : PrecomputeHint64 L (Lng : ZMod p) hLng) (hn : n ≤ 15)
    {I J K : ZMod p} (h : (precomputeCircuit64 hLat hLng (Lat : ZMod p) (Lng : ZMod p) (n : ZMod p) I J K).run b = some ()) :
    ∃ i j k : ℤ, I = i ∧ J = j ∧ K = k ∧ ∃ φ' l', |φ'| ≤ Real.pi / 2 ∧ |l'| ≤ Real.pi ∧ H3.ground φ l φ' l' ≤ 4 / 10 ^ 6 ∧ H3.CellAt (3 / 10 ^ 12) 0 n φ' l' i j k := by
  obtain ⟨i, j, k, e1, e2, e3, hc⟩ := C74_location_correct64 G (C74_correctly_rounded_accurate hL) (τ := 1 / 2 ^ 49) (by norm_num) hφ hl hφ4 hl4 H1 H2 (by norm_num) (by norm_num)
    (by norm_num) hn h
  obtain ⟨φ', l', b1, b2, b3, F, hF, hmin, hc⟩ := cell_ground (by norm_num) (by norm_num) (by norm_num) hc
  refine ⟨i, j, k, e1, e2, e3, φ', l', b1, b2, b3.trans (by norm_num), F, hF, fun F' hF' => (hmin F' hF').trans ?_, hc⟩
  norm_num

/-- **C76** The same for single precision: within 2.1 kilometres, if the library has an error of at most `2^-28`. -/
theorem C76_location_ground32 (G : Good p b f32) (acc : L.Accurate ε) (h0 : 0 ≤ ε) (h1 : ε ≤ 1 / 2 ^ 28) {Lat Lng n : ℕ} {φ l : ℝ} (hφ : PatternOf f32 Lat φ) (hl : PatternOf f32 Lng l)
    (hφ4 : |φ| ≤ 4) (hl4 : |l| ≤ 4) {hLat hLng : Pre p} (H1 : PrecomputeHint32 L (Lat : ZMod p) hLat) (H2 : PrecomputeHint32 L (Lng : ZMod p) hLng) (hn : n ≤ 15)
    {I J K : ZMod p} (h : (precomputeCircuit32 hLat hLng (Lat : ZMod p) (Lng : ZMod p) (n : ZMod p) I J K).run b = some ()) :
    ∃ i j k : ℤ, I = i ∧ J = j ∧ K = k ∧ ∃ φ' l', |φ'| ≤ Real.pi / 2 ∧ |l'| ≤ Real.pi ∧ H3.ground φ l φ' l' ≤ 2100 ∧ H3.CellAt (14 / 10 ^ 4) 0 n φ' l' i j k := by
  obtain ⟨i, j, k, e1, e2, e3, hc⟩ := C74_location_correct32 G acc h0 h1 hφ hl hφ4 hl4 H1 H2 hn h
  rw [← mul_one_div 768, ← mul_one_div 64] at hc
  obtain ⟨φ', l', b1, b2, b3, F, hF, hmin, hc⟩ := cell_ground (by norm_num) (by norm_num) (by norm_num) hc
  refine ⟨i, j, k, e1, e2, e3, φ', l', b1, b2, b3.trans (by norm_num), F, hF, fun F' hF' => (hmin F' hF').trans ?_, hc⟩
  norm_num

/-- **C76** The single-precision circuit without hints (`Loc2IndexWrapper`): within 12.4 kilometres. -/
theorem C76_wrapper_ground32 (G : Good p b f32) {Lat Lng n : ℕ} {φ l : ℝ} (hφ : PatternOf f32 Lat φ) (hl : PatternOf f32 Lng l)
    (hφ1 : |φ| ≤ 13176795 / 2 ^ 23) (hl1 : |l| ≤ 13176795 / 2 ^ 22) (hn : n ≤ 15) {I J K : ZMod p}
    (h : (wrapperCircuit f32 consts32 sinDenoms32 geo32 (Lat : ZMod p) (Lng : ZMod p) (n : ZMod p) I J K).run b = some ()) :
    ∃ i j k : ℤ, I = i ∧ J = j ∧ K = k ∧ ∃ φ' l', |φ'| ≤ Real.pi / 2 ∧ |l'| ≤ Real.pi ∧ H3.ground φ l φ' l' ≤ 12400 ∧ H3.CellAt (82 / 10 ^ 4) 0 n φ' l' i j k := by
  obtain ⟨i, j, k, e1, e2, e3, hc⟩ := C48_location_correct32 G hφ hl hφ1 hl1 hn h
  obtain ⟨φ', l', b1, b2, b3, F, hF, hmin, hc⟩ := cell_ground (by norm_num) (by norm_num) (by norm_num) hc
  refine ⟨i, j, k, e1, e2, e3, φ', l', b1, b2, b3.trans (by norm_num), F, hF, fun F' hF' => (hmin F' hF').trans ?_, hc⟩
  norm_num

theorem sqrt7_six {n : ℕ} (h : 6 ≤ n) : 343 ≤ Real.sqrt 7 ^ n := by
  have h1 : (1 : ℝ) ≤ Real.sqrt 7 := Real.le_sqrt_of_sq_le (by norm_num)
  refine le_trans ?_ (pow_le_pow_right₀ h1 h)
  rw [show Real.sqrt 7 ^ 6 = (Real.sqrt 7 ^ 2) ^ 3 by ring, Real.sq_sqrt (by norm_num)]; norm_num

/-- **C76** Every prover, at a width that divides that of the shift table (C45 says what else is possible there: a cell that is off by one grid unit): from resolution 6 on an accepted cell is the
exact cell of a location at a distance of at most `0.442 / √7^n + 339 τ` earth radii. -/
theorem C76_cell_ground_sound (G : Good p b f) (hb : b ∣ f.pow2Size) (K : CellConsts p f g) {τ φ l : ℝ} (hτ : τ ≤ 1 / 2 ^ 17) {sinLat cosLat sinLng cosLng : FloatVar p}
    (h : TrigInputs f τ φ l sinLat cosLat sinLng cosLng) {n : ℕ} (hn : n ≤ 15) (h6 : 6 ≤ n) {st : Bool} {r : ZMod p × ZMod p × ZMod p}
    (hr : (locCell f g sinLat cosLat sinLng cosLng (n : ZMod p)).Sat b st r) :
    ∃ i j k : ℤ, r = ((i : ZMod p), (j : ZMod p), (k : ZMod p)) ∧ ∃ φ' l', |φ'| ≤ Real.pi / 2 ∧ |l'| ≤ Real.pi ∧
      H3.ground φ l φ' l' ≤ 6371000 * (0.442 / Real.sqrt 7 ^ n + 339 * τ) ∧ H3.CellAt (1.77 / Real.sqrt 7 ^ n + 1420 * τ) 0 n φ' l' i j k := by
  have hp : 2 ^ 4 ≤ p := (Nat.pow_le_pow_right (by norm_num) (by omega)).trans G.hp
  have hval : ∀ k : ℕ, k < 16 → ((k : ℕ) : ZMod p).val = k := fun k hk => ZMod.val_natCast_of_lt (by omega)
  obtain ⟨n', hn', he, i, j, k, e, hc⟩ := C45_cell_sound_partial G hb K h hr
  obtain rfl : n = n' := by
    have := congrArg ZMod.val he
    rwa [hval n (by omega), hval n' (by omega)] at this
  have hT := sqrt7_six h6
  have hT0 : 0 < Real.sqrt 7 ^ n := by linarith
  have u0 := ulpHalf_pos (f := f)
  have h0 : 0 ≤ τ := by have := h.ge; linarith
  obtain ⟨φ', l', b1, b2, ha, F, hF, hmin, hc⟩ := H3.cell_nearby hc (by norm_num at *; linarith) (by positivity) (by
    rw [le_div_iff₀ (by norm_num)]
    generalize Real.sqrt 7 ^ n = T at *
    have : 768 * τ * 100 ≤ 0.6 := by norm_num at *; linarith
    norm_num at this
    nlinarith)
  have e1 (c : ℝ) : c * (1 + 768 * τ * Real.sqrt 7 ^ n) / Real.sqrt 7 ^ n = c * (1 / Real.sqrt 7 ^ n) + c * 768 * τ := by field_simp
  rw [e1] at ha
  simp only [e1] at hmin
  have hi : 0 ≤ 1 / Real.sqrt 7 ^ n := by positivity
  have e2 (c : ℝ) : c / Real.sqrt 7 ^ n = c * (1 / Real.sqrt 7 ^ n) := by ring
  refine ⟨i, j, k, e, φ', l', b1, b2, ?_, F, hF, fun F' hF' => (hmin F' hF').trans ?_, hc⟩
  · unfold H3.ground
    refine mul_le_mul_of_nonneg_left ?_ (by norm_num)
    rw [e2]
    generalize 1 / Real.sqrt 7 ^ n = q at *
    norm_num at ha ⊢; linarith
  · rw [e2 1.77]
    generalize 1 / Real.sqrt 7 ^ n = q at *
    norm_num; linarith

/-- **C76** The same for the single-precision circuit without hints: at a dividing width no prover can have a cell accepted that is not the exact cell of a location within `2820 km / √7^n + 12.4 km`
(at resolution 15: 12402 metres). -/
theorem C76_wrapper_ground_sound32 (G : Good p b f32) (hb : b ∣ f32.pow2Size) {Lat Lng n : ℕ} {φ l : ℝ} (hφ : PatternOf f32 Lat φ) (hl : PatternOf f32 Lng l)
    (hφ1 : |φ| ≤ 13176795 / 2 ^ 23) (hl1 : |l| ≤ 13176795 / 2 ^ 22) (hn : n ≤ 15) (h6 : 6 ≤ n) {I J K : ZMod p} {st : Bool}
    (h : (wrapperCircuit f32 consts32 sinDenoms32 geo32 (Lat : ZMod p) (Lng : ZMod p) (n : ZMod p) I J K).Sat b st ()) :
    ∃ i j k : ℤ, I = i ∧ J = j ∧ K = k ∧ ∃ φ' l', |φ'| ≤ Real.pi / 2 ∧ |l'| ≤ Real.pi ∧ H3.ground φ l φ' l' ≤ 2820000 / Real.sqrt 7 ^ n + 12400 ∧
      H3.CellAt (1.77 / Real.sqrt 7 ^ n + 82 / 10 ^ 4) 0 n φ' l' i j k := by
  have hp : 2 ^ 4 ≤ p := (Nat.pow_le_pow_right (by norm_num) (by omega)).trans G.hp
  have hval : ∀ k : ℕ, k < 16 → ((k : ℕ) : ZMod p).val = k := fun k hk => ZMod.val_natCast_of_lt (by omega)
  obtain ⟨n', hn', he, i, j, k, r1, r2, r3, hc⟩ := C48_location_sound32_partial G hb hφ hl hφ1 hl1 h
  obtain rfl : n = n' := by
    have := congrArg ZMod.val he
    rwa [hval n (by omega), hval n' (by omega)] at this
  have hT := sqrt7_six h6
  have hT0 : 0 < Real.sqrt 7 ^ n := by linarith
  obtain ⟨φ', l', b1, b2, ha, F, hF, hmin, hc⟩ := H3.cell_nearby hc (by norm_num) (by positivity) (by
    rw [le_div_iff₀ (by norm_num)]
    generalize Real.sqrt 7 ^ n = T at *
    norm_num; linarith)
  have e1 (c : ℝ) : c * (1 + 768 * (96 / 2 ^ 24) * Real.sqrt 7 ^ n) / Real.sqrt 7 ^ n = c * (1 / Real.sqrt 7 ^ n) + c * 768 * (96 / 2 ^ 24) := by field_simp
  rw [e1] at ha
  simp only [e1] at hmin
  have hi : 0 ≤ 1 / Real.sqrt 7 ^ n := by positivity
  have e2 (c : ℝ) : c / Real.sqrt 7 ^ n = c * (1 / Real.sqrt 7 ^ n) := by ring
  refine ⟨i, j, k, r1, r2, r3, φ', l', b1, b2, ?_, F, hF, fun F' hF' => (hmin F' hF').trans ?_, hc⟩
  · unfold H3.ground
    rw [e2]
    generalize 1 / Real.sqrt 7 ^ n = q at *
    norm_num at ha ⊢; linarith
  · rw [e2 1.77]
    generalize 1 / Real.sqrt 7 ^ n = q at *
    norm_num; linarith

/-! ### C77: locations that are not near a border -/

/-- **C77** The common part of the location circuits: for a location inside a cell the honest prover obtains that cell and no other, at every width and resolution. -/
theorem C77_interior_exact (G : Good p b f) (K : CellConsts p f g) {τ φ l : ℝ} {sinLat cosLat sinLng cosLng : FloatVar p}
    (h : TrigInputs f τ φ l sinLat cosLat sinLng cosLng) {n : ℕ} (hn : n ≤ 15) {i j k : ℤ} (hin : H3.Inside (64 * τ) (768 * τ * Real.sqrt 7 ^ n) n φ l i j k)
    {r : ZMod p × ZMod p × ZMod p} (hr : (locCell f g sinLat cosLat sinLng cosLng (n : ZMod p)).run b = some r) : r = ((i : ZMod p), (j : ZMod p), (k : ZMod p)) := by
  obtain ⟨i', j', k', e, hc⟩ := C45_cell_correct G K h hn hr
  obtain ⟨rfl, rfl, rfl⟩ := H3.inside_unique hin hc
  exact e

/-- **C77** Every prover, at a width that divides that of the shift table: if moreover no rounding decision of H3's algorithm is within `1280 τ √7^n` of its border (C45), only this cell is accepted. -/
theorem C77_interior_sound (G : Good p b f) (hb : b ∣ f.pow2Size) (K : CellConsts p f g) {τ φ l : ℝ} {sinLat cosLat sinLng cosLng : FloatVar p}
    (h : TrigInputs f τ φ l sinLat cosLat sinLng cosLng) {n : ℕ} (hn : n ≤ 15)
    (haway : ∀ F ∈ H3.faceGeo, (∀ F' ∈ H3.faceGeo, H3.sqd F φ l ≤ H3.sqd F' φ l + 64 * τ) →
      ¬ Ambiguous (1280 * τ * Real.sqrt 7 ^ n) (H3.plane F n φ l).1 (H3.plane F n φ l).2)
    {i j k : ℤ} (hin : H3.Inside (64 * τ) (768 * τ * Real.sqrt 7 ^ n) n φ l i j k)
    {st : Bool} {r : ZMod p × ZMod p × ZMod p} (hr : (locCell f g sinLat cosLat sinLng cosLng (n : ZMod p)).Sat b st r) : r = ((i : ZMod p), (j : ZMod p), (k : ZMod p)) := by
  obtain ⟨i', j', k', e, hc⟩ := C45_cell_sound_away G hb K h hn haway hr
  obtain ⟨rfl, rfl, rfl⟩ := H3.inside_unique hin hc
  exact e

/-- **C77** Double precision, the repository's hint function, a correctly rounded library: inside a cell only that cell is accepted from the honest prover. -/
theorem C77_interior_exact64 (G : Good p b f64) (hL : L.CorrectlyRounded) {Lat Lng n : ℕ} {φ l : ℝ} (hφ : PatternOf f64 Lat φ) (hl : PatternOf f64 Lng l)
    (hφ4 : |φ| ≤ 4) (hl4 : |l| ≤ 4) {hLat hLng : Pre p} (H1 : PrecomputeHint64 L (Lat : ZMod p) hLat) (H2 : PrecomputeHint64 L (Lng : ZMod p) hLng) (hn : n ≤ 15)
    {i j k : ℤ} (hin : H3.Inside (64 / 2 ^ 49) (768 / 2 ^ 49 * Real.sqrt 7 ^ n) n φ l i j k)
    {I J K : ZMod p} (h : (precomputeCircuit64 hLat hLng (Lat : ZMod p) (Lng : ZMod p) (n : ZMod p) I J K).run b = some ()) : I = i ∧ J = j ∧ K = k := by
  obtain ⟨i', j', k', e1, e2, e3, hc⟩ := C74_location_correct64 G (C74_correctly_rounded_accurate hL) (τ := 1 / 2 ^ 49) (by norm_num) hφ hl hφ4 hl4 H1 H2 (by norm_num) (by norm_num)
    (by norm_num) hn h
  rw [mul_one_div, mul_one_div] at hc
  obtain ⟨rfl, rfl, rfl⟩ := H3.inside_unique hin hc
  exact ⟨e1, e2, e3⟩

/-- **C77** In single precision the honest prover, with the repository's hint function, has its cell accepted for every location in range that is inside a cell and not at a face centre, and no other
cell. -/
theorem C77_interior_iff32 (G : Good p b f32) (acc : L.Accurate ε) (h0 : 0 ≤ ε) (h1 : ε ≤ 1 / 2 ^ 28) {Lat Lng n : ℕ} {φ l : ℝ} (hφ : PatternOf f32 Lat φ) (hl : PatternOf f32 Lng l)
    (hφ1 : |φ| ≤ 13176795 / 2 ^ 23) (hl1 : |l| ≤ 13176795 / 2 ^ 22) {hLat hLng : Pre p} (H1 : PrecomputeHint32 L (Lat : ZMod p) hLat) (H2 : PrecomputeHint32 L (Lng : ZMod p) hLng)
    (hn : n ≤ 15) (hfar : ∀ F ∈ H3.faceGeo, (20 / 2 ^ 20) ^ 2 < H3.sqd F φ l) {i j k : ℤ} (hin : H3.Inside (64 / 2 ^ 20) (768 / 2 ^ 20 * Real.sqrt 7 ^ n) n φ l i j k)
    (I J K : ZMod p) : (precomputeCircuit32 hLat hLng (Lat : ZMod p) (Lng : ZMod p) (n : ZMod p) I J K).run b = some () ↔ I = i ∧ J = j ∧ K = k := by
  constructor
  · intro h
    obtain ⟨i', j', k', e1, e2, e3, hc⟩ := C74_location_correct32 G acc h0 h1 hφ hl (hφ1.trans (by norm_num)) (hl1.trans (by norm_num)) H1 H2 hn h
    obtain ⟨rfl, rfl, rfl⟩ := H3.inside_unique hin hc
    exact ⟨e1, e2, e3⟩
  · rintro ⟨rfl, rfl, rfl⟩
    obtain ⟨i', j', k', h, hc⟩ := C74_location_complete32 G acc h0 h1 hφ hl hφ1 hl1 H1 H2 hn hfar
    obtain ⟨rfl, rfl, rfl⟩ := H3.inside_unique hin hc
    exact h

/-- **C77** The single-precision circuit without hints. -/
theorem C77_wrapper_iff32 (G : Good p b f32) {Lat Lng n : ℕ} {φ l : ℝ} (hφ : PatternOf f32 Lat φ) (hl : PatternOf f32 Lng l)
    (hφ1 : |φ| ≤ 13176795 / 2 ^ 23) (hl1 : |l| ≤ 13176795 / 2 ^ 22) (hn : n ≤ 15) (hfar : ∀ F ∈ H3.faceGeo, (20 * (96 / 2 ^ 24)) ^ 2 < H3.sqd F φ l) {i j k : ℤ}
    (hin : H3.Inside (64 * (96 / 2 ^ 24)) (768 * (96 / 2 ^ 24) * Real.sqrt 7 ^ n) n φ l i j k) (I J K : ZMod p) :
    (wrapperCircuit f32 consts32 sinDenoms32 geo32 (Lat : ZMod p) (Lng : ZMod p) (n : ZMod p) I J K).run b = some () ↔ I = i ∧ J = j ∧ K = k := by
  constructor
  · intro h
    obtain ⟨i', j', k', e1, e2, e3, hc⟩ := C48_location_correct32 G hφ hl hφ1 hl1 hn h
    obtain ⟨rfl, rfl, rfl⟩ := H3.inside_unique hin hc
    exact ⟨e1, e2, e3⟩
  · rintro ⟨rfl, rfl, rfl⟩
    obtain ⟨i', j', k', h, hc⟩ := C48_location_complete32 G hφ hl hφ1 hl1 hn hfar
    obtain ⟨rfl, rfl, rfl⟩ := H3.inside_unique hin hc
    exact h

/-! ### Concrete cases: latitude 0, longitude `77/32` -/

theorem inside_mono {δ δ' ε ε' φ l : ℝ} {n : ℕ} {i j k : ℤ} (h : H3.Inside δ ε n φ l i j k) (hδ : δ' ≤ δ) (hε : ε' ≤ ε) : H3.Inside δ' ε' n φ l i j k := by
  obtain ⟨F, hF, hmin, i0, j0, k0, z, e, he, hc⟩ := h
  exact ⟨F, hF, fun F' h1 h2 => lt_of_le_of_lt (by linarith) (hmin F' h1 h2), i0, j0, k0, z, e, lt_of_le_of_lt hε he, hc⟩

theorem inside5_single : H3.Inside (64 / 2 ^ 20) (768 / 2 ^ 20 * Real.sqrt 7 ^ 5) 5 0 (77 / 32) 0 30 10 := by
  refine inside_mono inside5 (by norm_num) ?_
  rw [show Real.sqrt 7 ^ 5 = (Real.sqrt 7 ^ 2) ^ 2 * Real.sqrt 7 by ring, Real.sq_sqrt (by norm_num)]
  have := sqrt_bounds.2.1
  norm_num at this ⊢; linarith

theorem inside15_double : H3.Inside (64 / 2 ^ 49) (768 / 2 ^ 49 * Real.sqrt 7 ^ 15) 15 0 goodLng 0 512958 172515 := by
  refine inside_mono inside15 (by norm_num) ?_
  rw [show Real.sqrt 7 ^ 15 = (Real.sqrt 7 ^ 2) ^ 7 * Real.sqrt 7 by ring, Real.sq_sqrt (by norm_num)]
  have := sqrt_bounds.2.1
  norm_num at this ⊢; linarith

/-- Single precision, resolution 5, the deployed width: with the values of the hint function (there are such values) the cell `(0, 30, 10)` is accepted and no other. -/
example {L : Libm} (hL : L.CorrectlyRounded) : ∃ hLat hLng : Pre bn254, PrecomputeHint32 L ((0 : ℕ) : ZMod bn254) hLat ∧ PrecomputeHint32 L ((0x401A0000 : ℕ) : ZMod bn254) hLng ∧
    ∀ I J K : ZMod bn254, (precomputeCircuit32 hLat hLng ((0 : ℕ) : ZMod bn254) ((0x401A0000 : ℕ) : ZMod bn254) ((5 : ℕ) : ZMod bn254) I J K).run 9 = some () ↔ I = 0 ∧ J = 30 ∧ K = 10 := by
  have G := good_bn254_f32 (b := 9) ⟨by norm_num, by norm_num⟩
  have ha : |(77 / 32 : ℝ)| = 77 / 32 := abs_of_pos (by norm_num)
  obtain ⟨hLat, H1⟩ := C74_hint_exists32 G L exampleLat (by norm_num)
  obtain ⟨hLng, H2⟩ := C74_hint_exists32 G L exampleLng (by rw [ha]; norm_num)
  refine ⟨hLat, hLng, H1, H2, fun I J K => ?_⟩
  have := C77_interior_iff32 G (C74_correctly_rounded_accurate hL) (by norm_num) (by norm_num) exampleLat exampleLng (by norm_num) (by rw [ha]; norm_num) H1 H2 (n := 5) (by norm_num)
    (fun F hF => (by norm_num : (20 / 2 ^ 20 : ℝ) ^ 2 < 1 / 1000).trans_le (equator_far F hF _)) inside5_single I J K
  exact_mod_cast this

/-- The common part, from the run of `Verif/Props/Cell.lean`: the cell is determined. -/
example {r : ZMod bn254 × ZMod bn254 × ZMod bn254} (hr : (locCell (p := bn254) f32 geo32 (newConstant f32 0) (newConstant f32 0x3f800000) (newConstant f32 0x3f2bbc42)
    (newConstant f32 0xbf3dd98f) ((5 : ℕ) : ZMod bn254)).run 9 = some r) : r = (0, 30, 10) := by
  have h := C77_interior_exact (good_bn254_f32 (b := 9) ⟨by norm_num, by norm_num⟩) cellConsts32 exampleInputs (n := 5) (by norm_num)
    (by rw [mul_one_div, mul_one_div]; exact inside5_single) hr
  exact_mod_cast h

/-- At resolution 0 the location is inside the cell `(0, 0, 0)`. -/
theorem inside0 : H3.Inside (1 / 4) (1 / 20) 0 0 (77 / 32) 0 0 0 := by
  refine ⟨face10, face10_mem, others_far face10_mem face10_close, le_rfl, le_rfl, le_rfl, .inl rfl, 6 / 100, by norm_num, ?_⟩
  obtain ⟨h1, h2⟩ := point_near face10_close
  unfold H3.InHexagon
  obtain ⟨s1, s2, s3, s4⟩ := sqrt_bounds
  rw [abs_le] at h1 h2
  norm_num at s3 s4 ⊢
  simp only [abs_le]
  refine ⟨⟨?_, ?_⟩, ⟨?_, ?_⟩, ?_, ?_⟩ <;> nlinarith [h1.1, h1.2, h2.1, h2.2]

/-- Width 8, resolution 0, every prover: only the cell `(0, 0, 0)` is accepted. -/
example {st : Bool} {r : ZMod bn254 × ZMod bn254 × ZMod bn254} (hr : (locCell (p := bn254) f32 geo32 (newConstant f32 0) (newConstant f32 0x3f800000) (newConstant f32 0x3f2bbc42)
    (newConstant f32 0xbf3dd98f) ((0 : ℕ) : ZMod bn254)).Sat 8 st r) : r = (0, 0, 0) := by
  have h := C77_interior_sound good8 (by decide) cellConsts32 exampleInputs (n := 0) (by norm_num) (fun F _ hF => ?_) (inside_mono inside0 (by norm_num) (by norm_num)) hr
  · exact_mod_cast h
  · obtain ⟨F', hF', hs⟩ := exampleClose
    have := hF F' hF'
    have hna := not_ambiguous (F := F) (φ := 0) (l := 77 / 32) (by norm_num at this ⊢; linarith)
    intro ha
    refine hna (ha.imp ?_ ?_) <;>
    · rintro ⟨h1, h2⟩
      norm_num at h1 h2 ⊢
      constructor <;> linarith

/-- Without hints the tolerance is larger; at resolution 3 the cell is `(0, 4, 1)`. -/
theorem inside3_wrapper : H3.Inside (64 * (96 / 2 ^ 24)) (768 * (96 / 2 ^ 24) * Real.sqrt 7 ^ 3) 3 0 (77 / 32) 0 4 1 := by
  refine inside_mono inside3 (by norm_num) ?_
  rw [show Real.sqrt 7 ^ 3 = Real.sqrt 7 ^ 2 * Real.sqrt 7 by ring, Real.sq_sqrt (by norm_num)]
  have := sqrt_bounds.2.1
  norm_num at this ⊢; linarith

example (I J K : ZMod bn254) :
    (wrapperCircuit f32 consts32 sinDenoms32 geo32 ((0 : ℕ) : ZMod bn254) ((0x401A0000 : ℕ) : ZMod bn254) ((3 : ℕ) : ZMod bn254) I J K).run 9 = some () ↔ I = 0 ∧ J = 4 ∧ K = 1 := by
  have ha : |(77 / 32 : ℝ)| = 77 / 32 := abs_of_pos (by norm_num)
  have := C77_wrapper_iff32 (good_bn254_f32 (b := 9) ⟨by norm_num, by norm_num⟩) exampleLat exampleLng (by norm_num) (by rw [ha]; norm_num) (n := 3) (by norm_num)
    (fun F hF => (by norm_num : (20 * (96 / 2 ^ 24) : ℝ) ^ 2 < 1 / 1000).trans_le (equator_far F hF _)) inside3_wrapper I J K
  exact_mod_cast this

/-- Double precision, resolution 15, the deployed width: with the values of the hint function and a correctly rounded library the cell `(0, 512958, 172515)` is accepted and no other. -/
example {L : Libm} (hL : L.CorrectlyRounded) : ∃ hLat hLng : Pre bn254, PrecomputeHint64 L ((0 : ℕ) : ZMod bn254) hLat ∧
    PrecomputeHint64 L ((0x4003400000000000 : ℕ) : ZMod bn254) hLng ∧
    ∀ I J K : ZMod bn254, (precomputeCircuit64 hLat hLng ((0 : ℕ) : ZMod bn254) ((0x4003400000000000 : ℕ) : ZMod bn254) ((15 : ℕ) : ZMod bn254) I J K).run 11 = some () ↔
      I = 0 ∧ J = 512958 ∧ K = 172515 := by
  have G := good_bn254_f64 (b := 11) ⟨by norm_num, by norm_num⟩
  have ha : |goodLng| = 77 / 32 := by unfold goodLng; rw [abs_of_pos (by norm_num)]
  obtain ⟨hLat, hLng, H1, H2, i, j, k, hr⟩ := goodLng_accepts hL (n := 15) (by norm_num)
  have key {I J K : ZMod bn254} (h : (precomputeCircuit64 hLat hLng ((0 : ℕ) : ZMod bn254) ((0x4003400000000000 : ℕ) : ZMod bn254) ((15 : ℕ) : ZMod bn254) I J K).run 11 = some ()) :
      I = 0 ∧ J = 512958 ∧ K = 172515 := by
    have := C77_interior_exact64 G hL zero_pattern64 goodLng_pattern (by norm_num) (by rw [ha]; norm_num) H1 H2 (n := 15) (by norm_num) inside15_double h
    exact_mod_cast this
  refine ⟨hLat, hLng, H1, H2, fun I J K => ⟨key, ?_⟩⟩
  obtain ⟨e1, e2, e3⟩ := key hr
  rw [e1, e2, e3] at hr
  rintro ⟨rfl, rfl, rfl⟩
  exact hr

/-- The accepted cells of this location are the exact cells of locations within 4 micrometres, at each resolution. -/
example {L : Libm} (hL : L.CorrectlyRounded) (n : ℕ) (hn : n ≤ 15) : ∃ i j k : ℤ, ∃ hLat hLng : Pre bn254, PrecomputeHint64 L ((0 : ℕ) : ZMod bn254) hLat ∧
    PrecomputeHint64 L ((0x4003400000000000 : ℕ) : ZMod bn254) hLng ∧
    (precomputeCircuit64 hLat hLng ((0 : ℕ) : ZMod bn254) ((0x4003400000000000 : ℕ) : ZMod bn254) (n : ZMod bn254) i j k).run 11 = some () ∧
    ∃ φ' l', |φ'| ≤ Real.pi / 2 ∧ |l'| ≤ Real.pi ∧ H3.ground 0 goodLng φ' l' ≤ 4 / 10 ^ 6 ∧ H3.CellAt (3 / 10 ^ 12) 0 n φ' l' i j k := by
  have ha : |goodLng| = 77 / 32 := by unfold goodLng; rw [abs_of_pos (by norm_num)]
  obtain ⟨hLat, hLng, H1, H2, i, j, k, hr⟩ := goodLng_accepts hL hn
  obtain ⟨i', j', k', rfl, rfl, rfl, h⟩ := C76_location_ground64 (good_bn254_f64 (b := 11) ⟨by norm_num, by norm_num⟩) hL zero_pattern64 goodLng_pattern (by norm_num) (by rw [ha]; norm_num) H1 H2 hn hr
  exact ⟨i', j', k', hLat, hLng, H1, H2, hr, h⟩

/-- Single precision and the circuit without hints: there is an accepted cell, and it is the exact cell of a location within 12.4 kilometres. -/
example (n : ℕ) (hn : n ≤ 15) : ∃ i j k : ℤ,
    (wrapperCircuit f32 consts32 sinDenoms32 geo32 ((0 : ℕ) : ZMod bn254) ((0x401A0000 : ℕ) : ZMod bn254) (n : ZMod bn254) i j k).run 9 = some () ∧
    ∃ φ' l', |φ'| ≤ Real.pi / 2 ∧ |l'| ≤ Real.pi ∧ H3.ground 0 (77 / 32) φ' l' ≤ 12400 ∧ H3.CellAt (82 / 10 ^ 4) 0 n φ' l' i j k := by
  have G := good_bn254_f32 (b := 9) ⟨by norm_num, by norm_num⟩
  have ha : |(77 / 32 : ℝ)| = 77 / 32 := abs_of_pos (by norm_num)
  obtain ⟨i, j, k, hr, _⟩ := C48_location_complete32 G exampleLat exampleLng (by norm_num) (by rw [ha]; norm_num) hn
    (fun F hF => (by norm_num : (20 * (96 / 2 ^ 24) : ℝ) ^ 2 < 1 / 1000).trans_le (equator_far F hF _))
  obtain ⟨i', j', k', e1, e2, e3, h⟩ := C76_wrapper_ground32 G exampleLat exampleLng (by norm_num) (by rw [ha]; norm_num) hn hr
  rw [e1, e2, e3] at hr
  exact ⟨i', j', k', hr, h⟩

/-- The hypotheses of `C76_wrapper_ground_sound32` (and `C76_cell_ground_sound`) are met at width 8 and resolution 15: there is an accepted cell, and every accepted cell is the exact cell of a location
within 12402 metres. -/
example (st : Bool) : (∃ I J K : ZMod bn254, (wrapperCircuit f32 consts32 sinDenoms32 geo32 ((0 : ℕ) : ZMod bn254) ((0x401A0000 : ℕ) : ZMod bn254) ((15 : ℕ) : ZMod bn254) I J K).Sat 8 st ()) ∧
    ∀ I J K : ZMod bn254, (wrapperCircuit f32 consts32 sinDenoms32 geo32 ((0 : ℕ) : ZMod bn254) ((0x401A0000 : ℕ) : ZMod bn254) ((15 : ℕ) : ZMod bn254) I J K).Sat 8 st () →
      ∃ i j k : ℤ, I = i ∧ J = j ∧ K = k ∧ ∃ φ' l', H3.ground 0 (77 / 32) φ' l' ≤ 12402 ∧ H3.CellAt (83 / 10 ^ 4) 0 15 φ' l' i j k := by
  have ha : |(77 / 32 : ℝ)| = 77 / 32 := abs_of_pos (by norm_num)
  refine ⟨?_, fun I J K h => ?_⟩
  · obtain ⟨i, j, k, hr, _⟩ := C48_location_complete32 (n := 15) good8 exampleLat exampleLng (by norm_num) (by rw [ha]; norm_num) (by norm_num)
      (fun F hF => (by norm_num : (20 * (96 / 2 ^ 24) : ℝ) ^ 2 < 1 / 1000).trans_le (equator_far F hF _))
    exact ⟨_, _, _, Circ.sat_of_run _ _ hr⟩
  · obtain ⟨i, j, k, r1, r2, r3, φ', l', _, _, hd, F, hF, hmin, hc⟩ := C76_wrapper_ground_sound32 good8 (by decide) exampleLat exampleLng (by norm_num) (by rw [ha]; norm_num)
      (n := 15) (by norm_num) (by norm_num) h
    have hT : (2000000 : ℝ) ≤ Real.sqrt 7 ^ 15 := by
      rw [show Real.sqrt 7 ^ 15 = (Real.sqrt 7 ^ 2) ^ 7 * Real.sqrt 7 by ring, Real.sq_sqrt (by norm_num)]
      have := sqrt_bounds.1
      norm_num at this ⊢; linarith
    have hi : 1 / Real.sqrt 7 ^ 15 ≤ 1 / 2000000 := one_div_le_one_div_of_le (by norm_num) hT
    have e2 (c : ℝ) : c / Real.sqrt 7 ^ 15 = c * (1 / Real.sqrt 7 ^ 15) := by ring
    rw [e2] at hd
    simp only [e2 1.77] at hmin
    refine ⟨i, j, k, r1, r2, r3, φ', l', ?_, F, hF, fun F' hF' => (hmin F' hF').trans ?_, hc⟩
    · norm_num at hd hi ⊢; linarith
    · norm_num at hi ⊢; linarith

end ZkLoc
