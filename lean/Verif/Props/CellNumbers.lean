import Verif.CellBound
import Verif.Props.Precompute

/-!
# Properties C45, C48 and C49: the public cell as numbers

The theorems of `Cell.lean`, `Wrapper.lean` and `Precompute.lean` name a cell whose residues modulo the field are the public values. The numbers of a cell at a location are below
`2^26`, so the public values, as numbers, are that cell: no multiple of the field's order can be hidden in them.
-/

namespace ZkLoc

variable {p : ℕ} [Fact p.Prime] {b : ℕ} {f : Fmt} {g : GeoConsts}

/-- The three numbers are small and name a cell at the location. -/
def NumbersAt (δ ε : ℝ) (n : ℕ) (φ l : ℝ) (I J K : ℕ) : Prop := H3.CellAt δ ε n φ l I J K ∧ I < 2 ^ 26 ∧ J < 2 ^ 26 ∧ K < 2 ^ 26

theorem numbersAt {δ ε φ l : ℝ} {n : ℕ} (hp : 2 ^ 26 ≤ p) (hδ : δ ≤ 0.01) (hn : n ≤ 15) (hε : ε ≤ 1 + Real.sqrt 7 ^ n / 10) {I J K : ZMod p} {i j k : ℤ}
    (hi : I = i) (hj : J = j) (hk : K = k) (h : H3.CellAt δ ε n φ l i j k) : NumbersAt δ ε n φ l I.val J.val K.val := by
  have h1 := cellAt_val hp hδ hn hε hi hj hk h
  obtain ⟨⟨-, i1⟩, ⟨-, j1⟩, ⟨-, k1⟩⟩ := cellAt_bound hδ hn hε h1
  exact ⟨h1, by exact_mod_cast i1, by exact_mod_cast j1, by exact_mod_cast k1⟩

theorem enlarge_le {τ : ℝ} (h : τ ≤ 1 / 2 ^ 16) (n : ℕ) : 768 * τ * Real.sqrt 7 ^ n ≤ Real.sqrt 7 ^ n / 10 := by
  have h0 : 0 < Real.sqrt 7 ^ n := by positivity
  norm_num at h
  generalize Real.sqrt 7 ^ n = q at *
  nlinarith [mul_le_mul_of_nonneg_right h h0.le]

theorem Good.big (G : Good p b f) : 2 ^ 26 ≤ p := (Nat.pow_le_pow_right (by norm_num) (by have := G.hEM; have := G.hE; have := G.hME; omega)).trans G.hp

/-- **C45** The cell of the honest prover, as numbers, at any table width. -/
theorem C45_cell_numbers (G : Good p b f) (K : CellConsts p f g) {τ φ l : ℝ} {sinLat cosLat sinLng cosLng : FloatVar p}
    (h : TrigInputs f τ φ l sinLat cosLat sinLng cosLng) {n : ℕ} (hn : n ≤ 15) {r : ZMod p × ZMod p × ZMod p}
    (hr : (locCell f g sinLat cosLat sinLng cosLng (n : ZMod p)).run b = some r) :
    NumbersAt (64 * τ) (768 * τ * Real.sqrt 7 ^ n) n φ l r.1.val r.2.1.val r.2.2.val := by
  obtain ⟨i, j, k, rfl, hc⟩ := C45_cell_correct G K h hn hr
  have := h.le
  exact numbersAt G.big (by norm_num at *; linarith) hn ((enlarge_le h.le n).trans (by linarith)) rfl rfl rfl hc

/-- **C45** (missing: the exact cell, as in `C45_cell_sound_partial`) The cell of any prover, as numbers, where the table width divides the lookup size. -/
theorem C45_cell_numbers_sound_partial (G : Good p b f) (hb : b ∣ f.pow2Size) (K : CellConsts p f g) {τ φ l : ℝ} {sinLat cosLat sinLng cosLng : FloatVar p}
    (h : TrigInputs f τ φ l sinLat cosLat sinLng cosLng) {res : ZMod p} {st : Bool} {r : ZMod p × ZMod p × ZMod p}
    (hr : (locCell f g sinLat cosLat sinLng cosLng res).Sat b st r) :
    res.val ≤ 15 ∧ NumbersAt (64 * τ) (1 + 768 * τ * Real.sqrt 7 ^ res.val) res.val φ l r.1.val r.2.1.val r.2.2.val := by
  obtain ⟨n, hn, rfl, i, j, k, rfl, hc⟩ := C45_cell_sound_partial G hb K h hr
  have hv : ((n : ℕ) : ZMod p).val = n := ZMod.val_natCast_of_lt (by have := G.big; omega)
  rw [hv]
  have := h.le
  exact ⟨hn, numbersAt G.big (by norm_num at *; linarith) hn (by have := enlarge_le h.le n; linarith) rfl rfl rfl hc⟩

/-- **C48** The public cell of the single-precision location circuit that an honest prover has accepted, as numbers. -/
theorem C48_location_numbers32 (G : Good p b f32) {Lat Lng n : ℕ} {φ l : ℝ} (hφ : PatternOf f32 Lat φ) (hl : PatternOf f32 Lng l)
    (hφ1 : |φ| ≤ 13176795 / 2 ^ 23) (hl1 : |l| ≤ 13176795 / 2 ^ 22) (hn : n ≤ 15) {I J K : ZMod p}
    (h : (wrapperCircuit f32 consts32 sinDenoms32 geo32 (Lat : ZMod p) (Lng : ZMod p) (n : ZMod p) I J K).run b = some ()) :
    NumbersAt (64 * (96 / 2 ^ 24)) (768 * (96 / 2 ^ 24) * Real.sqrt 7 ^ n) n φ l I.val J.val K.val := by
  obtain ⟨i, j, k, hi, hj, hk, hc⟩ := C48_location_correct32 G hφ hl hφ1 hl1 hn h
  exact numbersAt G.big (by norm_num) hn ((enlarge_le (by norm_num) n).trans (by linarith)) hi hj hk hc

/-- **C48** (missing: the exact cell and other widths, as in `C48_location_sound32_partial`) The public cell that any prover has accepted, as numbers. -/
theorem C48_location_numbers_sound32_partial (G : Good p b f32) (hb : b ∣ f32.pow2Size) {Lat Lng : ℕ} {φ l : ℝ} (hφ : PatternOf f32 Lat φ) (hl : PatternOf f32 Lng l)
    (hφ1 : |φ| ≤ 13176795 / 2 ^ 23) (hl1 : |l| ≤ 13176795 / 2 ^ 22) {res I J K : ZMod p} {st : Bool}
    (h : (wrapperCircuit f32 consts32 sinDenoms32 geo32 (Lat : ZMod p) (Lng : ZMod p) res I J K).Sat b st ()) :
    res.val ≤ 15 ∧ NumbersAt (64 * (96 / 2 ^ 24)) (1 + 768 * (96 / 2 ^ 24) * Real.sqrt 7 ^ res.val) res.val φ l I.val J.val K.val := by
  obtain ⟨n, hn, rfl, i, j, k, hi, hj, hk, hc⟩ := C48_location_sound32_partial G hb hφ hl hφ1 hl1 h
  have hv : ((n : ℕ) : ZMod p).val = n := ZMod.val_natCast_of_lt (by have := G.big; omega)
  rw [hv]
  exact ⟨hn, numbersAt G.big (by norm_num) hn (by have := enlarge_le (τ := 96 / 2 ^ 24) (by norm_num) n; linarith) hi hj hk hc⟩

/-- **C49** The public cell of the single-precision circuit with hints that an honest prover has accepted, as numbers. -/
theorem C49_precompute_numbers32 (G : Good p b f32) {τ φ l : ℝ} (hτ : 16 * (1 / 2 ^ 24) ≤ τ) (hτ' : τ ≤ 1 / 2 ^ 16) {hLat hLng : Pre p}
    (h1 : HintNear f32 τ φ hLat) (h2 : HintNear f32 τ l hLng) {n : ℕ} (hn : n ≤ 15) {Lat Lng I J K : ZMod p}
    (h : (precomputeCircuit32 hLat hLng Lat Lng (n : ZMod p) I J K).run b = some ()) :
    NumbersAt (64 * τ) (768 * τ * Real.sqrt 7 ^ n) n φ l I.val J.val K.val := by
  obtain ⟨i, j, k, hi, hj, hk, hc⟩ := C49_precompute_correct32 G hτ hτ' h1 h2 hn h
  exact numbersAt G.big (by norm_num at *; linarith) hn ((enlarge_le hτ' n).trans (by linarith)) hi hj hk hc

/-- **C49** The same for double precision. -/
theorem C49_precompute_numbers64 (G : Good p b f64) {τ φ l : ℝ} (hτ : 16 * (1 / 2 ^ 53) ≤ τ) (hτ' : τ ≤ 1 / 2 ^ 16) {hLat hLng : Pre p}
    (h1 : HintNear f64 τ φ hLat) (h2 : HintNear f64 τ l hLng) {n : ℕ} (hn : n ≤ 15) {Lat Lng I J K : ZMod p}
    (h : (precomputeCircuit64 hLat hLng Lat Lng (n : ZMod p) I J K).run b = some ()) :
    NumbersAt (64 * τ) (768 * τ * Real.sqrt 7 ^ n) n φ l I.val J.val K.val := by
  obtain ⟨i, j, k, hi, hj, hk, hc⟩ := C49_precompute_correct64 G hτ hτ' h1 h2 hn h
  exact numbersAt G.big (by norm_num at *; linarith) hn ((enlarge_le hτ' n).trans (by linarith)) hi hj hk hc

/-- The hypotheses are met: the location of `Precompute.lean`, at the deployed width, is in the cell with the numbers 0, 30, 10. -/
example : H3.CellAt (64 * (1 / 2 ^ 17)) (768 * (1 / 2 ^ 17) * Real.sqrt 7 ^ 5) 5 0 (77 / 32) 0 30 10 := by
  have h := (C49_precompute_numbers32 (b := 9) (n := 5) (I := 0) (J := 30) (K := 10) (good_bn254_f32 ⟨by norm_num, by norm_num⟩) (by norm_num) (by norm_num) exHintLat_near exHintLng_near
    (by norm_num) (by exact_mod_cast exPrecomputeRun)).1
  have e1 : (30 : ZMod bn254).val = 30 := by decide +kernel
  have e2 : (10 : ZMod bn254).val = 10 := by decide +kernel
  rw [e1, e2, ZMod.val_zero] at h
  exact_mod_cast h

end ZkLoc
