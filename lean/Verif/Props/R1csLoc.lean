import Verif.R1csWidth
import Verif.Props.R1cs
import Verif.Props.Accept
import Verif.Props.FarCell
import Verif.Props.Ground

/-!
# Property C84: the compiled location circuit

The single-precision location circuit without hints (`loc2Index32CircuitWrapper`, /repo/loc2index32/loc2index32_test.go:213-265), compiled to rank-1 constraints and lookups by the model of gnark's builder. What the rest of the model says about
the circuit — which cells no prover can have accepted at a dividing width, and the two cells and the far cells that are accepted at the deployed one — holds of the constraint system.
-/

namespace ZkLoc

/-- `loc2Index32CircuitWrapper` as the compiler sees it, /repo/loc2index32/loc2index32_test.go:203-265: six input wires (latitude, longitude, resolution, `I`, `J`, `K`), over a field of `Nat.size p` bits. -/
def R1cs.location32 (p : ℕ) : R1cs.Bld p Unit :=
  R1cs.wrapperCircuit (Nat.size p) f32 consts32 sinDenoms32 geo32 (.wire 0) (.wire 1) (.wire 2) (.wire 3) (.wire 4) (.wire 5)

variable {p b : ℕ} [Fact p.Prime]

theorem small32 : R1cs.Small f32 geo32 := ⟨by decide, by decide, by decide⟩

theorem R1cs.ref_location32 (hp : 15 < p) (xs : List (ZMod p)) (hl : xs.length = 6) : R1cs.Ref b (R1cs.inputs xs) (R1cs.location32 p)
    (R1cs.wrapperCircuit (Nat.size p) f32 consts32 sinDenoms32 geo32 (xs.getD 0 0) (xs.getD 1 0) (xs.getD 2 0) (xs.getD 3 0) (xs.getD 4 0) (xs.getD 5 0) : Circ p Unit) := by
  have h : ∀ i, i < 6 → R1cs.Der (R1cs.inputs xs) (.wire i) (xs.getD i 0) := fun i hi => by
    have := R1cs.der_in (xs := xs) (i := i) (by omega)
    rwa [show xs.getD i 0 = xs[i] by simp [hl, hi]]
  exact R1cs.ref_wrapperCircuit small32 (h 0 (by norm_num)) (h 1 (by norm_num)) (h 2 (by norm_num)) (h 3 (by norm_num)) (h 4 (by norm_num)) (h 5 (by norm_num))

theorem size_four (hp : 15 < p) : 4 ≤ Nat.size p := by
  have := Nat.lt_size.2 (show 2 ^ 3 ≤ p by norm_num; omega)
  omega

/-- **C84** At every width of the range table: the circuit compiles (no assertion on constants fails), and the system has a solution for inputs exactly if the circuit, read with the documented meaning of
gnark's calls, is satisfiable. -/
theorem C84_location (G : Good p b f32) : ∃ s, R1cs.compile b 6 (R1cs.location32 p) = some s ∧
    ∀ Lat Lng n I J K : ZMod p, s.Accepts b [Lat, Lng, n, I, J, K] ↔ (wrapperCircuit f32 consts32 sinDenoms32 geo32 Lat Lng n I J K).Sat b true () := by
  have hp : 15 < p := by
    have : 2 ^ 4 ≤ p := (Nat.pow_le_pow_right (by norm_num) (by omega)).trans G.hp
    omega
  obtain ⟨i, j, k, hr, -⟩ := C48_location_complete32 (n := 15) G exampleLat exampleLng (by norm_num) (by rw [abs_of_pos (by norm_num)]; norm_num) (by norm_num)
    (fun F hF => (by norm_num : (20 * (96 / 2 ^ 24) : ℝ) ^ 2 < 1 / 1000).trans_le (equator_far F hF _))
  obtain ⟨s, h1, h2⟩ := R1cs.compile_accepts (R1cs.ref_location32 (b := b) hp)
    ⟨[_, _, _, _, _, _], rfl, (R1cs.eq_wrapperCircuit hp (size_four hp) _ _ _ _ _ _ _ _ _).2 (Circ.sat_of_run _ _ hr)⟩
  exact ⟨s, h1, fun Lat Lng n I J K => (h2 [Lat, Lng, n, I, J, K] rfl).trans (R1cs.eq_wrapperCircuit hp (size_four hp) _ _ _ _ _ _ _ _ _)⟩

/-- **C84** Over BN254, with the table width that the compiler selects, under every back-end: the width is 9, and the compiled system accepts exactly the inputs that `Accepts` allows. -/
theorem C84_location_auto (be : Backend) : ∃ s, R1cs.compileAuto be 0 6 (R1cs.location32 bn254) = some (9, s) ∧
    ∀ Lat Lng n I J K : ZMod bn254, s.Accepts 9 [Lat, Lng, n, I, J, K] ↔ Accepts be true 0 f32.pow2Size (wrapperCircuit f32 consts32 sinDenoms32 geo32 Lat Lng n I J K) () := by
  obtain ⟨s, h1, h2⟩ := C84_location (goodField_bn254.1 9 ⟨by norm_num, by norm_num⟩ : Good bn254 9 f32)
  refine auto_some ?_ ⟨s, h1, fun Lat Lng n I J K => (h2 Lat Lng n I J K).trans (C40_width_wrapper32 be Lat Lng n I J K true).symm⟩
  obtain ⟨⟨u, σ⟩, hm, -⟩ := Option.bind_eq_some_iff.1 h1
  unfold R1cs.widthOf
  rw [hm, Option.map_some, Option.some.injEq, List.map_reverse]
  have hw := R1cs.wid_wrapperCircuit (a' := 0) (c' := 0) (r' := 0) (i' := 0) (j' := 0) (l' := 0) _ _ _ hm
  rw [hw, List.map_nil, List.append_nil, List.reverse_reverse]
  exact width_wrapper32 be

/-- **C84** (violated) The compiled system, at the deployed width, has solutions for two cells of one location. -/
theorem C84_two_cells (be : Backend) {w : ℕ} {s : R1cs.System bn254} (h : R1cs.compileAuto be 0 6 (R1cs.location32 bn254) = some (w, s)) :
    s.Accepts w [0x3F311FBF, 0x3F35A99C, 1, 2, 0, 3] ∧ s.Accepts w [0x3F311FBF, 0x3F35A99C, 1, 1, 0, 2] := by
  obtain ⟨s', h1, h2⟩ := C84_location_auto be
  obtain ⟨rfl, rfl⟩ := Prod.mk.inj (Option.some.inj (h1.symm.trans h))
  obtain ⟨h3, h4⟩ := C40_wrapper_two_cells32 be true
  exact ⟨(h2 _ _ _ _ _ _).2 h3, (h2 _ _ _ _ _ _).2 h4⟩

/-- **C84** (violated) It has, at every resolution, a solution for a cell that no location on Earth lies in. -/
theorem C84_far_cell (be : Backend) {w : ℕ} {s : R1cs.System bn254} (h : R1cs.compileAuto be 0 6 (R1cs.location32 bn254) = some (w, s)) {n : ℕ} (hn : n ≤ 15) :
    ∃ i k : ℕ, s.Accepts w [0xBD13C240, 0x3FC471C9, (n : ZMod bn254), (i : ZMod bn254), 0, (k : ZMod bn254)] ∧ i < 2 ^ 30 ∧ k < 2 ^ 30 ∧
      ∀ φ l : ℝ, ¬ H3.CellAt 0.01 (25 * Real.sqrt 7 ^ n) n φ l i 0 k := by
  obtain ⟨s', h1, h2⟩ := C84_location_auto be
  obtain ⟨rfl, rfl⟩ := Prod.mk.inj (Option.some.inj (h1.symm.trans h))
  obtain ⟨i, k, h3, h4⟩ := C48_far_cell32 be true hn
  exact ⟨i, k, (h2 _ _ _ _ _ _).2 h3, h4⟩

/-- **C84** At a dividing width: whatever solution of the system a prover finds, the cell is the exact cell of a location within `2820 km / √7^n + 12.4 km` of the one given, and the resolution is at most 15. -/
theorem C84_ground_sound (G : Good p b f32) (hb : b ∣ f32.pow2Size) {s : R1cs.System p} (hs : R1cs.compile b 6 (R1cs.location32 p) = some s) {Lat Lng n : ℕ} {φ l : ℝ} (hφ : PatternOf f32 Lat φ)
    (hl : PatternOf f32 Lng l) (hφ1 : |φ| ≤ 13176795 / 2 ^ 23) (hl1 : |l| ≤ 13176795 / 2 ^ 22) (hn : n ≤ 15) (h6 : 6 ≤ n) {I J K : ZMod p}
    (h : s.Accepts b [(Lat : ZMod p), (Lng : ZMod p), (n : ZMod p), I, J, K]) :
    ∃ i j k : ℤ, I = i ∧ J = j ∧ K = k ∧ ∃ φ' l', |φ'| ≤ Real.pi / 2 ∧ |l'| ≤ Real.pi ∧ H3.ground φ l φ' l' ≤ 2820000 / Real.sqrt 7 ^ n + 12400 ∧
      H3.CellAt (1.77 / Real.sqrt 7 ^ n + 82 / 10 ^ 4) 0 n φ' l' i j k := by
  obtain ⟨s', h1, h2⟩ := C84_location G
  obtain rfl := Option.some.inj (h1.symm.trans hs)
  exact C76_wrapper_ground_sound32 G hb hφ hl hφ1 hl1 hn h6 ((h2 _ _ _ _ _ _).1 h)

/-- **C84** For every location away from the face centres and every resolution the system has a solution with the cell of a location nearby. -/
theorem C84_complete (G : Good p b f32) {s : R1cs.System p} (hs : R1cs.compile b 6 (R1cs.location32 p) = some s) {Lat Lng n : ℕ} {φ l : ℝ} (hφ : PatternOf f32 Lat φ) (hl : PatternOf f32 Lng l)
    (hφ1 : |φ| ≤ 13176795 / 2 ^ 23) (hl1 : |l| ≤ 13176795 / 2 ^ 22) (hn : n ≤ 15) (hfar : ∀ F ∈ H3.faceGeo, (20 * (96 / 2 ^ 24)) ^ 2 < H3.sqd F φ l) :
    ∃ i j k : ℤ, s.Accepts b [(Lat : ZMod p), (Lng : ZMod p), (n : ZMod p), (i : ZMod p), (j : ZMod p), (k : ZMod p)] ∧
      H3.CellAt (64 * (96 / 2 ^ 24)) (768 * (96 / 2 ^ 24) * Real.sqrt 7 ^ n) n φ l i j k := by
  obtain ⟨s', h1, h2⟩ := C84_location G
  obtain rfl := Option.some.inj (h1.symm.trans hs)
  obtain ⟨i, j, k, hr, hc⟩ := C48_location_complete32 G hφ hl hφ1 hl1 hn hfar
  exact ⟨i, j, k, (h2 _ _ _ _ _ _).2 (Circ.sat_of_run _ _ hr), hc⟩

/-- **C84** No resolution above 15 is accepted: the fifteen-bound of `AssertIsLessOrEqual`, as gnark compiles it, bit by bit. -/
theorem C84_resolution (G : Good p b f32) {s : R1cs.System p} (hs : R1cs.compile b 6 (R1cs.location32 p) = some s) {Lat Lng n I J K : ZMod p} (h : s.Accepts b [Lat, Lng, n, I, J, K]) : n.val ≤ 15 := by
  obtain ⟨s', h1, h2⟩ := C84_location G
  obtain rfl := Option.some.inj (h1.symm.trans hs)
  have hsat := (h2 _ _ _ _ _ _).1 h
  unfold wrapperCircuit at hsat
  obtain ⟨t, ht, -⟩ := (Circ.sat_bind _ _ _).1 hsat
  unfold locInputs at ht
  obtain ⟨_, _, ht⟩ := (Circ.sat_bind _ _ _).1 ht
  obtain ⟨_, _, ht⟩ := (Circ.sat_bind _ _ _).1 ht
  obtain ⟨_, _, ht⟩ := (Circ.sat_bind _ _ _).1 ht
  obtain ⟨_, _, ht⟩ := (Circ.sat_bind _ _ _).1 ht
  obtain ⟨_, _, ht⟩ := (Circ.sat_bind _ _ _).1 ht
  obtain ⟨_, _, ht⟩ := (Circ.sat_bind _ _ _).1 ht
  obtain ⟨_, hle, _⟩ := (Circ.sat_bind _ _ _).1 ht
  simpa [assertIsLessOrEqual] using hle.1

/-- The hypotheses are met: width 8, the location `(0, 77/32)` and resolution 15. -/
example : ∃ s, R1cs.compile 8 6 (R1cs.location32 bn254) = some s ∧ ∃ I J K : ℤ, s.Accepts 8 [((0 : ℕ) : ZMod bn254), ((0x401A0000 : ℕ) : ZMod bn254), ((15 : ℕ) : ZMod bn254), (I : ZMod bn254), (J : ZMod bn254), (K : ZMod bn254)] := by
  obtain ⟨s, h, -⟩ := C84_location good8
  obtain ⟨i, j, k, h1, -⟩ := C84_complete (n := 15) good8 h exampleLat exampleLng (by norm_num) (by rw [abs_of_pos (by norm_num)]; norm_num) (by norm_num)
    (fun F hF => (by norm_num : (20 * (96 / 2 ^ 24) : ℝ) ^ 2 < 1 / 1000).trans_le (equator_far F hF _))
  exact ⟨s, h, i, j, k, h1⟩

end ZkLoc
