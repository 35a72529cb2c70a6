import Verif.R1csPreWidth
import Verif.Props.R1csLoc
import Verif.Props.Hints

/-!
# Property C85: the compiled location circuits with hinted sines

`loc2Index32Circuit` (/repo/loc2index32/loc2index32_test.go:28-153) and `loc2Index64Circuit` (/repo/loc2index64/loc2index64_test.go:26-168), compiled to rank-1 constraints and lookups by the model of gnark's builder, in the order of the code.
-/

namespace ZkLoc

open Hints

/-- `loc2Index32Circuit` as the compiler sees it, /repo/loc2index32/loc2index32_test.go:28-153: six input wires (latitude, longitude, resolution, `I`, `J`, `K`), over a field of `Nat.size p` bits; `v`, `w` are the values of the hint
function, which the compiler does not see. -/
def R1cs.hinted32 (p : ℕ) (v w : Pre p) : R1cs.Bld p Unit := R1cs.precompute32 (Nat.size p) v w (.wire 0) (.wire 1) (.wire 2) (.wire 3) (.wire 4) (.wire 5)
/-- `loc2Index64Circuit`, /repo/loc2index64/loc2index64_test.go:26-168. -/
def R1cs.hinted64 (p : ℕ) (v w : Pre p) : R1cs.Bld p Unit := R1cs.precompute64 (Nat.size p) v w (.wire 0) (.wire 1) (.wire 2) (.wire 3) (.wire 4) (.wire 5)

variable {p b : ℕ} [Fact p.Prime]

theorem small64 : R1cs.Small f64 geo64 := ⟨by decide, by decide, by decide⟩

theorem der6 {xs : List (ZMod p)} (hl : xs.length = 6) : ∀ i, i < 6 → R1cs.Der (R1cs.inputs xs) (.wire i) (xs.getD i 0) := fun i hi => by
  have := R1cs.der_in (xs := xs) (i := i) (by omega)
  rwa [show xs.getD i 0 = xs[i] by simp [hl, hi]]

theorem R1cs.refAt_hinted32 (v w : Pre p) (xs : List (ZMod p)) (hl : xs.length = 6) : R1cs.RefAt b ⟨6, [], [], [], []⟩ (R1cs.inputs xs) (R1cs.hinted32 p v w)
    (R1cs.precompute32 (Nat.size p) v w (xs.getD 0 0) (xs.getD 1 0) (xs.getD 2 0) (xs.getD 3 0) (xs.getD 4 0) (xs.getD 5 0) : Circ p Unit) :=
  R1cs.refAt_precomputeCircuit small32 (der6 hl 0 (by norm_num)) (der6 hl 1 (by norm_num)) (der6 hl 2 (by norm_num)) (der6 hl 3 (by norm_num)) (der6 hl 4 (by norm_num)) (der6 hl 5 (by norm_num))
theorem R1cs.refAt_hinted64 (v w : Pre p) (xs : List (ZMod p)) (hl : xs.length = 6) : R1cs.RefAt b ⟨6, [], [], [], []⟩ (R1cs.inputs xs) (R1cs.hinted64 p v w)
    (R1cs.precompute64 (Nat.size p) v w (xs.getD 0 0) (xs.getD 1 0) (xs.getD 2 0) (xs.getD 3 0) (xs.getD 4 0) (xs.getD 5 0) : Circ p Unit) :=
  R1cs.refAt_precomputeCircuit small64 (der6 hl 0 (by norm_num)) (der6 hl 1 (by norm_num)) (der6 hl 2 (by norm_num)) (der6 hl 3 (by norm_num)) (der6 hl 4 (by norm_num)) (der6 hl 5 (by norm_num))

theorem lt_field {f : Fmt} (G : Good p b f) : 15 < p := by
  have : 2 ^ 4 ≤ p := (Nat.pow_le_pow_right (by norm_num) (by omega)).trans G.hp
  omega

/-- **C85** Single precision, at every width of the range table: the circuit compiles, and its system has a solution for inputs exactly if the location passes the range check and the cell can be claimed, whatever the location. -/
theorem C85_meaning32 (G : Good p b f32) (v w : Pre p) : ∃ s, R1cs.compile b 6 (R1cs.hinted32 p v w) = some s ∧
    ∀ Lat Lng n I J K : ZMod p, s.Accepts b [Lat, Lng, n, I, J, K] ↔ InRange f32 geo32 Lat Lng n ∧ Claimable32 b true n I J K := by
  have hp := lt_field G
  obtain ⟨L, hL⟩ := C74_libm_exists
  obtain ⟨hLat, H1⟩ := C74_hint_exists32 G L exampleLat (by norm_num)
  obtain ⟨hLng, H2⟩ := C74_hint_exists32 G L exampleLng (by rw [abs_of_pos (by norm_num)]; norm_num)
  obtain ⟨i, j, k, hr, -⟩ := C74_location_complete32 (n := 15) G (C74_correctly_rounded_accurate hL) (by norm_num) (by norm_num) exampleLat exampleLng (by norm_num)
    (by rw [abs_of_pos (by norm_num)]; norm_num) H1 H2 le_rfl (fun F hF => (by norm_num : (20 / 2 ^ 20 : ℝ) ^ 2 < 1 / 1000).trans_le (equator_far F hF _))
  have hs := (C40_precompute32_exact G v w _ _ _ _ _ _ true).2 ((C40_precompute32_exact G _ _ _ _ _ _ _ _ true).1 (Circ.sat_of_run _ _ hr))
  obtain ⟨s, h1, h2⟩ := R1cs.compile_accepts_at (R1cs.refAt_hinted32 (b := b) v w) ⟨[_, _, _, _, _, _], rfl, (R1cs.eq_precompute32 hp (size_four hp) v w _ _ _ _ _ _).2 hs⟩
  exact ⟨s, h1, fun Lat Lng n I J K => (h2 [Lat, Lng, n, I, J, K] rfl).trans ((R1cs.eq_precompute32 hp (size_four hp) v w _ _ _ _ _ _).trans (C40_precompute32_exact G _ _ _ _ _ _ _ _ true))⟩

/-- **C85** Double precision. -/
theorem C85_meaning64 (G : Good p b f64) (v w : Pre p) : ∃ s, R1cs.compile b 6 (R1cs.hinted64 p v w) = some s ∧
    ∀ Lat Lng n I J K : ZMod p, s.Accepts b [Lat, Lng, n, I, J, K] ↔ InRange f64 geo64 Lat Lng n ∧ Claimable64 b true n I J K := by
  have hp := lt_field G
  obtain ⟨L, hL⟩ := C74_libm_exists
  obtain ⟨_, _, -, -, i, j, k, hr⟩ := goodLng_runs G hL (n := 15) le_rfl
  have hs := (C40_precompute64_exact G v w _ _ _ _ _ _ true).2 ((C40_precompute64_exact G _ _ _ _ _ _ _ _ true).1 (Circ.sat_of_run _ _ hr))
  obtain ⟨s, h1, h2⟩ := R1cs.compile_accepts_at (R1cs.refAt_hinted64 (b := b) v w) ⟨[_, _, _, _, _, _], rfl, (R1cs.eq_precompute64 hp (size_four hp) v w _ _ _ _ _ _).2 hs⟩
  exact ⟨s, h1, fun Lat Lng n I J K => (h2 [Lat, Lng, n, I, J, K] rfl).trans ((R1cs.eq_precompute64 hp (size_four hp) v w _ _ _ _ _ _).trans (C40_precompute64_exact G _ _ _ _ _ _ _ _ true))⟩

/-- **C85** Over BN254 the compiler selects width 9 in single precision, under every back-end, and the compiled system accepts exactly the inputs that `Accepts` allows. -/
theorem C85_auto32 (be : Backend) (v w : Pre bn254) : ∃ s, R1cs.compileAuto be 0 6 (R1cs.hinted32 bn254 v w) = some (9, s) ∧
    ∀ Lat Lng n I J K : ZMod bn254, s.Accepts 9 [Lat, Lng, n, I, J, K] ↔ Accepts be true 0 f32.pow2Size (precomputeCircuit32 v w Lat Lng n I J K) () := by
  have G : Good bn254 9 f32 := goodField_bn254.1 9 ⟨by norm_num, by norm_num⟩
  obtain ⟨s, h1, h2⟩ := C85_meaning32 G v w
  refine auto_some ?_ ⟨s, h1, fun Lat Lng n I J K => (h2 Lat Lng n I J K).trans ((C40_precompute32_exact G v w _ _ _ _ _ _ true).symm.trans (C40_width32 be v w Lat Lng n I J K true).symm)⟩
  obtain ⟨⟨u, σ⟩, hm, -⟩ := Option.bind_eq_some_iff.1 h1
  unfold R1cs.widthOf
  rw [hm, Option.map_some, Option.some.injEq, List.map_reverse]
  have hw := R1cs.wid_ordCircuit (v' := v) (w' := w) (a' := 0) (c' := 0) (r' := 0) (i' := 0) (j' := 0) (k' := 0) _ _ _ hm
  rw [hw, List.map_nil, List.append_nil, List.reverse_reverse]
  exact R1cs.width_ord32 be _ _ _ _ _ _ _ _

/-- **C85** Width 11 in double precision. -/
theorem C85_auto64 (be : Backend) (v w : Pre bn254) : ∃ s, R1cs.compileAuto be 0 6 (R1cs.hinted64 bn254 v w) = some (11, s) ∧
    ∀ Lat Lng n I J K : ZMod bn254, s.Accepts 11 [Lat, Lng, n, I, J, K] ↔ Accepts be true 0 f64.pow2Size (precomputeCircuit64 v w Lat Lng n I J K) () := by
  have G : Good bn254 11 f64 := goodField_bn254.2 11 ⟨by norm_num, by norm_num⟩
  obtain ⟨s, h1, h2⟩ := C85_meaning64 G v w
  refine auto_some ?_ ⟨s, h1, fun Lat Lng n I J K => (h2 Lat Lng n I J K).trans ((C40_precompute64_exact G v w _ _ _ _ _ _ true).symm.trans (C40_width64 be v w Lat Lng n I J K true).symm)⟩
  obtain ⟨⟨u, σ⟩, hm, -⟩ := Option.bind_eq_some_iff.1 h1
  unfold R1cs.widthOf
  rw [hm, Option.map_some, Option.some.injEq, List.map_reverse]
  have hw := R1cs.wid_ordCircuit (v' := v) (w' := w) (a' := 0) (c' := 0) (r' := 0) (i' := 0) (j' := 0) (k' := 0) _ _ _ hm
  rw [hw, List.map_nil, List.append_nil, List.reverse_reverse]
  exact R1cs.width_ord64 be _ _ _ _ _ _ _ _

/-- **C85** (violated) The compiled single-precision system does not bind the location: at every width, any two locations that pass the range check have solutions for the same cells. -/
theorem C85_not_bound32 (G : Good p b f32) {v w : Pre p} {s : R1cs.System p} (hs : R1cs.compile b 6 (R1cs.hinted32 p v w) = some s) {Lat Lng Lat' Lng' n : ZMod p} (h : InRange f32 geo32 Lat Lng n)
    (h' : InRange f32 geo32 Lat' Lng' n) (I J K : ZMod p) : s.Accepts b [Lat, Lng, n, I, J, K] ↔ s.Accepts b [Lat', Lng', n, I, J, K] := by
  obtain ⟨s', h1, h2⟩ := C85_meaning32 G v w
  obtain rfl := Option.some.inj (h1.symm.trans hs)
  rw [h2, h2]
  simp only [h, h', true_and]

/-- **C85** (violated) Double precision. -/
theorem C85_not_bound64 (G : Good p b f64) {v w : Pre p} {s : R1cs.System p} (hs : R1cs.compile b 6 (R1cs.hinted64 p v w) = some s) {Lat Lng Lat' Lng' n : ZMod p} (h : InRange f64 geo64 Lat Lng n)
    (h' : InRange f64 geo64 Lat' Lng' n) (I J K : ZMod p) : s.Accepts b [Lat, Lng, n, I, J, K] ↔ s.Accepts b [Lat', Lng', n, I, J, K] := by
  obtain ⟨s', h1, h2⟩ := C85_meaning64 G v w
  obtain rfl := Option.some.inj (h1.symm.trans hs)
  rw [h2, h2]
  simp only [h, h', true_and]

/-- **C85** (violated) At the deployed width the compiled single-precision system has, for every location that passes the range check, a solution with the cell `(0x35F61, 0, 0x3468C)` of resolution 13, which is near Munich. -/
theorem C85_every_location32 (be : Backend) {v w : Pre bn254} {m : ℕ} {s : R1cs.System bn254} (h : R1cs.compileAuto be 0 6 (R1cs.hinted32 bn254 v w) = some (m, s)) {Lat Lng : ZMod bn254} (hin : InRange f32 geo32 Lat Lng 13) :
    s.Accepts m [Lat, Lng, 13, 0x35F61, 0, 0x3468C] := by
  obtain ⟨s', h1, h2⟩ := C85_auto32 be v w
  obtain ⟨rfl, rfl⟩ := Prod.mk.inj (Option.some.inj (h1.symm.trans h))
  exact (h2 _ _ _ _ _ _).2 (C40_every_location_accepted32 be true v w hin)

/-- **C85** (violated) Double precision: cell `(0x179BA4, 0, 0x16EDD5)` of resolution 15. -/
theorem C85_every_location64 (be : Backend) {v w : Pre bn254} {m : ℕ} {s : R1cs.System bn254} (h : R1cs.compileAuto be 0 6 (R1cs.hinted64 bn254 v w) = some (m, s)) {Lat Lng : ZMod bn254} (hin : InRange f64 geo64 Lat Lng 15) :
    s.Accepts m [Lat, Lng, 15, 0x179BA4, 0, 0x16EDD5] := by
  obtain ⟨s', h1, h2⟩ := C85_auto64 be v w
  obtain ⟨rfl, rfl⟩ := Prod.mk.inj (Option.some.inj (h1.symm.trans h))
  exact (h2 _ _ _ _ _ _).2 (C40_every_location_accepted64 be true v w hin)

/-- **C85** What the compiled systems do enforce about the location: nothing outside the range has a solution, in particular no resolution above 15. -/
theorem C85_range32 (G : Good p b f32) {v w : Pre p} {s : R1cs.System p} (hs : R1cs.compile b 6 (R1cs.hinted32 p v w) = some s) {Lat Lng n I J K : ZMod p} (h : s.Accepts b [Lat, Lng, n, I, J, K]) : InRange f32 geo32 Lat Lng n := by
  obtain ⟨s', h1, h2⟩ := C85_meaning32 G v w
  obtain rfl := Option.some.inj (h1.symm.trans hs)
  exact ((h2 _ _ _ _ _ _).1 h).1

/-- **C85** Double precision: nothing outside the range has a solution. -/
theorem C85_range64 (G : Good p b f64) {v w : Pre p} {s : R1cs.System p} (hs : R1cs.compile b 6 (R1cs.hinted64 p v w) = some s) {Lat Lng n I J K : ZMod p} (h : s.Accepts b [Lat, Lng, n, I, J, K]) : InRange f64 geo64 Lat Lng n := by
  obtain ⟨s', h1, h2⟩ := C85_meaning64 G v w
  obtain rfl := Option.some.inj (h1.symm.trans hs)
  exact ((h2 _ _ _ _ _ _).1 h).1

/-- **C85** The honest single-precision prover, at every width: for every location in range away from the face centres the system has a solution with the cell of the location. -/
theorem C85_honest32 (G : Good p b f32) {v w : Pre p} {s : R1cs.System p} (hs : R1cs.compile b 6 (R1cs.hinted32 p v w) = some s) {Lat Lng n : ℕ} {φ l : ℝ} (hφ : PatternOf f32 Lat φ) (hl : PatternOf f32 Lng l)
    (hφ1 : |φ| ≤ 13176795 / 2 ^ 23) (hl1 : |l| ≤ 13176795 / 2 ^ 22) (hn : n ≤ 15) (hfar : ∀ F ∈ H3.faceGeo, (20 / 2 ^ 20) ^ 2 < H3.sqd F φ l) :
    ∃ i j k : ℤ, s.Accepts b [(Lat : ZMod p), (Lng : ZMod p), (n : ZMod p), (i : ZMod p), (j : ZMod p), (k : ZMod p)] ∧ H3.CellAt (64 / 2 ^ 20) (768 / 2 ^ 20 * Real.sqrt 7 ^ n) n φ l i j k := by
  obtain ⟨s', h1, h2⟩ := C85_meaning32 G v w
  obtain rfl := Option.some.inj (h1.symm.trans hs)
  obtain ⟨L, hL⟩ := C74_libm_exists
  obtain ⟨hLat, H1⟩ := C74_hint_exists32 G L hφ (hφ1.trans (by norm_num))
  obtain ⟨hLng, H2⟩ := C74_hint_exists32 G L hl (hl1.trans (by norm_num))
  obtain ⟨i, j, k, hr, hc⟩ := C74_location_complete32 G (C74_correctly_rounded_accurate hL) (by norm_num) (by norm_num) hφ hl hφ1 hl1 H1 H2 hn hfar
  exact ⟨i, j, k, (h2 _ _ _ _ _ _).2 ((C40_precompute32_exact G _ _ _ _ _ _ _ _ true).1 (Circ.sat_of_run _ _ hr)), hc⟩

/-- **C85** Everything marked as boolean is boolean in every solution — also the negated signs of the hinted sines, which `Neg` marks (/repo/float/float.go:655-664) long before a constraint says so. -/
theorem C85_marked_booleans (v w : Pre p) : R1cs.MarksBool b 6 (R1cs.hinted32 p v w) ∧ R1cs.MarksBool b 6 (R1cs.hinted64 p v w) :=
  ⟨marks_of_refAt (R1cs.refAt_hinted32 v w), marks_of_refAt (R1cs.refAt_hinted64 v w)⟩

/-- The hypotheses are met: width 8, two locations, and both claim the cell of one of them, at resolution 15. -/
example (v w : Pre bn254) : ∃ s, R1cs.compile 8 6 (R1cs.hinted32 bn254 v w) = some s ∧ ∃ I J K : ℤ,
    s.Accepts 8 [((0 : ℕ) : ZMod bn254), ((0x401A0000 : ℕ) : ZMod bn254), ((15 : ℕ) : ZMod bn254), (I : ZMod bn254), (J : ZMod bn254), (K : ZMod bn254)] ∧
    H3.CellAt (64 / 2 ^ 20) (768 / 2 ^ 20 * Real.sqrt 7 ^ 15) 15 0 (77 / 32) I J K ∧
    s.Accepts 8 [((0 : ℕ) : ZMod bn254), ((0 : ℕ) : ZMod bn254), ((15 : ℕ) : ZMod bn254), (I : ZMod bn254), (J : ZMod bn254), (K : ZMod bn254)] := by
  obtain ⟨s, h, -⟩ := C85_meaning32 good8 v w
  have far : ∀ l : ℝ, ∀ F ∈ H3.faceGeo, (20 / 2 ^ 20 : ℝ) ^ 2 < H3.sqd F 0 l := fun l F hF => (by norm_num : (20 / 2 ^ 20 : ℝ) ^ 2 < 1 / 1000).trans_le (equator_far F hF _)
  obtain ⟨i, j, k, h1, hc⟩ := C85_honest32 (n := 15) good8 h exampleLat exampleLng (by norm_num) (by rw [abs_of_pos (by norm_num)]; norm_num) (by norm_num) (far _)
  obtain ⟨_, _, _, h2, -⟩ := C85_honest32 (n := 15) good8 h exampleLat exampleLat (by norm_num) (by norm_num) (by norm_num) (far _)
  exact ⟨s, h, i, j, k, h1, hc, (C85_not_bound32 good8 h (C85_range32 good8 h h1) (C85_range32 good8 h h2) _ _ _).1 h1⟩

/-- Double precision: width 8, the location `(0, 77/32)`. -/
example (v w : Pre bn254) : ∃ s, R1cs.compile 8 6 (R1cs.hinted64 bn254 v w) = some s ∧ ∃ I J K : ZMod bn254,
    s.Accepts 8 [((0 : ℕ) : ZMod bn254), ((0x4003400000000000 : ℕ) : ZMod bn254), ((15 : ℕ) : ZMod bn254), I, J, K] := by
  have G : Good bn254 8 f64 := goodField_bn254.2 8 ⟨by norm_num, by norm_num⟩
  obtain ⟨s, h, h2⟩ := C85_meaning64 G v w
  obtain ⟨L, hL⟩ := C74_libm_exists
  obtain ⟨_, _, -, -, i, j, k, hr⟩ := goodLng_runs G hL (n := 15) le_rfl
  exact ⟨s, h, i, j, k, (h2 _ _ _ _ _ _).2 ((C40_precompute64_exact G _ _ _ _ _ _ _ _ true).1 (Circ.sat_of_run _ _ hr))⟩

end ZkLoc
