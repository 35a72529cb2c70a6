import Verif.LibmCheck
import Verif.Props.LocRows
import Verif.Props.Ground
import Verif.Props.Bench

/-!
# Property theorems C82: the tables of locations in /repo/data against exact geometry

The cells listed in the two files are what H3's program answered. The specification of the exact geometry (Spec/Gnomonic.lean) is evaluated on every row, in interval arithmetic.
-/

namespace ZkLoc.Vectors
open ZkLoc.Bench ZkLoc.Hints Ieee

/-! ### The lines of the files -/

/-- The entry of a row. -/
def entryOf (q : ℕ × ℕ × ℕ × ℕ × ℕ × ℕ) : Bench.Entry := ⟨q.1, q.2.1, q.2.2.1, q.2.2.2.1, q.2.2.2.2.1, q.2.2.2.2.2⟩

theorem locText_lines (w : ℕ) (rows : List (ℕ × ℕ × ℕ × ℕ × ℕ × ℕ)) :
    (∀ line ∈ scanLines (locText w rows), ∃ q ∈ rows, readEntry line = some (entryOf q)) ∧ ∀ q ∈ rows, ∃ line ∈ scanLines (locText w rows), readEntry line = some (entryOf q) := by
  induction rows with
  | nil => exact ⟨fun line h => by simp [locText, scanLines, scanAux] at h, fun q h => by simp at h⟩
  | cons q l ih =>
    obtain ⟨t, h1, h2, h3, h4⟩ := readEntry_line w q.1 q.2.1 q.2.2.1 q.2.2.2.1 q.2.2.2.2.1 q.2.2.2.2.2
    have e : scanLines (locText w (q :: l)) = t :: scanLines (locText w l) := by
      unfold locText
      rw [List.flatMap_cons, h1, List.append_assoc, List.singleton_append, scanLines_line h2 h3]
    rw [e]
    constructor
    · intro line hm
      rcases List.mem_cons.1 hm with rfl | hm
      · exact ⟨q, List.mem_cons_self, h4⟩
      · obtain ⟨q', hq', h'⟩ := ih.1 line hm
        exact ⟨q', List.mem_cons_of_mem _ hq', h'⟩
    · intro q' hm
      rcases List.mem_cons.1 hm with rfl | hm
      · exact ⟨t, List.mem_cons_self, h4⟩
      · obtain ⟨line, hl, h'⟩ := ih.2 q' hm
        exact ⟨line, List.mem_cons_of_mem _ hl, h'⟩

theorem inside_scale {D E : ℤ} {δ ε : ℝ} {f : Fmt} {q : ℕ × ℕ × ℕ × ℕ × ℕ × ℕ} {φ l : ℝ} (h : RowInside f (D / 2 ^ 80) (E / 2 ^ 80) q φ l) (hδ : δ ≤ D / 2 ^ 80) (hε : ε ≤ E / 2 ^ 80) :
    RowInside f δ ε q φ l :=
  { h with inside := inside_mono h.inside hδ hε, far := fun F hF => lt_of_le_of_lt hδ (h.far F hF) }

theorem rows64_inside {q : ℕ × ℕ × ℕ × ℕ × ℕ × ℕ} (hq : q ∈ locRows64) :
    RowInside f64 (1 / 20) (1 / 10) q ((fixedOf f64 q.1 : ℝ) / 2 ^ 80) ((fixedOf f64 q.2.1 : ℝ) / 2 ^ 80) :=
  inside_scale (rowCheck_sound (rows64_checked q hq)) (by norm_num) (by norm_num)

theorem rows32_inside {q : ℕ × ℕ × ℕ × ℕ × ℕ × ℕ} (hq : q ∈ locRows32) :
    RowInside f32 (1 / 20) (if q.2.2.1 ≤ 14 then 19 / 200 else 2 / 25) q ((fixedOf f32 q.1 : ℝ) / 2 ^ 80) ((fixedOf f32 q.2.1 : ℝ) / 2 ^ 80) := by
  refine inside_scale (rowCheck_sound (rows32_checked q hq)) (by norm_num) ?_
  split <;> norm_num

/-! ### The listed cells are right -/

/-- **C82** Each of the 144 lines of /repo/data/f64/loc2index64.txt lists the cell that contains its location in exact geometry: the face is nearer than every other one by more than `1/20` in squared
distance, and the projected point is inside the hexagon, farther than a tenth of the grid unit from its sides. -/
theorem C82_table64 : ∃ es, readEntries locText64 = some es ∧ es.length = 144 ∧ ∀ e ∈ es, ∃ (Lat Lng n i j k : ℕ) (φ l : ℝ), e = ⟨Lat, Lng, n, i, j, k⟩ ∧ n ≤ 15 ∧
    PatternOf f64 Lat φ ∧ PatternOf f64 Lng l ∧ H3.Inside (1 / 20) (1 / 10) n φ l i j k := by
  refine ⟨_, C63_roundtrip 16 locRows64, by rw [List.length_map]; decide +kernel, fun e he => ?_⟩
  obtain ⟨q, hq, rfl⟩ := List.mem_map.1 he
  have h := rows64_inside hq
  exact ⟨_, _, _, _, _, _, _, _, rfl, h.res, h.lat, h.lng, by exact_mod_cast h.inside⟩

/-- **C82** The same for the 144 lines of /repo/data/f32/loc2index32.txt, with a margin of `2/25`. -/
theorem C82_table32 : ∃ es, readEntries locText32 = some es ∧ es.length = 144 ∧ ∀ e ∈ es, ∃ (Lat Lng n i j k : ℕ) (φ l : ℝ), e = ⟨Lat, Lng, n, i, j, k⟩ ∧ n ≤ 15 ∧
    PatternOf f32 Lat φ ∧ PatternOf f32 Lng l ∧ H3.Inside (1 / 20) (2 / 25) n φ l i j k := by
  refine ⟨_, C63_roundtrip 8 locRows32, by rw [List.length_map]; decide +kernel, fun e he => ?_⟩
  obtain ⟨q, hq, rfl⟩ := List.mem_map.1 he
  have h := rows32_inside hq
  refine ⟨_, _, _, _, _, _, _, _, rfl, h.res, h.lat, h.lng, ?_⟩
  have := h.inside
  exact_mod_cast inside_mono this le_rfl (by split <;> norm_num)

/-! ### What the tests do with them -/

theorem sqrt7_le_pow {n m : ℕ} (h : n ≤ m) : Real.sqrt 7 ^ n ≤ Real.sqrt 7 ^ m :=
  pow_le_pow_right₀ (Real.one_le_sqrt.2 (by norm_num)) h

theorem sqrt7_15 : Real.sqrt 7 ^ 15 ≤ 7 ^ 8 := by
  refine (sqrt7_le_pow (show 15 ≤ 16 by norm_num)).trans (le_of_eq ?_)
  rw [show 16 = 2 * 8 by norm_num, pow_mul, Real.sq_sqrt (by norm_num)]

variable {p : ℕ} [Fact p.Prime] {b : ℕ} {L : Libm} {ε : ℝ}

/-- Double precision: with a correctly rounded library the honest prover has exactly the listed cell accepted. -/
theorem row64_iff (G : Good p b f64) (hL : L.CorrectlyRounded) {q : ℕ × ℕ × ℕ × ℕ × ℕ × ℕ} (hq : q ∈ locRows64) {hLat hLng : Pre p}
    (H1 : PrecomputeHint64 L (q.1 : ZMod p) hLat) (H2 : PrecomputeHint64 L (q.2.1 : ZMod p) hLng) (I J K : ZMod p) :
    (precomputeCircuit64 hLat hLng (q.1 : ZMod p) (q.2.1 : ZMod p) (q.2.2.1 : ZMod p) I J K).run b = some () ↔
      I = (q.2.2.2.1 : ℕ) ∧ J = (q.2.2.2.2.1 : ℕ) ∧ K = (q.2.2.2.2.2 : ℕ) := by
  have h := rows64_inside hq
  have hT := (sqrt7_le_pow h.res).trans sqrt7_15
  have hin : H3.Inside (64 / 2 ^ 49) (768 / 2 ^ 49 * Real.sqrt 7 ^ q.2.2.1) q.2.2.1 _ _ _ _ _ := inside_mono h.inside (by norm_num) (by
    refine (mul_le_mul_of_nonneg_left hT (by norm_num)).trans (by norm_num))
  constructor
  · intro hr
    have := C77_interior_exact64 G hL h.lat h.lng (h.latB.trans (by norm_num)) (h.lngB.trans (by norm_num)) H1 H2 h.res hin hr
    simpa using this
  · rintro ⟨rfl, rfl, rfl⟩
    obtain ⟨i, j, k, hr, hc⟩ := C75_location_complete_rounded64_partial G hL h.lat h.lng (h.latB.trans (by norm_num)) (h.lngB.trans (by norm_num)) H1 H2 h.res
      (fun F hF => lt_trans (by norm_num) (h.far F hF)) (tanCheck_sound G hL (lngs_checked q hq) h.lng rfl (fixedOf_half _) H2)
    rw [mul_one_div, mul_one_div] at hc
    obtain ⟨rfl, rfl, rfl⟩ := H3.inside_unique hin hc
    simpa using hr

/-- **C82** `TestLoc2Index64` passes on the repository's table, if sine, cosine and tangent are correctly rounded and the external program answers. -/
theorem C82_test64 (hL : L.CorrectlyRounded) {hint : ℤ → Pre bn254} (hh : ∀ (v : ℕ) (x : ℝ), PatternOf f64 v x → PrecomputeHint64 L (v : ZMod bn254) (hint v))
    {h3 : ℕ → ℤ → ℤ → Option (ℤ × ℤ × ℤ)} (hp : ∀ a c, (h3 15 a c).isSome) : locTest64 hint h3 (some locText64) := by
  intro line hl
  obtain ⟨q, hq, he⟩ := (locText_lines 16 locRows64).1 line hl
  have h := rows64_inside hq
  unfold locLine64
  rw [he]
  obtain ⟨c, hc⟩ := Option.isSome_iff_exists.1 (hp q.1 q.2.1)
  simp only [entryOf, hc, Int.cast_natCast, honest_loc64]
  exact (row64_iff (goodField_bn254.2 11 ⟨by norm_num, by norm_num⟩) hL hq (hh _ _ h.lat) (hh _ _ h.lng) _ _ _).2 ⟨rfl, rfl, rfl⟩

/-- **C82** In every field and at every width, for the location and resolution of each line, the honest prover of the double-precision circuit has the listed cell accepted and no other. -/
theorem C82_cells64 (G : Good p b f64) (hL : L.CorrectlyRounded) : ∀ line ∈ scanLines locText64, ∃ Lat Lng n i j k : ℕ, readEntry line = some ⟨Lat, Lng, n, i, j, k⟩ ∧
    ∀ hLat hLng : Pre p, PrecomputeHint64 L (Lat : ZMod p) hLat → PrecomputeHint64 L (Lng : ZMod p) hLng → ∀ I J K : ZMod p,
      ((precomputeCircuit64 hLat hLng (Lat : ZMod p) (Lng : ZMod p) (n : ZMod p) I J K).run b = some () ↔ I = i ∧ J = j ∧ K = k) := by
  intro line hl
  obtain ⟨q, hq, he⟩ := (locText_lines 16 locRows64).1 line hl
  exact ⟨_, _, _, _, _, _, he, fun hLat hLng H1 H2 => row64_iff G hL hq H1 H2⟩

theorem row32_iff (G : Good p b f32) (acc : L.Accurate ε) (h0 : 0 ≤ ε) (h1 : ε ≤ 1 / 2 ^ 28) {q : ℕ × ℕ × ℕ × ℕ × ℕ × ℕ} (hq : q ∈ locRows32) (h5 : q.2.2.1 ≤ 5) {hLat hLng : Pre p}
    (H1 : PrecomputeHint32 L (q.1 : ZMod p) hLat) (H2 : PrecomputeHint32 L (q.2.1 : ZMod p) hLng) (I J K : ZMod p) :
    (precomputeCircuit32 hLat hLng (q.1 : ZMod p) (q.2.1 : ZMod p) (q.2.2.1 : ZMod p) I J K).run b = some () ↔
      I = (q.2.2.2.1 : ℕ) ∧ J = (q.2.2.2.2.1 : ℕ) ∧ K = (q.2.2.2.2.2 : ℕ) := by
  have h := rows32_inside hq
  rw [if_pos (by omega)] at h
  have hT := sqrt7_le_pow h5
  rw [show Real.sqrt 7 ^ 5 = (Real.sqrt 7 ^ 2) ^ 2 * Real.sqrt 7 by ring, Real.sq_sqrt (by norm_num)] at hT
  have hs := sqrt_bounds.2.1
  have hin : H3.Inside (64 / 2 ^ 20) (768 / 2 ^ 20 * Real.sqrt 7 ^ q.2.2.1) q.2.2.1 _ _ _ _ _ := inside_mono h.inside (by norm_num) (by
    refine (mul_le_mul_of_nonneg_left (hT.trans (mul_le_mul_of_nonneg_left hs (by norm_num))) (by norm_num)).trans (by norm_num))
  have := C77_interior_iff32 G acc h0 h1 h.lat h.lng (h.latB.trans (by norm_num)) (h.lngB.trans (by norm_num)) H1 H2 h.res (fun F hF => lt_trans (by norm_num) (h.far F hF)) hin I J K
  simpa using this

/-- **C82** Single precision: the 54 lines with resolution at most 5 pass `TestLoc2Index32`, for every library with relative error at most `2^-28`. -/
theorem C82_lines32 (acc : L.Accurate ε) (h0 : 0 ≤ ε) (h1 : ε ≤ 1 / 2 ^ 28) {hint : ℤ → Pre bn254}
    (hh : ∀ (v : ℕ) (x : ℝ), PatternOf f32 v x → |x| ≤ 4 → PrecomputeHint32 L (v : ZMod bn254) (hint v)) :
    (locRows32.filter (fun q => q.2.2.1 ≤ 5)).length = 54 ∧ ∀ line ∈ scanLines locText32, ∀ e, readEntry line = some e → e.res ≤ 5 → locLine32 hint line := by
  refine ⟨by decide +kernel, fun line hl e he h5 => ?_⟩
  obtain ⟨q, hq, he'⟩ := (locText_lines 8 locRows32).1 line hl
  obtain rfl := Option.some.inj (he.symm.trans he')
  have h := rows32_inside hq
  unfold locLine32
  rw [he]
  simp only [entryOf, Int.cast_natCast, honest_loc32]
  exact (row32_iff (goodField_bn254.1 9 ⟨by norm_num, by norm_num⟩) acc h0 h1 hq (by simpa [entryOf] using h5) (hh _ _ h.lat (h.latB.trans (by norm_num)))
    (hh _ _ h.lng (h.lngB.trans (by norm_num))) _ _ _).2 ⟨rfl, rfl, rfl⟩

/-- **C82** The circuit without hints, single precision: for the lines with resolution at most 3 the honest prover has the listed cell accepted and no other, in every field and at every width. -/
theorem C82_wrapper32 (G : Good p b f32) : ∀ line ∈ scanLines locText32, ∃ Lat Lng n i j k : ℕ, readEntry line = some ⟨Lat, Lng, n, i, j, k⟩ ∧ (n ≤ 3 → ∀ I J K : ZMod p,
    ((wrapperCircuit f32 consts32 sinDenoms32 geo32 (Lat : ZMod p) (Lng : ZMod p) (n : ZMod p) I J K).run b = some () ↔ I = i ∧ J = j ∧ K = k)) := by
  intro line hl
  obtain ⟨q, hq, he⟩ := (locText_lines 8 locRows32).1 line hl
  refine ⟨_, _, _, _, _, _, he, fun hn I J K => ?_⟩
  have h := rows32_inside hq
  rw [if_pos (by omega)] at h
  have hT := sqrt7_le_pow hn
  rw [show Real.sqrt 7 ^ 3 = Real.sqrt 7 ^ 2 * Real.sqrt 7 by ring, Real.sq_sqrt (by norm_num)] at hT
  have hs := sqrt_bounds.2.1
  have hin : H3.Inside (64 * (96 / 2 ^ 24)) (768 * (96 / 2 ^ 24) * Real.sqrt 7 ^ q.2.2.1) q.2.2.1 _ _ _ _ _ := inside_mono h.inside (by norm_num) (by
    refine (mul_le_mul_of_nonneg_left (hT.trans (mul_le_mul_of_nonneg_left hs (by norm_num))) (by norm_num)).trans (by norm_num))
  have := C77_wrapper_iff32 G h.lat h.lng (h.latB.trans (by norm_num)) (h.lngB.trans (by norm_num)) h.res (fun F hF => lt_trans (by norm_num) (h.far F hF)) hin I J K
  simpa using this

/-- A line matters only through the numbers in it. -/
theorem locLine32_congr {hint : ℤ → Pre bn254} {l l' : List Char} (h : readEntry l = readEntry l') : locLine32 hint l ↔ locLine32 hint l' := by
  unfold locLine32; rw [h]

/-- **C82** (violated) `TestLoc2Index32` fails on the repository's own table, at its last lines of resolution 15, for every hint function with correctly rounded values: although the listed cell is
right (`C82_table32`). -/
theorem C82_test32_fails {hint : ℤ → Pre bn254} (h1 : HintRounded f32 rowLat (hint 0x3F35CD0B)) (h2 : HintRounded f32 rowLng (hint 0x3F13A4DD)) :
    ¬ locTest32 hint (some locText32) := by
  intro ht
  obtain ⟨line, hl, he⟩ := (locText_lines 8 locRows32).2 (0x3F35CD0B, 0x3F13A4DD, 15, 0x179BA4, 0, 0x16EDD5) (by decide +kernel)
  have hs : scanLines ("3F35CD0B 3F13A4DD F 179BA4 0 16EDD5".toList ++ ['\n']) = ["3F35CD0B 3F13A4DD F 179BA4 0 16EDD5".toList] := by decide +kernel
  refine C70_repository_row_fails32 h1 h2 (text := "3F35CD0B 3F13A4DD F 179BA4 0 16EDD5".toList ++ ['\n']) (by rw [hs]; exact List.mem_singleton_self _) ?_
  intro l hm
  rw [hs, List.mem_singleton] at hm
  rw [hm]
  refine (locLine32_congr ?_).1 (ht line hl)
  rw [he]
  decide +kernel

/-! ### The hypotheses can be met -/

/-- There are hint functions with the values of a correctly rounded library. -/
example : ∃ (L : Libm) (hint : ℤ → Pre bn254), L.CorrectlyRounded ∧ ∀ (v : ℕ) (x : ℝ), PatternOf f64 v x → PrecomputeHint64 L (v : ZMod bn254) (hint v) := by
  obtain ⟨L, hL⟩ := C74_libm_exists
  have G : Good bn254 11 f64 := goodField_bn254.2 11 ⟨by norm_num, by norm_num⟩
  classical
  refine ⟨L, fun z => if h : ∃ (v : ℕ) (x : ℝ), z = v ∧ PatternOf f64 v x then (C74_hint_exists64 G L h.choose_spec.choose_spec.2).choose else ⟨⟨0, 0, 0, 0⟩, ⟨0, 0, 0, 0⟩, ⟨0, 0, 0, 0⟩, ⟨0, 0, 0, 0⟩⟩, hL, fun v x hv => ?_⟩
  have h : ∃ (v' : ℕ) (x : ℝ), (v : ℤ) = v' ∧ PatternOf f64 v' x := ⟨v, x, rfl, hv⟩
  simp only [dif_pos h]
  have e : h.choose = v := by exact_mod_cast h.choose_spec.choose_spec.1.symm
  have := (C74_hint_exists64 G L h.choose_spec.choose_spec.2).choose_spec
  conv at this => lhs; rw [e]
  exact this

/-- The first line of the double-precision table: resolution 0, cell `(1, 0, 1)`, latitude and longitude about 0.692 and 0.710. -/
example : H3.Inside (1 / 20) (1 / 10) 0 (0x1623F7DA85E88F / 2 ^ 53) (0x16B53378DD4F86 / 2 ^ 53) 1 0 1 := by
  have h := (rows64_inside (q := (0x3FE623F7DA85E88F, 0x3FE6B53378DD4F86, 0, 1, 0, 1)) (by decide)).inside
  have e1 : (fixedOf f64 0x3FE623F7DA85E88F : ℝ) / 2 ^ 80 = 0x1623F7DA85E88F / 2 ^ 53 := by
    rw [show fixedOf f64 0x3FE623F7DA85E88F = 0x1623F7DA85E88F * 2 ^ 27 by decide +kernel]; norm_num
  have e2 : (fixedOf f64 0x3FE6B53378DD4F86 : ℝ) / 2 ^ 80 = 0x16B53378DD4F86 / 2 ^ 53 := by
    rw [show fixedOf f64 0x3FE6B53378DD4F86 = 0x16B53378DD4F86 * 2 ^ 27 by decide +kernel]; norm_num
  simpa [e1, e2] using h

end ZkLoc.Vectors
