import Verif.LocVectors
import Verif.VectorsSpec
import Verif.Props.MathVectors
import Verif.Props.CellNumbers
import Verif.Props.Accept

/-!
# Property C70: the table tests of the location circuits

What a passing table says about the cells it lists, for every table and every hint function, and what it does not say.
-/

namespace ZkLoc.Vectors
open ZkLoc.Bench ZkLoc.Text _root_.Text _root_.Vectors Ieee

/-! ### From rows to circuits -/

theorem honest_loc32 (v w : Pre bn254) (a b n i j m : ZMod bn254) :
    succeedsGroth16 f32 (precomputeCircuit32 v w a b n i j m) ↔ (precomputeCircuit32 v w a b n i j m).run 9 = some () := by
  obtain ⟨l, q, h⟩ := shape_precompute32 (p := bn254)
  unfold succeedsGroth16
  rw [acceptsHonest_iff (h v w a b n i j m), acceptsHonest_iff (h v w a b n i j m), (h (preOf f32 0 0 0 0) (preOf f32 0 0 0 0) 0 0 0 0 0 0).widths, width_precompute32,
    width_precompute32, and_self]

theorem honest_loc64 (v w : Pre bn254) (a b n i j m : ZMod bn254) :
    succeedsGroth16 f64 (precomputeCircuit64 v w a b n i j m) ↔ (precomputeCircuit64 v w a b n i j m).run 11 = some () := by
  obtain ⟨l, q, h⟩ := shape_precompute64 (p := bn254)
  unfold succeedsGroth16
  rw [acceptsHonest_iff (h v w a b n i j m), acceptsHonest_iff (h v w a b n i j m), (h (preOf f64 0 0 0 0) (preOf f64 0 0 0 0) 0 0 0 0 0 0).widths, width_precompute64,
    width_precompute64, and_self]

theorem readEntry_row {N : ℕ} {ws : List (List Char)} {x y n i j k : ℕ} (h : Row6 N ws x y n i j k) :
    readEntry ([' '].intercalate ws) = some ⟨x, y, n, i, j, k⟩ := by
  obtain ⟨hw, -, wx, wy, wn, wi, wj, wk, rest, rfl, h1, h2, h3, h4, h5, h6⟩ := h
  unfold readEntry
  rw [fields_words hw]
  simp [hex_setString h1, hex_setString h2, hex_setString h3, hex_setString h4, hex_setString h5, hex_setString h6]

theorem locLine32_iff {hint : ℤ → Pre bn254} {N : ℕ} {ws : List (List Char)} {x y n i j k : ℕ} (h : Row6 N ws x y n i j k) :
    locLine32 hint ([' '].intercalate ws) ↔
      (precomputeCircuit32 (hint x) (hint y) (x : ZMod bn254) (y : ZMod bn254) (n : ZMod bn254) (i : ZMod bn254) (j : ZMod bn254) (k : ZMod bn254)).run 9 = some () := by
  unfold locLine32
  rw [readEntry_row h]
  simp only [Int.cast_natCast, honest_loc32]

theorem locLine64_iff {hint : ℤ → Pre bn254} {h3 : ℕ → ℤ → ℤ → Option (ℤ × ℤ × ℤ)} {N : ℕ} {ws : List (List Char)} {x y n i j k : ℕ} (h : Row6 N ws x y n i j k) :
    locLine64 hint h3 ([' '].intercalate ws) ↔ (∃ c, h3 15 x y = some c) ∧
      (precomputeCircuit64 (hint x) (hint y) (x : ZMod bn254) (y : ZMod bn254) (n : ZMod bn254) (i : ZMod bn254) (j : ZMod bn254) (k : ZMod bn254)).run 11 = some () := by
  unfold locLine64
  rw [readEntry_row h]
  simp only [Int.cast_natCast, honest_loc64]
  cases h : h3 15 (x : ℤ) (y : ℤ) <;> simp

theorem lines32 {hint : ℤ → Pre bn254} {rows : List (List (List Char))} (hw : ∀ ws ∈ rows, ∀ w ∈ ws, Word w) :
    locTest32 hint (some (printTable rows)) ↔ ∀ ws ∈ rows, locLine32 hint ([' '].intercalate ws) := by
  simp [locTest32, scanLines_table hw]

theorem lines64 {hint : ℤ → Pre bn254} {h3 : ℕ → ℤ → ℤ → Option (ℤ × ℤ × ℤ)} {rows : List (List (List Char))} (hw : ∀ ws ∈ rows, ∀ w ∈ ws, Word w) :
    locTest64 hint h3 (some (printTable rows)) ↔ ∀ ws ∈ rows, locLine64 hint h3 ([' '].intercalate ws) := by
  simp [locTest64, scanLines_table hw]

theorem val_of_lt {N a : ℕ} (hN : N ≤ 64) (ha : a < 2 ^ N) : (a : ZMod bn254).val = a :=
  ZMod.val_natCast_of_lt (ha.trans (lt_of_le_of_lt (Nat.pow_le_pow_right (by norm_num) hN) (by decide +kernel)))

theorem cast_inj {N a b : ℕ} (hN : N ≤ 64) (ha : a < 2 ^ N) (hb : b < 2 ^ N) (h : (a : ZMod bn254) = (b : ZMod bn254)) : a = b := by
  have := congrArg ZMod.val h
  rwa [val_of_lt hN ha, val_of_lt hN hb] at this

/-- The cell is determined by the rest. -/
theorem tail_cell {b : ℕ} {f : Fmt} {g : GeoConsts} {cLat cLng : Pre bn254 → Circ bn254 Unit} {R I J K I' J' K' : ZMod bn254} {v w : Pre bn254}
    (h : (preTail f g cLat cLng R I J K v w).run b = some ()) (h' : (preTail f g cLat cLng R I' J' K' v w).run b = some ()) : I = I' ∧ J = J' ∧ K = K' := by
  unfold preTail at h h'
  simp only [Circ.bind_eq] at h h'
  obtain ⟨u1, e1, h⟩ := run_some_bind h
  obtain ⟨u1', d1, h'⟩ := run_some_bind h'
  obtain ⟨u2, e2, h⟩ := run_some_bind h
  obtain ⟨u2', d2, h'⟩ := run_some_bind h'
  obtain ⟨u3, e3, h⟩ := run_some_bind h
  obtain ⟨u3', d3, h'⟩ := run_some_bind h'
  obtain ⟨u4, e4, h⟩ := run_some_bind h
  obtain ⟨u4', d4, h'⟩ := run_some_bind h'
  obtain rfl := Option.some.inj (e3.symm.trans d3)
  obtain rfl := Option.some.inj (e4.symm.trans d4)
  obtain ⟨c, e5, h⟩ := run_some_bind h
  obtain ⟨c', d5, h'⟩ := run_some_bind h'
  obtain rfl := Option.some.inj (e5.symm.trans d5)
  have key : ∀ {A B C : ZMod bn254}, (assertCell c A B C).run b = some () → A = c.1 ∧ B = c.2.1 ∧ C = c.2.2 := by
    intro A B C hc
    have := Circ.sat_of_run (st := true) _ _ hc
    simpa [assertCell, assertIsEqual, Circ.bind_eq, Circ.sat_bind, Circ.Sat] using this
  obtain ⟨a1, a2, a3⟩ := key h
  obtain ⟨b1, b2, b3⟩ := key h'
  exact ⟨a1.trans b1.symm, a2.trans b2.symm, a3.trans b3.symm⟩

/-! ### What a passing row says -/

/-- **C70** `TestLoc2Index32`: if the hint function is within `τ` of the sines and cosines for the two angles, a row that passes lists a cell of the H3 grid at the location, up to
the error of C49. -/
theorem C70_row32 {hint : ℤ → Pre bn254} {rows : List (List (List Char))} (hw : ∀ ws ∈ rows, ∀ w ∈ ws, Word w) (ht : locTest32 hint (some (printTable rows)))
    {ws : List (List Char)} (hm : ws ∈ rows) {x y n i j k : ℕ} (h : Row6 32 ws x y n i j k) (hn : n ≤ 15) {τ φ l : ℝ} (hτ : 16 * (1 / 2 ^ 24) ≤ τ) (hτ' : τ ≤ 1 / 2 ^ 16)
    (h1 : HintNear f32 τ φ (hint x)) (h2 : HintNear f32 τ l (hint y)) :
    H3.CellAt (64 * τ) (768 * τ * Real.sqrt 7 ^ n) n φ l i j k := by
  have := (C49_precompute_numbers32 (goodField_bn254.1 9 ⟨by norm_num, by norm_num⟩) hτ hτ' h1 h2 hn ((locLine32_iff h).1 ((lines32 hw).1 ht ws hm))).1
  obtain ⟨-, -, hi, hj, hk⟩ := h.2.1
  rwa [val_of_lt (by norm_num) hi, val_of_lt (by norm_num) hj, val_of_lt (by norm_num) hk] at this

/-- **C70** The same for `TestLoc2Index64`. -/
theorem C70_row64 {hint : ℤ → Pre bn254} {h3 : ℕ → ℤ → ℤ → Option (ℤ × ℤ × ℤ)} {rows : List (List (List Char))} (hw : ∀ ws ∈ rows, ∀ w ∈ ws, Word w)
    (ht : locTest64 hint h3 (some (printTable rows))) {ws : List (List Char)} (hm : ws ∈ rows) {x y n i j k : ℕ} (h : Row6 64 ws x y n i j k) (hn : n ≤ 15) {τ φ l : ℝ}
    (hτ : 16 * (1 / 2 ^ 53) ≤ τ) (hτ' : τ ≤ 1 / 2 ^ 16) (h1 : HintNear f64 τ φ (hint x)) (h2 : HintNear f64 τ l (hint y)) :
    H3.CellAt (64 * τ) (768 * τ * Real.sqrt 7 ^ n) n φ l i j k := by
  have := (C49_precompute_numbers64 (goodField_bn254.2 11 ⟨by norm_num, by norm_num⟩) hτ hτ' h1 h2 hn ((locLine64_iff h).1 ((lines64 hw).1 ht ws hm)).2).1
  obtain ⟨-, -, hi, hj, hk⟩ := h.2.1
  rwa [val_of_lt (by norm_num) hi, val_of_lt (by norm_num) hj, val_of_lt (by norm_num) hk] at this

/-- **C70** A table that passes is a function: rows with the same location and resolution list the same cell, whatever the hint function. -/
theorem C70_functional32 {hint : ℤ → Pre bn254} {rows : List (List (List Char))} (hw : ∀ ws ∈ rows, ∀ w ∈ ws, Word w) (ht : locTest32 hint (some (printTable rows)))
    {ws ws' : List (List Char)} (hm : ws ∈ rows) (hm' : ws' ∈ rows) {x y n i j k i' j' k' : ℕ} (h : Row6 32 ws x y n i j k) (h' : Row6 32 ws' x y n i' j' k') :
    i = i' ∧ j = j' ∧ k = k' := by
  have r := (locLine32_iff h).1 ((lines32 hw).1 ht ws hm)
  have r' := (locLine32_iff h').1 ((lines32 hw).1 ht ws' hm')
  obtain ⟨-, -, hi, hj, hk⟩ := h.2.1
  obtain ⟨-, -, hi', hj', hk'⟩ := h'.2.1
  unfold precomputeCircuit32 at r r'
  simp only [Circ.bind_eq] at r r'
  obtain ⟨_, _, r⟩ := run_some_bind r
  obtain ⟨_, e1, r⟩ := run_some_bind r
  obtain ⟨_, e2, r⟩ := run_some_bind r
  obtain ⟨_, _, r'⟩ := run_some_bind r'
  obtain ⟨_, d1, r'⟩ := run_some_bind r'
  obtain ⟨_, d2, r'⟩ := run_some_bind r'
  obtain rfl := Option.some.inj (e1.symm.trans d1)
  obtain rfl := Option.some.inj (e2.symm.trans d2)
  obtain ⟨a1, a2, a3⟩ := tail_cell r r'
  exact ⟨cast_inj (by norm_num) hi hi' a1, cast_inj (by norm_num) hj hj' a2, cast_inj (by norm_num) hk hk' a3⟩

/-- **C70** The same for double precision. -/
theorem C70_functional64 {hint : ℤ → Pre bn254} {h3 : ℕ → ℤ → ℤ → Option (ℤ × ℤ × ℤ)} {rows : List (List (List Char))} (hw : ∀ ws ∈ rows, ∀ w ∈ ws, Word w)
    (ht : locTest64 hint h3 (some (printTable rows))) {ws ws' : List (List Char)} (hm : ws ∈ rows) (hm' : ws' ∈ rows) {x y n i j k i' j' k' : ℕ}
    (h : Row6 64 ws x y n i j k) (h' : Row6 64 ws' x y n i' j' k') : i = i' ∧ j = j' ∧ k = k' := by
  have r := ((locLine64_iff h).1 ((lines64 hw).1 ht ws hm)).2
  have r' := ((locLine64_iff h').1 ((lines64 hw).1 ht ws' hm')).2
  obtain ⟨-, -, hi, hj, hk⟩ := h.2.1
  obtain ⟨-, -, hi', hj', hk'⟩ := h'.2.1
  unfold precomputeCircuit64 at r r'
  simp only [Circ.bind_eq] at r r'
  obtain ⟨_, _, r⟩ := run_some_bind r
  obtain ⟨_, _, r⟩ := run_some_bind r
  obtain ⟨_, _, r⟩ := run_some_bind r
  obtain ⟨_, e1, r⟩ := run_some_bind r
  obtain ⟨_, e2, r⟩ := run_some_bind r
  obtain ⟨_, _, r'⟩ := run_some_bind r'
  obtain ⟨_, _, r'⟩ := run_some_bind r'
  obtain ⟨_, _, r'⟩ := run_some_bind r'
  obtain ⟨_, d1, r'⟩ := run_some_bind r'
  obtain ⟨_, d2, r'⟩ := run_some_bind r'
  obtain rfl := Option.some.inj (e1.symm.trans d1)
  obtain rfl := Option.some.inj (e2.symm.trans d2)
  obtain ⟨a1, a2, a3⟩ := tail_cell r r'
  exact ⟨cast_inj (by norm_num) hi hi' a1, cast_inj (by norm_num) hj hj' a2, cast_inj (by norm_num) hk hk' a3⟩

/-! ### What it does not say -/

/-- **C70** (violated) `TestLoc2Index32` passing says nothing about soundness: for every row that passes, the same compiled circuit accepts the listed cell for every other location
in range, under every back-end (the prover chooses other hint values). -/
theorem C70_forgeable32 {hint : ℤ → Pre bn254} {rows : List (List (List Char))} (hw : ∀ ws ∈ rows, ∀ w ∈ ws, Word w) (ht : locTest32 hint (some (printTable rows)))
    {ws : List (List Char)} (hm : ws ∈ rows) {x y n i j k : ℕ} (h : Row6 32 ws x y n i j k) (be : Backend) (st : Bool) (h1 h2 : Pre bn254) {Lat Lng : ZMod bn254}
    (hin : InRange f32 geo32 Lat Lng (n : ZMod bn254)) :
    Accepts be st 0 f32.pow2Size (precomputeCircuit32 h1 h2 Lat Lng (n : ZMod bn254) i j k) () := by
  have G : Good bn254 9 f32 := goodField_bn254.1 9 ⟨by norm_num, by norm_num⟩
  have r := Circ.sat_of_run (st := st) _ _ ((locLine32_iff h).1 ((lines32 hw).1 ht ws hm))
  rw [C40_width32]
  exact (C40_precompute32_exact G _ _ _ _ _ _ _ _ _).2 ⟨hin, ((C40_precompute32_exact G _ _ _ _ _ _ _ _ _).1 r).2⟩

/-- **C70** (violated) The same for double precision. -/
theorem C70_forgeable64 {hint : ℤ → Pre bn254} {h3 : ℕ → ℤ → ℤ → Option (ℤ × ℤ × ℤ)} {rows : List (List (List Char))} (hw : ∀ ws ∈ rows, ∀ w ∈ ws, Word w)
    (ht : locTest64 hint h3 (some (printTable rows))) {ws : List (List Char)} (hm : ws ∈ rows) {x y n i j k : ℕ} (h : Row6 64 ws x y n i j k) (be : Backend) (st : Bool)
    (h1 h2 : Pre bn254) {Lat Lng : ZMod bn254} (hin : InRange f64 geo64 Lat Lng (n : ZMod bn254)) :
    Accepts be st 0 f64.pow2Size (precomputeCircuit64 h1 h2 Lat Lng (n : ZMod bn254) i j k) () := by
  have G : Good bn254 11 f64 := goodField_bn254.2 11 ⟨by norm_num, by norm_num⟩
  have r := Circ.sat_of_run (st := st) _ _ ((locLine64_iff h).1 ((lines64 hw).1 ht ws hm)).2
  rw [C40_width64]
  exact (C40_precompute64_exact G _ _ _ _ _ _ _ _ _).2 ⟨hin, ((C40_precompute64_exact G _ _ _ _ _ _ _ _ _).1 r).2⟩

/-- **C70** A row outside the range (a resolution above 15, a latitude above π/2, a longitude above π, a pattern too long) never passes; nothing else about the location is tested. -/
theorem C70_range {hint : ℤ → Pre bn254} {h3 : ℕ → ℤ → ℤ → Option (ℤ × ℤ × ℤ)} {N : ℕ} {ws : List (List Char)} {x y n i j k : ℕ} (h : Row6 N ws x y n i j k) :
    (locLine32 hint ([' '].intercalate ws) → InRange f32 geo32 (x : ZMod bn254) (y : ZMod bn254) (n : ZMod bn254)) ∧
    (locLine64 hint h3 ([' '].intercalate ws) → InRange f64 geo64 (x : ZMod bn254) (y : ZMod bn254) (n : ZMod bn254)) := by
  constructor
  · intro hl
    have r := Circ.sat_of_run (st := true) _ _ ((locLine32_iff h).1 hl)
    exact ((C40_precompute32_exact (goodField_bn254.1 9 ⟨by norm_num, by norm_num⟩) _ _ _ _ _ _ _ _ _).1 r).1
  · intro hl
    have r := Circ.sat_of_run (st := true) _ _ ((locLine64_iff h).1 hl).2
    exact ((C40_precompute64_exact (goodField_bn254.2 11 ⟨by norm_num, by norm_num⟩) _ _ _ _ _ _ _ _ _).1 r).1

/-- **C70** Without the external program (the directory is empty in the repository) no table with at least one line passes `TestLoc2Index64`, although the answer of the program is
not used: with a program that always answers, the answers do not matter. -/
theorem C70_program {hint : ℤ → Pre bn254} {text : List Char} :
    (scanLines text ≠ [] → ¬ locTest64 hint (fun _ _ _ => none) (some text)) ∧
    ∀ h3 h3' : ℕ → ℤ → ℤ → Option (ℤ × ℤ × ℤ), (∀ a b, (h3 15 a b).isSome = (h3' 15 a b).isSome) →
      (locTest64 hint h3 (some text) ↔ locTest64 hint h3' (some text)) := by
  constructor
  · intro hne ht
    obtain ⟨line, hl⟩ := List.exists_mem_of_ne_nil _ hne
    have := ht line hl
    unfold locLine64 at this
    cases h : readEntry line <;> simp [h] at this
  · intro h3 h3' he
    have key : ∀ line, locLine64 hint h3 line ↔ locLine64 hint h3' line := by
      intro line
      unfold locLine64
      cases readEntry line with
      | none => rfl
      | some e =>
        have := he e.lat e.lng
        cases h1 : h3 15 e.lat e.lng <;> cases h2 : h3' 15 e.lat e.lng <;> simp_all
    simp [locTest64, key]

/-! ### Concrete case: a table of one row (latitude 0, longitude `77/32`, resolution 5) -/

/-- The row `00000000 401A0000 5 0 1E A`. -/
def exRow : List (List Char) := ["00000000".toList, "401A0000".toList, "5".toList, "0".toList, "1E".toList, "A".toList]
/-- The hint values of `Props/Precompute.lean`. -/
def exHint (v : ℤ) : Pre bn254 := if v = 0 then exHintLat else exHintLng

theorem exRow_row : Row6 32 exRow 0 0x401A0000 5 0 30 10 := by
  refine ⟨wordCheck (by decide), by decide, _, _, _, _, _, _, [], rfl, ?_, ?_, ?_, ?_, ?_, ?_⟩ <;> exact hex_of (by decide) (by decide)

theorem exRow_passes : locTest32 exHint (some (printTable [exRow])) := by
  have hw : ∀ ws ∈ [exRow], ∀ w ∈ ws, Word w := by intro ws h; rw [List.mem_singleton.1 h]; exact exRow_row.1
  refine (lines32 hw).2 fun ws h => ?_
  rw [List.mem_singleton.1 h]
  exact (locLine32_iff exRow_row).2 (by have := exPrecomputeRun; simpa [exHint] using this)

example : H3.CellAt (64 * (1 / 2 ^ 17)) (768 * (1 / 2 ^ 17) * Real.sqrt 7 ^ 5) 5 0 (77 / 32) (0 : ℕ) (30 : ℕ) (10 : ℕ) :=
  C70_row32 (by intro ws h; rw [List.mem_singleton.1 h]; exact exRow_row.1) exRow_passes (List.mem_singleton.2 rfl) exRow_row (by norm_num) (by norm_num) (by norm_num)
    (by simpa [exHint] using exHintLat_near) (by simpa [exHint] using exHintLng_near)

end ZkLoc.Vectors
