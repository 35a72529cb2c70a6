import Verif.Shape
import Verif.Props.RangeCheck

/-!
# Properties C08, C09, C10: deferred commitment, automatic table width, cost counters
-/

namespace ZkLoc

variable {p : ℕ} {α : Type}

/-! ### C08 -/

/-- **C08** For every circuit whose records do not depend on wire values (all circuits of the repository,
`Verif/Shape.lean`): some prover satisfies the constraint system with *deferred* checks iff some prover
satisfies the system with each check made on the spot, at the base width `commit` selects. -/
theorem C08_deferred_equals_immediate {be : Backend} {st : Bool} {size s : ℕ} {c : Circ p α} {r : α}
    {l : List (ℕ × Mode)} {q : ℕ} (hs : HasShape s c l q) :
    Accepts be st size s c r ↔ c.Sat (baseLength be size (l.map Prod.fst)) st r := accepts_iff hs

/-- **C08** The same for the honest prover. -/
theorem C08_deferred_equals_immediate_honest {be : Backend} {size s : ℕ} {c : Circ p α} {r : α}
    {l : List (ℕ × Mode)} {q : ℕ} (hs : HasShape s c l q) :
    AcceptsHonest be size s c r ↔ c.run (baseLength be size (l.map Prod.fst)) = some r := acceptsHonest_iff hs

/-- The numeric meaning of an entry at base width `b` (see C05, C06, C07). -/
def Entry.InRange (b : ℕ) (e : Entry p) : Prop :=
  match e.mode with
  | .loose => ∀ L, IsLimbCount b e.bits L → e.v.val < 2 ^ (L * b)
  | .unknown => e.v.val < 2 ^ e.bits
  | .smallAbs => ∀ L, IsLimbCount b e.bits L → (e.v * 2 ^ (L * b - e.bits)).val < 2 ^ (L * b)

/-- **C08** What `commit` enforces on an arbitrary list of recorded entries: each of them is in range, and
nothing else. -/
theorem C08_commit_enforces_all [Fact p.Prime] {be : Backend} {c : Checker p} (hc : c.closed = false) {b : ℕ}
    (hb : b = baseLength be c.size (c.collected.map Entry.bits)) (hb0 : 0 < b) (hp : 2 ^ (2 * b) ≤ p)
    (hbits : ∀ e ∈ c.collected, 0 < e.bits) :
    commitSat (c.commit be).1 ↔ ∀ e ∈ c.collected, e.InRange b := by
  rw [commit_sat hc, ← hb]
  refine forall₂_congr fun e he => ?_
  have hn := hbits e he
  have hL := isLimbCount_decompSize hb0 hn
  have hall : ∀ {P : ℕ → Prop}, (∀ L, IsLimbCount b e.bits L → P L) ↔ P (decompSize e.bits b) := by
    intro P
    exact ⟨fun h => h _ hL, fun h L hL' => by rw [hL'.eq hb0 hn]; exact h⟩
  unfold Entry.InRange
  cases hm : e.mode with
  | loose => simp only; rw [hall, C05_loose_accepts_iff hb0 hn hL]
  | unknown => simp only; exact C06_unknown_exact hb0 hn hp _
  | smallAbs => simp only; rw [hall, C07_smallAbs_accepts_iff hb0 hn hL]

theorem nbDecomposed_perm {j : ℕ} {l l' : List ℕ} (h : l.Perm l') : nbDecomposed j l = nbDecomposed j l' :=
  (h.map _).sum_eq

theorem baseLength_perm {be : Backend} {size : ℕ} {l l' : List ℕ} (h : l.Perm l') :
    baseLength be size l = baseLength be size l' := by
  unfold baseLength getOptimalBasewidth nbR1CSConstraints nbPLONKConstraints
  cases be <;> simp only [nbDecomposed_perm h, h.length_eq]

/-- **C08** The order in which entries were recorded does not matter. -/
theorem C08_order_independent {be : Backend} {c d : Checker p} (hc : c.closed = false) (hd : d.closed = false)
    (hs : c.size = d.size) (h : c.collected.Perm d.collected) :
    commitSat (c.commit be).1 ↔ commitSat (d.commit be).1 := by
  rw [commit_sat hc, commit_sat hd, hs, baseLength_perm (h.map _)]
  exact ⟨fun H e he => H e (h.mem_iff.2 he), fun H e he => H e (h.mem_iff.1 he)⟩

/-- **C08** A second `commit` emits nothing and changes nothing. -/
theorem C08_commit_twice (be : Backend) (c : Checker p) :
    (c.commit be).2.commit be = (none, (c.commit be).2) := by
  unfold Checker.commit
  cases hc : c.closed
  · by_cases h : c.collected.length = 0 <;> simp [h]
  · simp [hc]

/-- **C08** Recording after `commit` is refused (the code panics). -/
theorem C08_check_after_commit_refused (be : Backend) (c : Checker p) (v : ZMod p) (n : ℕ) (m : Mode) :
    (c.commit be).2.check v n m = none := by
  unfold Checker.commit Checker.check
  cases hc : c.closed
  · by_cases h : c.collected.length = 0 <;> simp [h]
  · simp [hc]

/-- **C08** Before `commit`, recording always succeeds and appends exactly the entry. -/
theorem C08_check_records (c : Checker p) (hc : c.closed = false) (v : ZMod p) (n : ℕ) (m : Mode) :
    c.check v n m = some { c with collected := c.collected ++ [⟨v, n, m⟩] } := by
  unfold Checker.check; rw [hc]; rfl

/-- Concrete case: two recorded checks, one of them violated: `commit` is unsatisfiable in either order. -/
example (be : Backend) : ¬ commitSat ((⟨[⟨5, 8, .unknown⟩, ⟨300, 8, .unknown⟩], false, 4⟩ : Checker bn254).commit be).1 := by
  rw [C08_commit_enforces_all (b := 4) rfl (by simp [baseLength]) (by norm_num) (by norm_num [bn254]) (by simp)]
  intro h
  have := h ⟨300, 8, .unknown⟩ (by simp)
  simp only [Entry.InRange] at this
  rw [show (300 : ZMod bn254) = ((300 : ℕ) : ZMod bn254) by simp, ZMod.val_natCast_of_lt (by norm_num [bn254])] at this
  norm_num at this

/-! ### C09 -/

theorem optimalLoop_spec (cost : ℕ → ℕ) (js : List ℕ) (s : ℕ × ℕ) (hsort : js.Pairwise (· < ·)) :
    (optimalLoop cost js s = s ∧ ∀ j ∈ js, s.1 ≤ cost j) ∨
    ∃ j ∈ js, optimalLoop cost js s = (cost j, j) ∧ cost j < s.1 ∧ (∀ k ∈ js, cost j ≤ cost k) ∧ ∀ k ∈ js, k < j → cost j < cost k := by
  induction js generalizing s with
  | nil => left; simp [optimalLoop]
  | cons j js ih =>
    obtain ⟨h1, h2⟩ := List.pairwise_cons.1 hsort
    simp only [optimalLoop]
    by_cases hlt : cost j < s.1
    · rw [if_pos hlt]
      right
      rcases ih (cost j, j) h2 with ⟨h3, h4⟩ | ⟨i, hi, h3, h4, h5, h6⟩
      · exact ⟨j, by simp, h3, hlt, fun k hk => by
          rcases List.mem_cons.1 hk with rfl | hk
          · exact le_rfl
          · exact h4 k hk, fun k hk hkj => by
          rcases List.mem_cons.1 hk with rfl | hk
          · omega
          · have := h1 k hk; omega⟩
      · refine ⟨i, by simp [hi], h3, lt_trans h4 hlt, fun k hk => ?_, fun k hk hki => ?_⟩
        · rcases List.mem_cons.1 hk with rfl | hk
          · exact h4.le
          · exact h5 k hk
        · rcases List.mem_cons.1 hk with rfl | hk
          · exact h4
          · exact h6 k hk hki
    · rw [if_neg hlt]
      rcases ih s h2 with ⟨h3, h4⟩ | ⟨i, hi, h3, h4, h5, h6⟩
      · left
        refine ⟨h3, fun k hk => ?_⟩
        rcases List.mem_cons.1 hk with rfl | hk
        · omega
        · exact h4 k hk
      · right
        refine ⟨i, by simp [hi], h3, h4, fun k hk => ?_, fun k hk hki => ?_⟩
        · rcases List.mem_cons.1 hk with rfl | hk
          · omega
          · exact h5 k hk
        · rcases List.mem_cons.1 hk with rfl | hk
          · omega
          · exact h6 k hk hki

/-- `w` is the least width between 2 and 17 of minimal cost. -/
structure IsOptimalWidth (cost : ℕ → ℕ) (w : ℕ) : Prop where
  lower : 2 ≤ w
  upper : w ≤ 17
  minimal : ∀ j, 2 ≤ j → j ≤ 17 → cost w ≤ cost j
  least : ∀ j, 2 ≤ j → j < w → cost w < cost j

/-- **C09** `optimalWidth` for an arbitrary cost function that fits Go's integers. -/
theorem C09_optimalWidth (cost : ℕ → ℕ) (hfit : ∃ j, 2 ≤ j ∧ j ≤ 17 ∧ cost j < 2 ^ 63 - 1) :
    IsOptimalWidth cost (optimalWidth cost) := by
  obtain ⟨j0, h1, h2, h3⟩ := hfit
  have hsort : (List.range' 2 16).Pairwise (· < ·) := by decide
  have hmem : ∀ j, j ∈ List.range' 2 16 ↔ 2 ≤ j ∧ j ≤ 17 := by
    intro j; rw [List.mem_range'_1]; omega
  unfold optimalWidth
  rcases optimalLoop_spec cost _ (2 ^ 63 - 1, 0) hsort with ⟨_, h⟩ | ⟨j, hj, h4, h5, h6, h7⟩
  · have := h j0 ((hmem j0).2 ⟨h1, h2⟩)
    simp only at this
    omega
  · rw [h4]
    obtain ⟨ha, hb⟩ := (hmem j).1 hj
    exact ⟨ha, hb, fun k hk1 hk2 => h6 k ((hmem k).2 ⟨hk1, hk2⟩), fun k hk1 hk2 =>
      h7 k ((hmem k).2 ⟨hk1, by simp only at hk2 ⊢; omega⟩) hk2⟩

/-- **C09** Both back-ends: the automatically chosen width is between 2 and 17, minimises the estimated number
of constraints, and is the smallest such width. (Hypotheses: the estimates at width 2 fit a Go `int`.) -/
theorem C09_getOptimalBasewidth (bits : List ℕ) (hr : nbR1CSConstraints 2 bits < 2 ^ 63 - 1)
    (hp : nbPLONKConstraints 2 bits < 2 ^ 63 - 1) :
    IsOptimalWidth (nbR1CSConstraints · bits) (getOptimalBasewidth .r1cs bits) ∧
    IsOptimalWidth (nbPLONKConstraints · bits) (getOptimalBasewidth .scs bits) ∧
    getOptimalBasewidth .other bits = getOptimalBasewidth .r1cs bits :=
  ⟨C09_optimalWidth _ ⟨2, le_rfl, by norm_num, hr⟩, C09_optimalWidth _ ⟨2, le_rfl, by norm_num, hp⟩, rfl⟩

/-- Concrete case: 100 checks of 24 bits. The least-cost widths of the two back-ends are 6 and 6. -/
example : getOptimalBasewidth .r1cs (List.replicate 100 24) = 6 ∧ getOptimalBasewidth .scs (List.replicate 100 24) = 6 := by
  decide +kernel

/-- With nothing collected the estimate is least at width 2. -/
example : getOptimalBasewidth .r1cs [] = 2 ∧ nbPLONKConstraints 2 [] < 2 ^ 63 - 1 := by decide +kernel

/-! ### C10 -/

/-- The number of limb recompositions (equations) `commit` emits for the recorded bit lengths at width `b`:
one for each entry that does not fit a single limb. -/
def recompositions (b : ℕ) (bits : List ℕ) : ℕ := bits.countP fun n => decide (¬ (0 < n ∧ n ≤ b))

/-- The invariant tying the counters to the recorded entries. -/
structure CountersOk (g : IntGadget p) : Prop where
  size : g.checker.size = g.rangeSize
  pow2 : g.numPow2Queries = g.queries.length
  decomp : g.numRangeDecompositions = recompositions g.rangeSize (g.checker.collected.map Entry.bits)
  chunks : g.numRangeChunks = (g.checker.collected.map fun e =>
    decompSize e.bits g.rangeSize + if e.mode = .unknown ∧ e.bits % g.rangeSize ≠ 0 then 1 else 0).sum

theorem CountersOk.new (size pow2Size : ℕ) : CountersOk (IntGadget.new size pow2Size : IntGadget p) :=
  ⟨rfl, rfl, rfl, rfl⟩

theorem decompSize_eq_one_iff {n b : ℕ} (hb : 0 < b) : decompSize n b = 1 ↔ 0 < n ∧ n ≤ b := by
  unfold decompSize
  constructor
  · intro h
    have h1 : 1 * b ≤ n + b - 1 := (Nat.le_div_iff_mul_le hb).1 h.ge
    have h2 : n + b - 1 < 2 * b := (Nat.div_lt_iff_lt_mul hb).1 (by omega)
    omega
  · rintro ⟨h1, h2⟩
    apply Nat.div_eq_of_lt_le <;> omega

theorem CountersOk.assertBitLength {g g' : IntGadget p} (h : CountersOk g) (hb : 0 < g.rangeSize) {v : ZMod p} {n : ℕ}
    {m : Mode} (hg : g.assertBitLength v n m = some g') : CountersOk g' ∧ g'.rangeSize = g.rangeSize := by
  obtain ⟨h1, h2, h3, h4⟩ := h
  unfold IntGadget.assertBitLength Checker.check at hg
  by_cases hc : g.checker.closed = true
  · simp [hc] at hg
  · simp only [hc, Bool.false_eq_true, if_false, if_pos hb, Option.some.injEq] at hg
    subst hg
    refine ⟨⟨h1, h2, ?_, ?_⟩, rfl⟩
    · have := decompSize_eq_one_iff (n := n) hb
      unfold decompSize at this
      simp only [h3, recompositions, List.map_append, List.countP_append, List.map_cons, List.map_nil,
        List.countP_singleton, decide_eq_true_eq, ← this, ne_eq]
    · simp only [h4, List.map_append, List.sum_append, List.map_cons, List.map_nil, List.sum_cons, List.sum_nil]
      unfold decompSize
      omega

theorem CountersOk.exec {st : Bool} (c : Circ p α) {g g' : IntGadget p} {r : α} (h : CountersOk g)
    (hb : 0 < g.rangeSize) (he : Exec st c g r g') : CountersOk g' ∧ g'.rangeSize = g.rangeSize := by
  induction c generalizing g with
  | pure a => obtain ⟨_, rfl⟩ := he; exact ⟨h, rfl⟩
  | hint v k ih => obtain ⟨v, he⟩ := he; exact ih v h hb he
  | assert c k ih => exact ih h hb he.2
  | soft c k ih => exact ih h hb he.2
  | check v n m k ih =>
    obtain ⟨g1, h1, he⟩ := he
    obtain ⟨h2, h3⟩ := h.assertBitLength hb h1
    obtain ⟨h4, h5⟩ := ih h2 (by omega) he
    exact ⟨h4, by omega⟩
  | query s v k ih =>
    obtain ⟨_, he⟩ := he
    have h2 : CountersOk (g.addQuery v) := by
      obtain ⟨h1, h2, h3, h4⟩ := h
      exact ⟨h1, by simp [IntGadget.addQuery, h2], h3, h4⟩
    exact ih (g := g.addQuery v) h2 hb he

/-- The number of table lookups of one entry. -/
theorem rangeQueries_length {b : ℕ} (hb : 0 < b) (e : Entry p) (hn : 0 < e.bits) {l : List (ZMod p)}
    (hl : l.length = decompSize e.bits b) :
    (rangeQueries b e.v e.bits e.mode l).length =
      decompSize e.bits b + if e.mode = .unknown ∧ e.bits % b ≠ 0 then 1 else 0 := by
  have hs : slack b e.bits ≠ 0 ↔ e.bits % b ≠ 0 := by
    have h1 := slack_add e.bits hb
    have h2 := slack_lt (bits := e.bits) hb hn
    refine not_congr ⟨fun h => ?_, fun h => ?_⟩
    · rw [h, Nat.add_zero] at h1
      rw [h1, Nat.mul_mod_left]
    · obtain ⟨k, hk⟩ := Nat.dvd_of_mod_eq_zero h
      have h3 : b ∣ slack b e.bits := (Nat.dvd_add_right ⟨k, hk⟩).1 ⟨decompSize e.bits b, by rw [h1, Nat.mul_comm]⟩
      exact Nat.eq_zero_of_dvd_of_lt h3 h2
  unfold rangeQueries
  by_cases h1 : decompSize e.bits b = 1
  · rw [if_pos h1, h1, List.length_cons]
    by_cases hc : e.mode = .unknown ∧ e.bits % b ≠ 0
    · rw [if_pos hc, if_pos ⟨hc.1, hs.2 hc.2⟩]; rfl
    · rw [if_neg hc, if_neg (fun h => hc ⟨h.1, hs.1 h.2⟩)]; rfl
  · rw [if_neg h1, List.length_append, hl]
    by_cases hc : e.mode = .unknown ∧ e.bits % b ≠ 0
    · rw [if_pos hc, if_pos ⟨hc.1, hs.2 hc.2⟩]; rfl
    · rw [if_neg hc, if_neg (fun h => hc ⟨h.1, hs.1 h.2⟩)]; rfl

theorem decomposed_length {b : ℕ} (hb : 0 < b) {es : List (Entry p)} {limbs : List (List (ZMod p))}
    (hn : ∀ e ∈ es, 0 < e.bits) (hl : List.Forall₂ (fun e l => l.length = decompSize e.bits b) es limbs) :
    ((⟨b, es⟩ : Emitted p).decomposed limbs).length = (es.map fun e =>
      decompSize e.bits b + if e.mode = .unknown ∧ e.bits % b ≠ 0 then 1 else 0).sum := by
  unfold Emitted.decomposed
  induction hl with
  | nil => rfl
  | cons h _ ih =>
    simp only [List.zip_cons_cons, List.map_cons, List.flatten_cons, List.length_append, List.sum_cons]
    rw [rangeQueries_length hb _ (hn _ (by simp)) h]
    simp only at ih
    rw [ih fun e he => hn e (by simp [he])]

/-- **C10** With an explicit table width, whatever the circuit and the wire values: the reported number of
lookup-query constraints is the number of range-table lookups (elements of `decomposed`, for limb wires of
any value), plus the number of limb recompositions, plus the number of power-of-two lookups. -/
theorem C10_counters_exact {be : Backend} {st : Bool} {size s : ℕ} (hsize : 0 < size) {c : Circ p α} {r : α} {g : IntGadget p}
    (he : Exec st c (IntGadget.new size s) r g) {m : Emitted p} (hm : (g.checker.commit be).1 = some m)
    (hbits : ∀ e ∈ m.entries, 0 < e.bits) {limbs : List (List (ZMod p))}
    (hl : List.Forall₂ (fun e l => l.length = decompSize e.bits m.base) m.entries limbs) :
    g.lookupQueryConstraints = (m.decomposed limbs).length
      + m.entries.countP (fun e => decide (size < e.bits)) + g.queries.length := by
  obtain ⟨⟨h1, h2, h3, h4⟩, h5⟩ := (CountersOk.new size s).exec c hsize he
  have h6 : g.rangeSize = size := h5
  unfold Checker.commit at hm
  by_cases hc : g.checker.closed = true
  · simp [hc] at hm
  · by_cases h0 : g.checker.collected.length = 0
    · simp [hc, h0] at hm
    · simp only [hc, h0, if_false, Bool.false_eq_true, Option.some.injEq] at hm
      have hbl : baseLength be g.checker.size (g.checker.collected.map Entry.bits) = size := by
        unfold baseLength; rw [h1, h6, if_neg (by omega)]
      rw [hbl] at hm
      subst hm
      simp only at hbits hl
      have h7 : recompositions size (g.checker.collected.map Entry.bits) =
          g.checker.collected.countP (fun e => decide (size < e.bits)) := by
        unfold recompositions
        rw [List.countP_map]
        refine List.countP_congr fun e he => ?_
        have := hbits e he
        simp only [Function.comp, decide_eq_true_eq]
        omega
      rw [decomposed_length hsize hbits hl, ← h7]
      unfold IntGadget.lookupQueryConstraints
      rw [h2, h3, h4, h6]
      ring

/-- **C10** If the circuit records no range check, nothing but power-of-two lookups is emitted or counted. -/
theorem C10_counters_empty {be : Backend} {st : Bool} {size s : ℕ} (hsize : 0 < size) {c : Circ p α} {r : α} {g : IntGadget p}
    (he : Exec st c (IntGadget.new size s) r g) (hm : (g.checker.commit be).1 = none) (hopen : g.checker.closed = false) :
    g.lookupQueryConstraints = g.queries.length := by
  obtain ⟨⟨h1, h2, h3, h4⟩, h5⟩ := (CountersOk.new size s).exec c hsize he
  unfold Checker.commit at hm
  have h0 : g.checker.collected = [] := by
    by_contra h0
    have : g.checker.collected.length ≠ 0 := by simpa using h0
    simp [hopen, this] at hm
  unfold IntGadget.lookupQueryConstraints
  rw [h2, h3, h4, h0]
  simp [recompositions]

/-- **C10** The reported number depends on the circuit only, not on any wire value: it is determined by the
circuit's shape. -/
theorem C10_counters_of_shape {st : Bool} {size s : ℕ} (hsize : 0 < size) {c : Circ p α} {r : α} {g : IntGadget p}
    {l : List (ℕ × Mode)} {q : ℕ} (hs : HasShape s c l q) (he : Exec st c (IntGadget.new size s) r g) :
    g.lookupQueryConstraints = q + recompositions size (l.map Prod.fst) + (l.map fun e =>
      decompSize e.1 size + if e.2 = .unknown ∧ e.1 % size ≠ 0 then 1 else 0).sum := by
  obtain ⟨⟨h1, h2, h3, h4⟩, h5⟩ := (CountersOk.new size s).exec c hsize he
  have h6 : g.rangeSize = size := h5
  obtain ⟨-, -, hcol, hq, -⟩ := exec_records he hs rfl rfl
  simp only [IntGadget.new, Checker.new, List.map_nil, List.nil_append, List.length_nil, Nat.zero_add] at hcol hq
  have ha : g.checker.collected.map Entry.bits = l.map Prod.fst := by rw [← hcol, List.map_map]; rfl
  have hb : (g.checker.collected.map fun e =>
      decompSize e.bits size + if e.mode = .unknown ∧ e.bits % size ≠ 0 then 1 else 0) = l.map fun e =>
      decompSize e.1 size + if e.2 = .unknown ∧ e.1 % size ≠ 0 then 1 else 0 := by rw [← hcol, List.map_map]; rfl
  unfold IntGadget.lookupQueryConstraints
  rw [h2, h3, h4, h6, ha, hb, hq]
  ring

/-- Concrete case: one single-precision addition at table width 8 is always reported as 43 constraints. -/
example {st : Bool} (x y r : FloatVar bn254) (g : IntGadget bn254)
    (he : Exec st (fAdd f32 x y) (IntGadget.new 8 f32.pow2Size) r g) : g.lookupQueryConstraints = 43 := by
  rw [C10_counters_of_shape (by norm_num) (shape_add x y) he]
  decide +kernel

end ZkLoc
