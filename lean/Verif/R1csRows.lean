import Verif.R1csSized

/-!
# The rows and queries of a compiled circuit, from what it records
-/

namespace ZkLoc.R1cs

variable {p : ℕ} {b : ℕ}

/-- The queries to the range table for one recorded check. -/
def queriesOf (b bits : ℕ) (mode : Mode) : ℕ := decompSize bits b + (if mode = .unknown ∧ bits % b ≠ 0 then 1 else 0)

/-- The recomposition of one recorded check. -/
def rowsOf (b bits : ℕ) : ℕ := if decompSize bits b ≠ 1 then 1 else 0

theorem slack_zero {bits : ℕ} (hb : 0 < b) : slack b bits = 0 ↔ bits % b = 0 := by
  have h := slack_add bits hb
  constructor
  · intro h0
    rw [h0, Nat.add_zero] at h
    rw [h]
    exact Nat.mul_mod_left _ _
  · exact fun h0 => slack_of_dvd hb (Nat.dvd_of_mod_eq_zero h0)

variable [Fact p.Prime]

theorem composed_not_const {N k : ℕ} (hk : k ≠ 0) : (composed b ((List.range k).map fun i => Lin.wire (N + i)) : Lin p).const? = none := by
  refine not_const (w := fun _ => 0) (w' := fun j => if j = N then 1 else 0) ?_
  rw [eval_composed, eval_composed]
  obtain ⟨k, rfl⟩ : ∃ k', k = k' + 1 := ⟨k - 1, by omega⟩
  rw [List.range_succ_eq_map, List.map_cons, List.map_cons, List.map_cons]
  have h : ((((List.range k).map Nat.succ).map fun i => (Lin.wire (N + i) : Lin p)).map (Lin.eval fun j => if j = N then (1 : ZMod p) else 0)) =
      (((List.range k).map Nat.succ).map fun i => (Lin.wire (N + i) : Lin p)).map (Lin.eval fun _ => 0) := by
    rw [List.map_map, List.map_map, List.map_map, List.map_map]
    refine List.map_congr_left fun j _ => ?_
    simp only [Function.comp_apply, Lin.eval_wire]
    rw [if_neg (by omega)]
  rw [h]
  simp only [compose, Lin.eval_wire, Nat.add_zero, if_true]
  intro e
  exact zero_ne_one (add_left_injective _ e)

theorem commitEntry_count {σ σ' : Cs p} {x : Lin p} {bits : ℕ} {mode : Mode} {qs : List (Lin p)} (hb : 0 < b) (h : commitEntry b x bits mode σ = some (qs, σ')) :
    σ'.r1cs.length = σ.r1cs.length + rowsOf b bits ∧ qs.length = queriesOf b bits mode ∧ σ'.queries = σ.queries := by
  refine ⟨?_, ?_, (commitEntry_checks h).2⟩ <;> by_cases h0 : decompSize bits b = 0
  · unfold commitEntry at h; rw [if_pos h0] at h; simp [bPanic] at h
  · by_cases h1 : decompSize bits b = 1
    · unfold commitEntry at h
      rw [if_neg h0, if_pos h1] at h
      obtain ⟨-, rfl⟩ : _ = qs ∧ σ = σ' := by simpa [pure] using h
      simp [rowsOf, h1]
    · have := ((commitEntry_limbs h0 h1).1 h).1
      unfold bAssertEq at this
      rw [composed_not_const h0] at this
      simp only [constrain, Option.some.injEq, Prod.mk.injEq, true_and] at this
      split at this
      · contradiction
      · rw [← (Prod.mk.inj (Option.some.inj this)).2]
        simp [rowsOf, h1]
  · unfold commitEntry at h; rw [if_pos h0] at h; simp [bPanic] at h
  · by_cases h1 : decompSize bits b = 1
    · unfold commitEntry at h
      rw [if_neg h0, if_pos h1] at h
      obtain ⟨rfl, -⟩ : _ = qs ∧ σ = σ' := by simpa [pure] using h
      simp only [queriesOf, h1, List.length_cons, ne_eq, slack_zero hb]
      split <;> simp
    · rw [((commitEntry_limbs h0 h1).1 h).2]
      simp only [limbQueries, queriesOf, List.length_append, List.length_map, List.length_range, ne_eq, slack_zero hb]
      split <;> simp

theorem commitAll_count (hb : 0 < b) : ∀ {l : List (Lin p × ℕ × Mode)} {σ σ' : Cs p} {qs : List (Lin p)}, commitAll b l σ = some (qs, σ') →
    σ'.r1cs.length = σ.r1cs.length + (l.map fun c => rowsOf b c.2.1).sum ∧ qs.length = (l.map fun c => queriesOf b c.2.1 c.2.2).sum ∧ σ'.queries = σ.queries
  | [], σ, σ', qs, h => by
    obtain ⟨rfl, rfl⟩ : [] = qs ∧ σ = σ' := by simpa [commitAll, pure] using h
    exact ⟨rfl, rfl, rfl⟩
  | c :: l, σ, σ', qs, h => by
    unfold commitAll at h
    obtain ⟨⟨q1, σ1⟩, e1, e⟩ := Option.bind_eq_some_iff.1 h
    obtain ⟨⟨q2, σ2⟩, e2, e⟩ := Option.bind_eq_some_iff.1 e
    obtain ⟨rfl, rfl⟩ : q1 ++ q2 = qs ∧ σ2 = σ' := by simpa [pure] using e
    obtain ⟨a1, a2, a3⟩ := commitEntry_count hb e1
    obtain ⟨c1, c2, c3⟩ := commitAll_count hb e2
    refine ⟨?_, ?_, c3.trans a3⟩
    · rw [c1, a1, List.map_cons, List.sum_cons, Nat.add_assoc]
    · rw [List.length_append, a2, c2, List.map_cons, List.sum_cons]

omit [Fact p.Prime] in
theorem commitAll_length : ∀ {l : List (Lin p × ℕ × Mode)} {σ σ' : Cs p} {qs : List (Lin p)}, commitAll b l σ = some (qs, σ') → l.length ≤ qs.length
  | [], _, _, _, _ => Nat.zero_le _
  | c :: l, σ, σ', qs, h => by
    unfold commitAll at h
    obtain ⟨⟨q1, σ1⟩, e1, e⟩ := Option.bind_eq_some_iff.1 h
    obtain ⟨⟨q2, σ2⟩, e2, e⟩ := Option.bind_eq_some_iff.1 e
    obtain ⟨rfl, rfl⟩ : q1 ++ q2 = qs ∧ σ2 = σ' := by simpa [pure] using e
    have h2 := commitAll_length e2
    have h1 : 0 < q1.length := by
      by_cases h0 : decompSize c.2.1 b = 0
      · unfold commitEntry at e1; rw [if_pos h0] at e1; simp [bPanic] at e1
      · by_cases h1 : decompSize c.2.1 b = 1
        · unfold commitEntry at e1
          rw [if_neg h0, if_pos h1] at e1
          obtain ⟨rfl, -⟩ : _ = q1 ∧ σ = σ1 := by simpa [pure] using e1
          simp
        · rw [((commitEntry_limbs h0 h1).1 e1).2]
          simp only [limbQueries, List.length_append, List.length_map, List.length_range]
          omega
    rw [List.length_append, List.length_cons]
    omega

/-- What the circuit records before `commit`. -/
theorem compile_count {n : ℕ} {m : Bld p Unit} {s : System p} (hb : 0 < b) (h : compile b n m = some s) : ∃ σ, m ⟨n, [], [], [], []⟩ = some ((), σ) ∧
    s.r1cs.length = σ.r1cs.length + (σ.checks.map fun c => rowsOf b c.2.1).sum ∧ s.range.length = (σ.checks.map fun c => queriesOf b c.2.1 c.2.2).sum ∧ s.pow2 = σ.queries := by
  obtain ⟨⟨⟨⟩, σ⟩, h1, h2⟩ := Option.bind_eq_some_iff.1 h
  obtain ⟨⟨qs, τ⟩, h3, h4⟩ := Option.map_eq_some_iff.1 h2
  obtain ⟨c1, c2, c3⟩ := commitAll_count hb h3
  refine ⟨σ, h1, ?_, ?_, ?_⟩
  · rw [← h4]
    exact c1.trans (by rw [List.map_reverse, List.sum_reverse])
  · rw [← h4]
    exact c2.trans (by rw [List.map_reverse, List.sum_reverse])
  · rw [← h4]
    exact c3

theorem compile_sized {n size : ℕ} {m : Bld p Unit} {s : System p} (hb : 0 < b) (hm : Sized size m) (h : compile b n m = some s) : ∀ q ∈ s.pow2, q.1 = size := by
  obtain ⟨σ, h1, -, -, h4⟩ := compile_count hb h
  rw [h4]
  exact (hm _ _ _ h1).1 (by simp)

/-- The counters of `IntGadget` after the checks and queries that the circuit records. -/
def counted (b size : ℕ) (w : Asg p) (σ : Cs p) : Option (IntGadget p) :=
  ((σ.checks.reverse.foldlM (fun (g : IntGadget p) c => g.assertBitLength (c.1.eval w) c.2.1 c.2.2) (IntGadget.new b size))).map fun g =>
    σ.queries.reverse.foldl (fun g q => g.addQuery (q.2.eval w)) g

theorem counted_checks (w : Asg p) (hb : 0 < b) : ∀ (l : List (Lin p × ℕ × Mode)) (g : IntGadget p), g.checker.closed = false → g.rangeSize = b →
    ∃ g', l.foldlM (fun (g : IntGadget p) c => g.assertBitLength (c.1.eval w) c.2.1 c.2.2) g = some g' ∧ g'.rangeSize = b ∧ g'.pow2Size = g.pow2Size ∧ g'.numPow2Queries = g.numPow2Queries ∧
      g'.numRangeDecompositions = g.numRangeDecompositions + (l.map fun c => rowsOf b c.2.1).sum ∧ g'.numRangeChunks = g.numRangeChunks + (l.map fun c => queriesOf b c.2.1 c.2.2).sum
  | [], g, _, hr => ⟨g, rfl, hr, rfl, rfl, rfl, rfl⟩
  | c :: l, g, hc, hr => by
    obtain ⟨g1, e1, f1, f2, f3, f4, f5, f6⟩ : ∃ g1, g.assertBitLength (c.1.eval w) c.2.1 c.2.2 = some g1 ∧ g1.checker.closed = false ∧ g1.rangeSize = b ∧ g1.pow2Size = g.pow2Size ∧
        g1.numPow2Queries = g.numPow2Queries ∧ g1.numRangeDecompositions = g.numRangeDecompositions + rowsOf b c.2.1 ∧ g1.numRangeChunks = g.numRangeChunks + queriesOf b c.2.1 c.2.2 := by
      subst hr
      unfold IntGadget.assertBitLength Checker.check
      rw [hc]
      simp only [Bool.false_eq_true, if_false, if_pos hb]
      exact ⟨_, rfl, rfl, rfl, rfl, rfl, rfl, by simp only [queriesOf, decompSize]; omega⟩
    obtain ⟨g2, e2, k1, k2, k3, k4, k5⟩ := counted_checks w hb l g1 f1 f2
    refine ⟨g2, ?_, k1, k2.trans f3, k3.trans f4, ?_, ?_⟩
    · rw [List.foldlM_cons, e1]; exact e2
    · rw [k4, f5, List.map_cons, List.sum_cons, Nat.add_assoc]
    · rw [k5, f6, List.map_cons, List.sum_cons, Nat.add_assoc]

omit [Fact p.Prime] in
theorem counted_queries (w : Asg p) : ∀ (l : List (ℕ × Lin p)) (g : IntGadget p),
    (l.foldl (fun g q => g.addQuery (q.2.eval w)) g).rangeSize = g.rangeSize ∧ (l.foldl (fun g q => g.addQuery (q.2.eval w)) g).pow2Size = g.pow2Size ∧
    (l.foldl (fun g q => g.addQuery (q.2.eval w)) g).numRangeDecompositions = g.numRangeDecompositions ∧ (l.foldl (fun g q => g.addQuery (q.2.eval w)) g).numRangeChunks = g.numRangeChunks ∧
    (l.foldl (fun g q => g.addQuery (q.2.eval w)) g).numPow2Queries = g.numPow2Queries + l.length
  | [], g => ⟨rfl, rfl, rfl, rfl, rfl⟩
  | q :: l, g => by
    obtain ⟨h1, h2, h3, h4, h5⟩ := counted_queries w l (g.addQuery (q.2.eval w))
    exact ⟨h1, h2, h3, h4, h5.trans (by simp only [IntGadget.addQuery, List.length_cons]; omega)⟩

theorem counted_some (size : ℕ) (w : Asg p) (hb : 0 < b) (σ : Cs p) : ∃ g, counted b size w σ = some g ∧ g.lookupEntryConstraints = 2 ^ b + size ∧
    g.lookupQueryConstraints = (σ.checks.map fun c => rowsOf b c.2.1).sum + σ.queries.length + (σ.checks.map fun c => queriesOf b c.2.1 c.2.2).sum := by
  obtain ⟨g, e, h1, h2, h3, h4, h5⟩ := counted_checks w hb σ.checks.reverse (IntGadget.new b size) rfl rfl
  obtain ⟨k1, k2, k3, k4, k5⟩ := counted_queries w σ.queries.reverse g
  refine ⟨_, by unfold counted; rw [e]; rfl, ?_, ?_⟩
  · unfold IntGadget.lookupEntryConstraints
    rw [k1, k2, h1, h2]
    rfl
  · unfold IntGadget.lookupQueryConstraints
    rw [k3, k4, k5, h3, h4, h5, List.map_reverse, List.map_reverse, List.sum_reverse, List.sum_reverse, List.length_reverse]
    show 0 + _ + (0 + _) + (0 + _) = _
    simp only [Nat.zero_add]

/-- The number of rows: those of the circuit, those of the tables, those of the queries and three more. -/
theorem length_expand {n size : ℕ} {m : Bld p Unit} {s : System p} {F : Full p} (hb : 0 < b) (hs : 0 < size) (h : compile b n m = some s) (hF : s.expand b size n = some F) (w : Asg p) :
    ∃ σ g, m ⟨n, [], [], [], []⟩ = some ((), σ) ∧ counted b size w σ = some g ∧ F.r1cs.length = σ.r1cs.length + g.lookupEntryConstraints + g.lookupQueryConstraints + 3 := by
  obtain ⟨σ, h1, h2, h3, h4⟩ := compile_count hb h
  obtain ⟨g, g1, g2, g3⟩ := counted_some size w hb σ
  rw [expand_some hs, Option.some.injEq] at hF
  refine ⟨σ, g, h1, g1, ?_⟩
  rw [← hF, length_expanded, h2, h3, h4, g2, g3]
  omega

/-- There are at least as many queries to the range table as to the other. -/
theorem pow2_le {n size : ℕ} {m : Bld p Unit} {s : System p} (hb : 0 < b) (hm : Sized size m) (h : compile b n m = some s) : s.pow2.length ≤ s.range.length := by
  obtain ⟨⟨⟨⟩, σ⟩, h1, h2⟩ := Option.bind_eq_some_iff.1 h
  obtain ⟨⟨qs, τ⟩, h3, h4⟩ := Option.map_eq_some_iff.1 h2
  have hl := commitAll_length h3
  obtain ⟨-, -, c3⟩ := commitAll_count hb h3
  have := (hm _ _ _ h1).2
  rw [← h4]
  show τ.queries.length ≤ qs.length
  rw [c3]
  simp only [List.length_nil, List.length_reverse] at this hl
  show σ.queries.length ≤ _
  omega

/-- The number of queries to the range table, from the lengths of the checks. -/
theorem range_le {n : ℕ} {m : Bld p Unit} {s : System p} (hb : 0 < b) (h : compile b n m = some s) {l : List ℕ}
    (hl : ∀ u σ, m ⟨n, [], [], [], []⟩ = some (u, σ) → (σ.checks.map fun c => c.2.1) = l.reverse) : s.range.length ≤ nbDecomposed b l := by
  obtain ⟨σ, h1, -, h3, h4⟩ := compile_count hb h
  have e := hl _ _ h1
  rw [h3, ← List.reverse_reverse l, ← e]
  unfold nbDecomposed
  rw [← List.map_reverse, List.map_map, List.map_reverse, List.sum_reverse]
  refine List.sum_le_sum fun c _ => ?_
  simp only [Function.comp_apply, queriesOf]
  have := slack_add c.2.1 hb
  have := slack_zero (bits := c.2.1) hb
  split <;> split <;> omega

omit [Fact p.Prime] in
theorem compile_of_auto {be : Backend} {size n w : ℕ} {m : Bld p Unit} {s : System p} (h : compileAuto be size n m = some (w, s)) : widthOf be size n m = some w ∧ compile w n m = some s := by
  obtain ⟨w', h1, h⟩ := Option.bind_eq_some_iff.1 h
  obtain ⟨s', h2, h'⟩ := Option.map_eq_some_iff.1 h
  obtain ⟨rfl, rfl⟩ := Prod.mk.inj h'
  exact ⟨h1, h2⟩

end ZkLoc.R1cs
