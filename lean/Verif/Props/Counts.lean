import Verif.Counts
import Verif.Spec.Counts
import Verif.Props.Deferred

/-!
# Property C58: the published lookup-constraint table
-/

namespace ZkLoc

variable {p : ℕ} {α : Type}

/-- The cost of a shape at table width `size`: power-of-two queries, recompositions and range-table
lookups. -/
def shapeCost (size : ℕ) (l : List (ℕ × Mode)) (q : ℕ) : ℕ :=
  q + recompositions size (l.map Prod.fst) + (l.map fun e =>
    decompSize e.1 size + if e.2 = .unknown ∧ e.1 % size ≠ 0 then 1 else 0).sum

/-- The state a gadget is in between two operations. -/
structure Running (size s : ℕ) (g : IntGadget p) : Prop where
  ok : CountersOk g
  range : g.rangeSize = size
  pow2 : g.pow2Size = s
  opened : g.checker.closed = false

theorem Running.new (size s : ℕ) : Running size s (IntGadget.new size s : IntGadget p) :=
  ⟨CountersOk.new size s, rfl, rfl, rfl⟩

/-- From any state between two operations, an operation adds the cost of its shape. -/
theorem exec_cost {st : Bool} {size s : ℕ} (hsize : 0 < size) {c : Circ p α} {r : α} {g g' : IntGadget p}
    {l : List (ℕ × Mode)} {q : ℕ} (hs : HasShape s c l q) (hg : Running size s g) (he : Exec st c g r g') :
    Running size s g' ∧ g'.lookupQueryConstraints = g.lookupQueryConstraints + shapeCost size l q := by
  obtain ⟨h1, h2, h3, h4⟩ := hg
  obtain ⟨h5, h6⟩ := h1.exec c (by omega) he
  obtain ⟨r1, r2, r3, r4, r5⟩ := exec_records he hs h3 h4
  refine ⟨⟨h5, h6.trans h2, r5, r1⟩, ?_⟩
  have ha : g'.checker.collected.map Entry.bits = g.checker.collected.map Entry.bits ++ l.map Prod.fst := by
    have := congrArg (List.map Prod.fst) r3
    simpa [List.map_map, Function.comp_def] using this
  have hb : (g'.checker.collected.map fun e =>
      decompSize e.bits size + if e.mode = .unknown ∧ e.bits % size ≠ 0 then 1 else 0) =
      (g.checker.collected.map fun e =>
      decompSize e.bits size + if e.mode = .unknown ∧ e.bits % size ≠ 0 then 1 else 0) ++ l.map fun e =>
      decompSize e.1 size + if e.2 = .unknown ∧ e.1 % size ≠ 0 then 1 else 0 := by
    have := congrArg (List.map fun e : ℕ × Mode =>
      decompSize e.1 size + if e.2 = .unknown ∧ e.1 % size ≠ 0 then 1 else 0) r3
    simpa [List.map_map, Function.comp_def] using this
  unfold IntGadget.lookupQueryConstraints shapeCost
  rw [h5.pow2, h5.decomp, h5.chunks, h1.pow2, h1.decomp, h1.chunks, h6, h2, ha, hb, r4]
  simp only [recompositions, List.countP_append, List.sum_append]
  ring

/-- **C58** The counter never decreases, so the unsigned subtraction of `count_constraints` does not wrap. -/
theorem C58_counter_grows {st : Bool} {c : Circ p α} {g g' : IntGadget p} {r : α} (he : Exec st c g r g') :
    g.lookupQueryConstraints ≤ g'.lookupQueryConstraints := by
  induction c generalizing g with
  | pure a => obtain ⟨_, rfl⟩ := he; exact le_rfl
  | hint v k ih => obtain ⟨v, he⟩ := he; exact ih v he
  | assert c k ih => exact ih he.2
  | soft c k ih => exact ih he.2
  | check v n m k ih =>
    obtain ⟨g1, h1, he⟩ := he
    refine le_trans ?_ (ih he)
    unfold IntGadget.assertBitLength Checker.check at h1
    by_cases hc : g.checker.closed = true
    · simp [hc] at h1
    · simp only [hc, Bool.false_eq_true, if_false] at h1
      by_cases h0 : 0 < g.rangeSize
      · rw [if_pos h0, Option.some.injEq] at h1; subst h1
        simp only [IntGadget.lookupQueryConstraints]
        exact Nat.add_le_add (Nat.add_le_add (Nat.le_add_right _ _) le_rfl) ((Nat.le_add_right _ _).trans (Nat.le_add_right _ _))
      · rw [if_neg h0, Option.some.injEq] at h1; subst h1
        simp [IntGadget.lookupQueryConstraints]
  | query s v k ih =>
    refine le_trans ?_ (ih he.2)
    simp only [IntGadget.lookupQueryConstraints, IntGadget.addQuery]; omega

/-- Measuring a list of operations whose shapes are known. -/
theorem countAll_eq {st : Bool} {size s : ℕ} (hsize : 0 < size) (cs : List (Circ p Unit)) :
    ∀ (ls : List (List (ℕ × Mode) × ℕ)), List.Forall₂ (fun c l => HasShape s c l.1 l.2) cs ls →
    ∀ {g g' : IntGadget p} {ks : List Constraints}, Running size s g → CountAll st cs g ks g' →
    Running size s g' ∧ ks = ls.map (fun l => ⟨shapeCost size l.1 l.2, 2 ^ size + s + 3⟩) ∧
      g'.lookupQueryConstraints = g.lookupQueryConstraints + (ls.map fun l => shapeCost size l.1 l.2).sum := by
  induction cs with
  | nil =>
    intro ls hl g g' ks hg h
    cases hl
    obtain ⟨rfl, rfl⟩ := h
    exact ⟨hg, rfl, by simp⟩
  | cons c cs ih =>
    intro ls hl g g' ks hg h
    cases hl with
    | cons h1 h2 =>
      obtain ⟨k, g1, ks', ⟨⟨r, he⟩, rfl⟩, h3, rfl⟩ := h
      obtain ⟨h4, h5⟩ := exec_cost hsize h1 hg he
      obtain ⟨h6, h7, h8⟩ := ih _ h2 h4 h3
      refine ⟨h6, ?_, ?_⟩
      · rw [h7, List.map_cons, h5]
        simp only [IntGadget.lookupEntryConstraints, IntGadget.lookupFinalizeConstraints, h4.range, h4.pow2,
          Nat.add_sub_cancel_left]
      · rw [h8, h5]; simp [Nat.add_assoc]

theorem shape_drop {s : ℕ} {c : Circ p α} {l : List (ℕ × Mode)} {q : ℕ} (h : HasShape s c l q) :
    HasShape s (do let _ ← c; pure () : Circ p Unit) l q := by
  have := h.bind (d := fun _ => (Circ.pure () : Circ p Unit)) (l' := []) (q' := 0) fun _ => ⟨rfl, rfl⟩
  simpa using this

/-- The shapes of the measured operations. -/
def measuredShapes (f : Fmt) : List (List (ℕ × Mode) × ℕ) :=
  [(newFloatShape f, 1), (addShape f, 3), (addShape f, 3), (mulShape f, 1), (divShape f, 1), (sqrtShape f, 1), (lessShape f, 0)]

theorem measured_shapes (f : Fmt) (X : ZMod p) (x y : FloatVar p) :
    List.Forall₂ (fun c l => HasShape f.pow2Size c l.1 l.2) (measuredOps f X x y) (measuredShapes f) :=
  .cons (shape_drop (shape_newFloat X)) <| .cons (shape_drop (shape_add x y)) <| .cons (shape_drop (shape_sub x y)) <|
  .cons (shape_drop (shape_mul x y)) <| .cons (shape_drop (shape_div x y)) <| .cons (shape_drop (shape_sqrt x)) <|
  .cons (shape_drop (shape_less x y 0)) .nil

/-- The whole table at once, evaluated from the shapes. -/
theorem table_shapes : ∀ row ∈ Published.table, 0 < row.size ∧ (measuredShapes ⟨row.E, row.M⟩).map
    (fun l => (⟨shapeCost row.size l.1 l.2, 2 ^ row.size + (⟨row.E, row.M⟩ : Fmt).pow2Size + 3⟩ : Constraints)) =
      row.queries.map fun n => ⟨n, row.oneTime⟩ := by
  decide +kernel

/-- **C58** The published table is what the measured circuit reports: for every row of
/repo/benchmarks/float/constraints.csv, every pair of inputs and every prover, over every field. -/
theorem C58_published_counts {st : Bool} {row : Published.Row} (hr : row ∈ Published.table) {X Y : ZMod p}
    {res : List Constraints} (h : FloatCircuitDefine st ⟨row.E, row.M⟩ row.size X Y res) :
    res = row.queries.map fun n => ⟨n, row.oneTime⟩ := by
  obtain ⟨hs, ht⟩ := table_shapes row hr
  obtain ⟨x, g1, y, g2, g3, h1, h2, h3⟩ := h
  obtain ⟨k1, -⟩ := exec_cost hs (shape_newFloat X) (Running.new _ _) h1
  obtain ⟨k2, -⟩ := exec_cost hs (shape_newFloat Y) k1 h2
  rw [← ht]
  exact (countAll_eq hs _ _ (measured_shapes _ X x y) k2 h3).2.1

/-- **C58** The total for `n` operations in the files `constraints_<op> (T_RC = <size>).csv` may be computed by
multiplication (/repo/float/float_constraints_test.go:112-123): running the `i`-th measured operation `n`
times in a row, from any state a gadget can be in between operations, on any operands, adds `n` times the
published number. -/
theorem C58_repeated {st : Bool} {row : Published.Row} (hr : row ∈ Published.table) {i : ℕ} {c : List (Circ p Unit)}
    (hc : ∀ d ∈ c, ∃ X x y, (measuredOps ⟨row.E, row.M⟩ X x y)[i]? = some d) {g g' : IntGadget p} {ks : List Constraints}
    (hg : Running row.size (⟨row.E, row.M⟩ : Fmt).pow2Size g) (h : CountAll st c g ks g') (hi : i < row.queries.length) :
    g'.lookupQueryConstraints = g.lookupQueryConstraints + c.length * row.queries[i] := by
  obtain ⟨hs, ht⟩ := table_shapes row hr
  have hlen : i < (measuredShapes ⟨row.E, row.M⟩).length := by
    have := congrArg List.length ht
    simp only [List.length_map] at this
    omega
  have hi' : shapeCost row.size ((measuredShapes ⟨row.E, row.M⟩)[i]).1 ((measuredShapes ⟨row.E, row.M⟩)[i]).2 = row.queries[i] := by
    have := congrArg (fun l => (l[i]?).map Constraints.lookupQuery) ht
    simpa [List.getElem?_map, hlen, hi] using this
  have hf : List.Forall₂ (fun c l => HasShape (⟨row.E, row.M⟩ : Fmt).pow2Size c l.1 l.2) c
      (List.replicate c.length (measuredShapes ⟨row.E, row.M⟩)[i]) := by
    clear h
    induction c with
    | nil => exact .nil
    | cons d c ih =>
      refine .cons ?_ (ih fun d hd => hc d (by simp [hd]))
      obtain ⟨X, x, y, hd⟩ := hc d (by simp)
      have := List.forall₂_iff_get.1 (measured_shapes ⟨row.E, row.M⟩ X x y)
      obtain ⟨h1, rfl⟩ := List.getElem?_eq_some_iff.1 hd
      exact this.2 i h1 hlen
  have := (countAll_eq hs c _ hf hg h).2.2
  simpa [hi'] using this

/-- The honest run of a list of operations. -/
def runAll : List (Circ p Unit) → IntGadget p → Option (IntGadget p)
  | [], g => some g
  | c :: cs, g => (execRun c g).bind fun r => runAll cs r.2

theorem countAll_of_runAll {st : Bool} (cs : List (Circ p Unit)) : ∀ {g g' : IntGadget p}, runAll cs g = some g' →
    ∃ ks, CountAll st cs g ks g' := by
  induction cs with
  | nil => intro g g' h; simp only [runAll, Option.some.injEq] at h; exact ⟨[], rfl, h.symm⟩
  | cons c cs ih =>
    intro g g' h
    obtain ⟨⟨r, g1⟩, h1, h2⟩ := Option.bind_eq_some_iff.1 h
    obtain ⟨ks, h3⟩ := ih h2
    exact ⟨_, _, g1, ks, ⟨⟨r, exec_of_run h1⟩, rfl⟩, h3, rfl⟩

/-- The honest run of the measured circuit. -/
def runDefine (f : Fmt) (size : ℕ) (X Y : ZMod p) : Option (IntGadget p) :=
  (execRun (newFloat f X) (IntGadget.new size f.pow2Size)).bind fun x =>
    (execRun (newFloat f Y) x.2).bind fun y => runAll (measuredOps f X x.1 y.1) y.2

theorem define_of_run {st : Bool} {f : Fmt} {size : ℕ} {X Y : ZMod p} (h : (runDefine f size X Y).isSome = true) :
    ∃ res, FloatCircuitDefine st f size X Y res := by
  obtain ⟨g3, h⟩ := Option.isSome_iff_exists.1 h
  obtain ⟨⟨x, g1⟩, h1, h⟩ := Option.bind_eq_some_iff.1 h
  obtain ⟨⟨y, g2⟩, h2, h⟩ := Option.bind_eq_some_iff.1 h
  obtain ⟨ks, h3⟩ := countAll_of_runAll (st := st) _ h
  exact ⟨ks, x, g1, y, g2, g3, exec_of_run h1, exec_of_run h2, h3⟩

/-- **C58** The measured circuit can be satisfied, so the numbers are about something: for every row the
honest prover completes it, on the bit patterns of `1.5` and `0.75`. -/
theorem C58_measured_satisfiable : ∀ row ∈ Published.table, ∃ X Y : ZMod bn254, ∃ res,
    FloatCircuitDefine true ⟨row.E, row.M⟩ row.size X Y res := by
  have h : ∀ row ∈ Published.table, (runDefine (p := bn254) ⟨row.E, row.M⟩ row.size
      (3 * 2 ^ (row.M - 1) + (2 ^ (row.E - 1) - 2) * 2 ^ row.M) (3 * 2 ^ (row.M - 1) + (2 ^ (row.E - 1) - 3) * 2 ^ row.M)).isSome = true := by
    decide +kernel
  intro row hr
  exact ⟨_, _, define_of_run (h row hr)⟩

/-- Concrete case: the row of double precision at table width 12. -/
example {st : Bool} {X Y : ZMod bn254} {res : List Constraints} (h : FloatCircuitDefine st f64 12 X Y res) :
    res.map Constraints.lookupQuery = [24, 50, 50, 37, 42, 28, 7] := by
  rw [C58_published_counts (row := ⟨11, 52, 12, [24, 50, 50, 37, 42, 28, 7], 4163⟩) (by simp [Published.table]) h]; rfl

/-- Concrete case: three additions in a fresh gadget (single precision, table width 16). -/
example {st : Bool} {x y z : FloatVar bn254} {g : IntGadget bn254} {ks : List Constraints}
    (h : CountAll st [do let _ ← fAdd f32 x y; pure (), do let _ ← fAdd f32 y z; pure (), do let _ ← fAdd f32 z x; pure ()]
      (IntGadget.new 16 f32.pow2Size) ks g) : g.lookupQueryConstraints = 81 := by
  rw [C58_repeated (row := ⟨8, 23, 16, [14, 27, 27, 18, 23, 15, 4], 65571⟩) (i := 1) (by simp [Published.table])
    (by
      intro d hd
      simp only [List.mem_cons, List.not_mem_nil, or_false] at hd
      rcases hd with rfl | rfl | rfl
      · exact ⟨0, x, y, rfl⟩
      · exact ⟨0, y, z, rfl⟩
      · exact ⟨0, z, x, rfl⟩) (Running.new _ _) h (by decide)]
  rfl

end ZkLoc
