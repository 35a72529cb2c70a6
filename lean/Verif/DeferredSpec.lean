import Verif.Deferred
import Verif.RangeCheck

/-!
# Deferred and immediate range checks agree
-/

namespace ZkLoc

variable {p : ℕ} {α β : Type}

/-- The range checks and the number of power-of-two queries recorded by a circuit, provided that they
do not depend on wire values. -/
def HasShape (s : ℕ) : Circ p α → List (ℕ × Mode) → ℕ → Prop
  | .pure _, l, q => l = [] ∧ q = 0
  | .hint _ k, l, q => ∀ v, HasShape s (k v) l q
  | .assert _ k, l, q => HasShape s k l q
  | .soft _ k, l, q => HasShape s k l q
  | .check _ n m k, l, q => ∃ l', l = (n, m) :: l' ∧ HasShape s k l' q
  | .query s' _ k, l, q => s' = s ∧ ∃ q', q = q' + 1 ∧ HasShape s k l q'

theorem HasShape.bind {s : ℕ} {c : Circ p α} {d : α → Circ p β} {l l' : List (ℕ × Mode)} {q q' : ℕ}
    (h1 : HasShape s c l q) (h2 : ∀ a, HasShape s (d a) l' q') : HasShape s (Circ.bind c d) (l ++ l') (q + q') := by
  induction c generalizing l q with
  | pure a => obtain ⟨rfl, rfl⟩ := h1; simpa [Circ.bind] using h2 a
  | hint h k ih => intro v; exact ih v (h1 v)
  | assert c k ih => exact ih h1
  | soft c k ih => exact ih h1
  | check v n m k ih => obtain ⟨l1, rfl, h1⟩ := h1; exact ⟨l1 ++ l', rfl, ih h1⟩
  | query s' v k ih => obtain ⟨e, q1, rfl, h1⟩ := h1; exact ⟨e, q1 + q', by omega, ih h1⟩

/-! ### One emitted lookup argument = all entries -/

theorem holds_cons {b : ℕ} {e : Entry p} {es : List (Entry p)} {l : List (ZMod p)} {ls : List (List (ZMod p))} :
    (⟨b, e :: es⟩ : Emitted p).Holds (l :: ls) ↔
      (l.length = decompSize e.bits b ∧ entryOk b e.v e.bits e.mode l = true) ∧ (⟨b, es⟩ : Emitted p).Holds ls := by
  unfold Emitted.Holds Emitted.decomposed entryOk
  simp only [List.forall₂_cons, List.zip_cons_cons, List.map_cons, List.flatten_cons, List.mem_append, Bool.and_eq_true,
    List.all_eq_true]
  constructor
  · rintro ⟨⟨⟨h1, h2⟩, h3⟩, h4⟩
    exact ⟨⟨h1, h2, fun x hx => h4 x (Or.inl hx)⟩, h3, fun x hx => h4 x (Or.inr hx)⟩
  · rintro ⟨⟨h1, h2, h5⟩, h3, h4⟩
    exact ⟨⟨⟨h1, h2⟩, h3⟩, fun x hx => hx.elim (h5 x) (h4 x)⟩

theorem holds_nil {b : ℕ} {ls : List (List (ZMod p))} : (⟨b, []⟩ : Emitted p).Holds ls ↔ ls = [] := by
  unfold Emitted.Holds Emitted.decomposed
  cases ls <;> simp

theorem emitted_sat {b : ℕ} {es : List (Entry p)} :
    (∃ limbs, (⟨b, es⟩ : Emitted p).Holds limbs) ↔ ∀ e ∈ es, CheckSat b e.v e.bits e.mode := by
  induction es with
  | nil => simp [holds_nil]
  | cons e es ih =>
    rw [List.forall_mem_cons, ← ih]
    constructor
    · rintro ⟨_ | ⟨l, ls⟩, h⟩
      · exact absurd h.1 (by simp)
      · obtain ⟨h1, h2⟩ := holds_cons.1 h
        exact ⟨⟨l, h1⟩, ls, h2⟩
    · rintro ⟨⟨l, h1⟩, ls, h2⟩
      exact ⟨l :: ls, holds_cons.2 ⟨h1, h2⟩⟩

theorem decomposeHint_len (b n t : ℕ) : (decomposeHint b n t).length = n := by
  induction n generalizing t with
  | zero => rfl
  | succ n ih => simp [decomposeHint, ih]

theorem honestLimbs_length (b : ℕ) (v : ZMod p) (bits : ℕ) (mode : Mode) :
    (honestLimbs b v bits mode).length = decompSize bits b := by
  unfold honestLimbs; rw [List.length_map, decomposeHint_len]

theorem emitted_run {b : ℕ} {es : List (Entry p)} :
    (⟨b, es⟩ : Emitted p).Holds (⟨b, es⟩ : Emitted p).honest ↔ ∀ e ∈ es, checkRun b e.v e.bits e.mode = true := by
  induction es with
  | nil => simp [holds_nil, Emitted.honest]
  | cons e es ih =>
    rw [List.forall_mem_cons, ← ih]
    show (⟨b, e :: es⟩ : Emitted p).Holds (honestLimbs b e.v e.bits e.mode :: (⟨b, es⟩ : Emitted p).honest) ↔ _
    rw [holds_cons]
    simp [honestLimbs_length, checkRun]

theorem commit_sat {be : Backend} {c : Checker p} (hc : c.closed = false) :
    commitSat (c.commit be).1 ↔ ∀ e ∈ c.collected, CheckSat (baseLength be c.size (c.collected.map Entry.bits)) e.v e.bits e.mode := by
  unfold Checker.commit
  rw [hc]
  by_cases h : c.collected.length = 0
  · rw [if_neg (by simp), if_pos h, List.length_eq_zero_iff.1 h]
    simp [commitSat]
  · rw [if_neg (by simp), if_neg h]
    exact emitted_sat

theorem commit_run {be : Backend} {c : Checker p} (hc : c.closed = false) :
    commitRun (c.commit be).1 ↔ ∀ e ∈ c.collected, checkRun (baseLength be c.size (c.collected.map Entry.bits)) e.v e.bits e.mode = true := by
  unfold Checker.commit
  rw [hc]
  by_cases h : c.collected.length = 0
  · rw [if_neg (by simp), if_pos h, List.length_eq_zero_iff.1 h]
    simp [commitRun]
  · rw [if_neg (by simp), if_neg h]
    exact emitted_run

/-! ### Recording -/

theorem assertBitLength_some {g g1 : IntGadget p} {v : ZMod p} {n : ℕ} {m : Mode} (h : g.assertBitLength v n m = some g1) :
    g.checker.closed = false ∧ g1.checker = { g.checker with collected := g.checker.collected ++ [⟨v, n, m⟩] } ∧
      g1.queries = g.queries ∧ g1.pow2Size = g.pow2Size ∧ g1.rangeSize = g.rangeSize ∧ g1.numPow2Queries = g.numPow2Queries := by
  unfold IntGadget.assertBitLength Checker.check at h
  cases hc : g.checker.closed
  · rw [hc] at h
    simp only [Bool.false_eq_true, if_false] at h
    by_cases h0 : 0 < g.rangeSize
    · rw [if_pos h0] at h; cases h
      refine ⟨rfl, ?_, rfl, rfl, rfl, rfl⟩
      simp [hc]
    · rw [if_neg h0] at h; cases h
      refine ⟨rfl, ?_, rfl, rfl, rfl, rfl⟩
      simp [hc]
  · rw [hc] at h; simp at h

theorem assertBitLength_isSome {g : IntGadget p} (hc : g.checker.closed = false) (v : ZMod p) (n : ℕ) (m : Mode) :
    ∃ g1, g.assertBitLength v n m = some g1 := by
  unfold IntGadget.assertBitLength Checker.check
  rw [hc]
  simp only [Bool.false_eq_true, if_false]
  split <;> exact ⟨_, rfl⟩

/-- Nothing is lost or added while recording. -/
structure Records (s : ℕ) (g g' : IntGadget p) (l : List (ℕ × Mode)) (q : ℕ) : Prop where
  closed : g'.checker.closed = false
  size : g'.checker.size = g.checker.size
  collected : g'.checker.collected.map (fun e => (e.bits, e.mode)) = g.checker.collected.map (fun e => (e.bits, e.mode)) ++ l
  queries : g'.queries.length = g.queries.length + q
  pow2 : g'.pow2Size = s

theorem exec_records {s : ℕ} {st : Bool} {c : Circ p α} {g g' : IntGadget p} {r : α} {l : List (ℕ × Mode)} {q : ℕ}
    (h : Exec st c g r g') (hs : HasShape s c l q) (hg : g.pow2Size = s) (hc : g.checker.closed = false) :
    Records s g g' l q := by
  induction c generalizing g l q with
  | pure a =>
    obtain ⟨rfl, rfl⟩ := h
    obtain ⟨rfl, rfl⟩ := hs
    exact ⟨hc, rfl, by simp, by simp, hg⟩
  | hint h' k ih => obtain ⟨v, h⟩ := h; exact ih v h (hs v) hg hc
  | assert c k ih => exact ih h.2 hs hg hc
  | soft c k ih => exact ih h.2 hs hg hc
  | check v n m k ih =>
    obtain ⟨g1, h1, h⟩ := h
    obtain ⟨l', rfl, hs⟩ := hs
    obtain ⟨_, e1, e2, e3, e4, _⟩ := assertBitLength_some h1
    have := ih h hs (e3.trans hg) (by rw [e1]; exact hc)
    refine ⟨this.closed, by rw [this.size, e1], ?_, by rw [this.queries, e2], this.pow2⟩
    rw [this.collected, e1]; simp
  | query s' v k ih =>
    obtain ⟨h1, h⟩ := h
    obtain ⟨_, q', rfl, hs⟩ := hs
    have := ih h hs hg hc
    exact ⟨this.closed, this.size, this.collected, by rw [this.queries]; simp [IntGadget.addQuery]; omega, this.pow2⟩

/-- All recorded constraints are satisfiable at base width `b`. -/
def RecordedSat (b s : ℕ) (g : IntGadget p) : Prop :=
  (∀ e ∈ g.checker.collected, CheckSat b e.v e.bits e.mode) ∧ ∀ q ∈ g.queries, pow2Query s q = true

/-- All recorded constraints hold honestly at base width `b`. -/
def RecordedRun (b s : ℕ) (g : IntGadget p) : Prop :=
  (∀ e ∈ g.checker.collected, checkRun b e.v e.bits e.mode = true) ∧ ∀ q ∈ g.queries, pow2Query s q = true

theorem exec_sat {b s : ℕ} {st : Bool} {c : Circ p α} {g : IntGadget p} {r : α} {l : List (ℕ × Mode)} {q : ℕ}
    (hs : HasShape s c l q) (hg : g.pow2Size = s) (hc : g.checker.closed = false) :
    (∃ g', Exec st c g r g' ∧ RecordedSat b s g') ↔ RecordedSat b s g ∧ c.Sat b st r := by
  induction c generalizing g l q with
  | pure a =>
    simp only [Exec, Circ.Sat]
    constructor
    · rintro ⟨g', ⟨h1, rfl⟩, h2⟩; exact ⟨h2, h1⟩
    · rintro ⟨h1, h2⟩; exact ⟨g, ⟨h2, rfl⟩, h1⟩
  | hint h' k ih =>
    simp only [Exec, Circ.Sat]
    constructor
    · rintro ⟨g', ⟨v, h⟩, h2⟩
      obtain ⟨h3, h4⟩ := (ih v (hs v) hg hc).1 ⟨g', h, h2⟩
      exact ⟨h3, v, h4⟩
    · rintro ⟨h3, v, h4⟩
      obtain ⟨g', h, h2⟩ := (ih v (hs v) hg hc).2 ⟨h3, h4⟩
      exact ⟨g', ⟨v, h⟩, h2⟩
  | assert c k ih =>
    simp only [Exec, Circ.Sat]
    constructor
    · rintro ⟨g', ⟨h0, h⟩, h2⟩
      obtain ⟨h3, h4⟩ := (ih hs hg hc).1 ⟨g', h, h2⟩
      exact ⟨h3, h0, h4⟩
    · rintro ⟨h3, h0, h4⟩
      obtain ⟨g', h, h2⟩ := (ih hs hg hc).2 ⟨h3, h4⟩
      exact ⟨g', ⟨h0, h⟩, h2⟩
  | soft c k ih =>
    simp only [Exec, Circ.Sat]
    constructor
    · rintro ⟨g', ⟨h0, h⟩, h2⟩
      obtain ⟨h3, h4⟩ := (ih hs hg hc).1 ⟨g', h, h2⟩
      exact ⟨h3, h0, h4⟩
    · rintro ⟨h3, h0, h4⟩
      obtain ⟨g', h, h2⟩ := (ih hs hg hc).2 ⟨h3, h4⟩
      exact ⟨g', ⟨h0, h⟩, h2⟩
  | check v n m k ih =>
    obtain ⟨l', rfl, hs⟩ := hs
    have key : ∀ {g1}, g.assertBitLength v n m = some g1 → (RecordedSat b s g1 ↔ RecordedSat b s g ∧ CheckSat b v n m) := by
      intro g1 h1
      obtain ⟨_, e1, e2, _⟩ := assertBitLength_some h1
      unfold RecordedSat
      rw [e1, e2]
      simp only [List.mem_append, List.mem_singleton]
      constructor
      · rintro ⟨h1, h2⟩; exact ⟨⟨fun e he => h1 e (Or.inl he), h2⟩, h1 _ (Or.inr rfl)⟩
      · rintro ⟨⟨h1, h2⟩, h3⟩
        exact ⟨fun e he => he.elim (h1 e) (fun he => he ▸ h3), h2⟩
    simp only [Exec, Circ.Sat]
    constructor
    · rintro ⟨g', ⟨g1, h1, h⟩, h2⟩
      obtain ⟨_, e1, e2, e3, _⟩ := assertBitLength_some h1
      obtain ⟨h3, h4⟩ := (ih hs (e3.trans hg) (by rw [e1]; exact hc)).1 ⟨g', h, h2⟩
      obtain ⟨h5, h6⟩ := (key h1).1 h3
      exact ⟨h5, h6, h4⟩
    · rintro ⟨h5, h6, h4⟩
      obtain ⟨g1, h1⟩ := assertBitLength_isSome hc v n m
      obtain ⟨_, e1, e2, e3, _⟩ := assertBitLength_some h1
      obtain ⟨g', h, h2⟩ := (ih hs (e3.trans hg) (by rw [e1]; exact hc)).2 ⟨(key h1).2 ⟨h5, h6⟩, h4⟩
      exact ⟨g', ⟨g1, h1, h⟩, h2⟩
  | query s' v k ih =>
    obtain ⟨hss, q', rfl, hs⟩ := hs
    have key : RecordedSat b s (g.addQuery v) ↔ RecordedSat b s g ∧ pow2Query s v = true := by
      unfold RecordedSat IntGadget.addQuery
      simp only [List.mem_append, List.mem_singleton]
      constructor
      · rintro ⟨h1, h2⟩; exact ⟨⟨h1, fun e he => h2 e (Or.inl he)⟩, h2 _ (Or.inr rfl)⟩
      · rintro ⟨⟨h1, h2⟩, h3⟩
        exact ⟨h1, fun e he => he.elim (h2 e) (fun he => he ▸ h3)⟩
    simp only [Exec, Circ.Sat]
    rw [hss]
    constructor
    · rintro ⟨g', ⟨_, h⟩, h2⟩
      obtain ⟨h3, h4⟩ := (ih hs (g := g.addQuery v) hg hc).1 ⟨g', h, h2⟩
      obtain ⟨h5, h6⟩ := key.1 h3
      exact ⟨h5, h6, h4⟩
    · rintro ⟨h5, h6, h4⟩
      obtain ⟨g', h, h2⟩ := (ih hs (g := g.addQuery v) hg hc).2 ⟨key.2 ⟨h5, h6⟩, h4⟩
      exact ⟨g', ⟨hg.symm, h⟩, h2⟩

/-- The honest execution is one of the executions. -/
theorem exec_of_run {st : Bool} {c : Circ p α} {g g' : IntGadget p} {r : α} (h : execRun c g = some (r, g')) : Exec st c g r g' := by
  induction c generalizing g with
  | pure a => simp only [execRun, Option.some.injEq, Prod.mk.injEq] at h; exact ⟨h.1.symm, h.2.symm⟩
  | hint h' k ih =>
    cases h' with
    | none => simp [execRun] at h
    | some v => exact ⟨v, ih v h⟩
  | assert c k ih =>
    simp only [execRun] at h
    split at h
    · exact ⟨by assumption, ih h⟩
    · simp at h
  | soft c k ih =>
    simp only [execRun] at h
    split at h
    · exact ⟨fun _ => by assumption, ih h⟩
    · simp at h
  | check v n m k ih =>
    simp only [execRun] at h
    cases hg : g.assertBitLength v n m with
    | none => rw [hg] at h; simp at h
    | some g1 => rw [hg] at h; exact ⟨g1, hg, ih h⟩
  | query s v k ih =>
    simp only [execRun] at h
    split at h
    · exact ⟨by assumption, ih h⟩
    · simp at h

theorem exec_run {b s : ℕ} {c : Circ p α} {g : IntGadget p} {r : α} {l : List (ℕ × Mode)} {q : ℕ}
    (hs : HasShape s c l q) (hg : g.pow2Size = s) (hc : g.checker.closed = false) :
    (∃ g', execRun c g = some (r, g') ∧ RecordedRun b s g') ↔ RecordedRun b s g ∧ c.run b = some r := by
  induction c generalizing g l q with
  | pure a =>
    simp only [execRun, Circ.run, Option.some.injEq, Prod.mk.injEq]
    constructor
    · rintro ⟨g', ⟨h1, rfl⟩, h2⟩; exact ⟨h2, h1⟩
    · rintro ⟨h1, h2⟩; exact ⟨g, ⟨h2, rfl⟩, h1⟩
  | hint h' k ih =>
    cases h' with
    | none => simp [execRun, Circ.run]
    | some v => exact ih v (hs v) hg hc
  | assert c k ih =>
    cases c
    · simp [execRun, Circ.run]
    · simpa [execRun, Circ.run] using ih hs hg hc
  | soft c k ih =>
    cases c
    · simp [execRun, Circ.run]
    · simpa [execRun, Circ.run] using ih hs hg hc
  | check v n m k ih =>
    obtain ⟨l', rfl, hs⟩ := hs
    obtain ⟨g1, h1⟩ := assertBitLength_isSome hc v n m
    obtain ⟨_, e1, e2, e3, _⟩ := assertBitLength_some h1
    have key : RecordedRun b s g1 ↔ RecordedRun b s g ∧ checkRun b v n m = true := by
      unfold RecordedRun
      rw [e1, e2]
      simp only [List.mem_append, List.mem_singleton]
      constructor
      · rintro ⟨h1, h2⟩; exact ⟨⟨fun e he => h1 e (Or.inl he), h2⟩, h1 _ (Or.inr rfl)⟩
      · rintro ⟨⟨h1, h2⟩, h3⟩
        exact ⟨fun e he => he.elim (h1 e) (fun he => he ▸ h3), h2⟩
    simp only [execRun, Circ.run, h1]
    rw [ih hs (e3.trans hg) (by rw [e1]; exact hc), key]
    cases checkRun b v n m <;> simp
  | query s' v k ih =>
    obtain ⟨hss, q', rfl, hs⟩ := hs
    have key : RecordedRun b s (g.addQuery v) ↔ RecordedRun b s g ∧ pow2Query s v = true := by
      unfold RecordedRun IntGadget.addQuery
      simp only [List.mem_append, List.mem_singleton]
      constructor
      · rintro ⟨h1, h2⟩; exact ⟨⟨h1, fun e he => h2 e (Or.inl he)⟩, h2 _ (Or.inr rfl)⟩
      · rintro ⟨⟨h1, h2⟩, h3⟩
        exact ⟨h1, fun e he => he.elim (h2 e) (fun he => he ▸ h3)⟩
    simp only [execRun, Circ.run]
    rw [hss, if_pos hg.symm, ih hs (g := g.addQuery v) hg hc, key]
    cases pow2Query s v <;> simp

/-- **Deferred = immediate**, every prover. -/
theorem accepts_iff {be : Backend} {st : Bool} {size s : ℕ} {c : Circ p α} {r : α} {l : List (ℕ × Mode)} {q : ℕ}
    (hs : HasShape s c l q) :
    Accepts be st size s c r ↔ c.Sat (baseLength be size (l.map Prod.fst)) st r := by
  have h0 : RecordedSat (baseLength be size (l.map Prod.fst)) s (IntGadget.new size s : IntGadget p) := by
    simp [RecordedSat, IntGadget.new, Checker.new]
  have key := exec_sat (b := baseLength be size (l.map Prod.fst)) (st := st) (g := (IntGadget.new size s : IntGadget p)) (r := r)
    hs rfl rfl
  unfold Accepts
  rw [show c.Sat _ st r ↔ _ from ⟨fun h => key.2 ⟨h0, h⟩, fun h => (key.1 h).2⟩]
  refine exists_congr fun g => and_congr_right fun h => ?_
  have hr := exec_records h hs rfl rfl
  have hb : g.checker.collected.map Entry.bits = l.map Prod.fst := by
    have := congrArg (List.map Prod.fst) hr.collected
    simpa [IntGadget.new, Checker.new, Function.comp_def] using this
  rw [commit_sat hr.closed, hr.size, hb]
  rfl

/-- **Deferred = immediate**, honest prover. -/
theorem acceptsHonest_iff {be : Backend} {size s : ℕ} {c : Circ p α} {r : α} {l : List (ℕ × Mode)} {q : ℕ}
    (hs : HasShape s c l q) :
    AcceptsHonest be size s c r ↔ c.run (baseLength be size (l.map Prod.fst)) = some r := by
  have h0 : RecordedRun (baseLength be size (l.map Prod.fst)) s (IntGadget.new size s : IntGadget p) := by
    simp [RecordedRun, IntGadget.new, Checker.new]
  have key := exec_run (b := baseLength be size (l.map Prod.fst)) (g := (IntGadget.new size s : IntGadget p)) (r := r)
    hs rfl rfl
  unfold AcceptsHonest
  rw [show c.run _ = some r ↔ _ from ⟨fun h => key.2 ⟨h0, h⟩, fun h => (key.1 h).2⟩]
  refine exists_congr fun g => and_congr_right fun h => ?_
  have hr := exec_records (st := false) (exec_of_run h) hs rfl rfl
  have hb : g.checker.collected.map Entry.bits = l.map Prod.fst := by
    have := congrArg (List.map Prod.fst) hr.collected
    simpa [IntGadget.new, Checker.new, Function.comp_def] using this
  rw [commit_run hr.closed, hr.size, hb]
  rfl

end ZkLoc
