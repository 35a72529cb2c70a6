import Verif.R1csSpec
import Verif.Deferred

/-!
# The constraints of the deferred range checker

`CommitChecker.commit` runs after the circuit and turns the collected entries into limb wires, recomposition constraints and queries to the table `[0, 2^b)`. What then remains of a circuit is a system of
rank-1 constraints and two lists of lookups.
-/

namespace ZkLoc.R1cs

section
variable {p : ℕ}

/-- The compiler panics. -/
def bPanic {α : Type} : Bld p α := fun _ => none

/-- The wires of a hint with `n` outputs. -/
def newWires (n : ℕ) : Bld p (List (Lin p)) := fun σ => some ((List.range n).map fun i => .wire (σ.next + i), { σ with next := σ.next + n })

/-- `composed`, /repo/gadget/rangecheck.go:102-105. -/
def composed (b : ℕ) (limbs : List (Lin p)) : Lin p := limbs.zipIdx.foldl (fun acc t => acc.add (t.1.scale (2 ^ (b * t.2)))) (.lit 0)

/-- One entry, /repo/gadget/rangecheck.go:75-116: the queries to the range table. `NewHint` with no outputs is an error, and `commit` panics. -/
def commitEntry (b : ℕ) (x : Lin p) (bits : ℕ) (mode : Mode) : Bld p (List (Lin p)) :=
  let nbLimbs := decompSize bits b
  let diff := slack b bits
  if nbLimbs = 0 then bPanic
  else if nbLimbs = 1 then
    pure ((if mode = .smallAbs then x.scale (2 ^ diff) else x) :: (if mode = .unknown ∧ diff ≠ 0 then [x.scale (2 ^ diff)] else []))
  else do
    let limbs ← newWires nbLimbs
    bAssertEq (if mode = .smallAbs then x.scale (2 ^ diff) else x) (composed b limbs)
    pure (limbs ++ (if mode = .unknown ∧ diff ≠ 0 then [(limbs.getD (nbLimbs - 1) (.lit 0)).scale (2 ^ diff)] else []))

/-- All entries. -/
def commitAll (b : ℕ) : List (Lin p × ℕ × Mode) → Bld p (List (Lin p))
  | [] => pure []
  | c :: l => do
    let q ← commitEntry b c.1 c.2.1 c.2.2
    let qs ← commitAll b l
    pure (q ++ qs)

/-- What the proof system is given: rank-1 constraints, the queries to the range table and those to the powers-of-two table. -/
structure System (p : ℕ) where
  r1cs : List (Lin p × Lin p × Lin p)
  range : List (Lin p)
  pow2 : List (ℕ × Lin p)

/-- An assignment satisfies the system: the constraints hold and the queries are in the tables (`logderivarg.Build` is taken to check just this). -/
def System.Sat (b : ℕ) (w : Asg p) (s : System p) : Prop :=
  (∀ r ∈ s.r1cs, r.1.eval w * r.2.1.eval w = r.2.2.eval w) ∧ (∀ q ∈ s.range, inTable b (q.eval w) = true) ∧ ∀ q ∈ s.pow2, pow2Query q.1 (q.2.eval w) = true

/-- `frontend.Compile` of a circuit with `n` inputs (wires `0` to `n - 1`): the circuit, then the deferred `commit`; `none` if the compiler panics. -/
def compile (b n : ℕ) (m : Bld p Unit) : Option (System p) :=
  (m ⟨n, [], [], [], []⟩).bind fun r => (commitAll b r.2.checks.reverse { r.2 with checks := [] }).map fun s => ⟨s.2.r1cs, s.1, s.2.queries⟩

/-- The width of the range table for a circuit: given, or chosen from the collected lengths (`size = 0`), /repo/gadget/rangecheck.go:63-73. -/
def widthOf (be : Backend) (size n : ℕ) (m : Bld p Unit) : Option ℕ :=
  (m ⟨n, [], [], [], []⟩).map fun r => baseLength be size (r.2.checks.reverse.map fun c => c.2.1)

/-- The circuit with the width of its table. -/
def compileAuto (be : Backend) (size n : ℕ) (m : Bld p Unit) : Option (ℕ × System p) :=
  (widthOf be size n m).bind fun b => (compile b n m).map fun s => (b, s)

/-- The number of rank-1 constraints that a part of a circuit adds (`GetNbConstraints` before and after), `count_constraints` of /repo/float/float_constraints_test.go:43-54. -/
def countNative {α : Type} (m : Bld p α) : Bld p ℕ := fun σ => (m σ).map fun r => (r.2.r1cs.length - σ.r1cs.length, r.2)

/-- `FloatCircuit.Define`, /repo/float/float_constraints_test.go:55-74: the native constraints of the seven operations. Wires 0 and 1 are the inputs `X` and `Y`. -/
def floatCircuit (f : Fmt) : Bld p (List ℕ) := do
  let x ← newFloat f (.wire 0)
  let y ← newFloat f (.wire 1)
  let init ← countNative (newFloat f (.wire 0))
  let add ← countNative (fAdd f x y)
  let sub ← countNative (fSub f x y)
  let mul ← countNative (fMul f x y)
  let div ← countNative (fDiv f x y)
  let sqrt ← countNative (fSqrt f x)
  let cmp ← countNative (fIsLt f x y)
  pure [init, add, sub, mul, div, sqrt, cmp]

end

/-! ## Their meaning -/

variable {p : ℕ} {b : ℕ}

theorem eval_composed_aux (w : Asg p) : ∀ (limbs : List (Lin p)) (k : ℕ) (acc : Lin p),
    ((limbs.zipIdx k).foldl (fun acc t => acc.add (t.1.scale (2 ^ (b * t.2)))) acc).eval w = acc.eval w + 2 ^ (b * k) * compose b (limbs.map (Lin.eval w))
  | [], k, acc => by simp [compose]
  | l :: ls, k, acc => by
    rw [List.zipIdx_cons, List.foldl_cons, eval_composed_aux w ls (k + 1)]
    simp only [Lin.eval_add, Lin.eval_scale, List.map_cons, compose, Nat.mul_add, pow_add, mul_one]
    ring

theorem eval_composed (w : Asg p) (limbs : List (Lin p)) : (composed b limbs).eval w = compose b (limbs.map (Lin.eval w)) := by
  rw [composed, eval_composed_aux]; simp

theorem bound_composed_aux {n : ℕ} : ∀ (limbs : List (Lin p)) (k : ℕ) (acc : Lin p), (∀ l ∈ limbs, l.bound ≤ n) → acc.bound ≤ n →
    ((limbs.zipIdx k).foldl (fun acc t => acc.add (t.1.scale (2 ^ (b * t.2)))) acc).bound ≤ n
  | [], k, acc => fun _ h => by simpa
  | l :: ls, k, acc => fun hl ha => by
    rw [List.zipIdx_cons, List.foldl_cons]
    refine bound_composed_aux ls (k + 1) _ (fun q hq => hl q (List.mem_cons_of_mem _ hq)) ((Lin.bound_add _ _).trans (max_le ha ((Lin.bound_scale _ _).trans (hl l List.mem_cons_self))))

theorem bound_composed {n : ℕ} {limbs : List (Lin p)} (h : ∀ l ∈ limbs, l.bound ≤ n) : (composed b limbs).bound ≤ n := bound_composed_aux limbs 0 _ h (by simp)

/-- The queries of an entry under an assignment. -/
theorem eval_queries (w : Asg p) (x : Lin p) (bits : ℕ) (mode : Mode) (limbs : List (Lin p)) (h1 : decompSize bits b ≠ 1) :
    (limbs ++ (if mode = .unknown ∧ slack b bits ≠ 0 then [(limbs.getD (decompSize bits b - 1) (.lit 0)).scale (2 ^ slack b bits)] else [])).map (Lin.eval w) =
      rangeQueries b (x.eval w) bits mode (limbs.map (Lin.eval w)) := by
  unfold rangeQueries
  rw [if_neg h1, List.map_append]
  congr 1
  split
  · simp only [List.map_cons, List.map_nil, Lin.eval_scale]
    congr 2
    simp only [List.getD_eq_getElem?_getD, List.getElem?_map]
    cases limbs[decompSize bits b - 1]? <;> simp
  · rfl

theorem eval_scaled (w : Asg p) (x : Lin p) (bits : ℕ) (mode : Mode) :
    (if mode = .smallAbs then x.scale (2 ^ slack b bits) else x).eval w = if mode = .smallAbs then x.eval w * 2 ^ slack b bits else x.eval w := by
  split <;> simp

theorem assertEq_eval {w : Asg p} {σ σ' : Cs p} {x y : Lin p} {u : Unit} (h : bAssertEq x y σ = some (u, σ')) (hh : σ'.Holds b w) : x.eval w = y.eval w := by
  unfold bAssertEq at h
  split at h
  · rename_i k l hk hl
    split at h
    · rename_i e; rw [Lin.eval_const hk, Lin.eval_const hl, e]
    · simp at h
  · simp only [constrain, Option.some.injEq, Prod.mk.injEq] at h
    obtain ⟨-, rfl⟩ := h
    simpa using hh.1 _ (List.mem_cons_self)

theorem assertEq_checks {σ σ' : Cs p} {x y : Lin p} {u : Unit} (h : bAssertEq x y σ = some (u, σ')) : σ'.checks = σ.checks ∧ σ'.queries = σ.queries := by
  unfold bAssertEq at h
  split at h
  · split at h
    · simp only [Option.some.injEq, Prod.mk.injEq] at h; obtain ⟨-, rfl⟩ := h; exact ⟨rfl, rfl⟩
    · simp at h
  · simp only [constrain, Option.some.injEq, Prod.mk.injEq] at h; obtain ⟨-, rfl⟩ := h; exact ⟨rfl, rfl⟩

/-- The queries of an entry with several limbs. -/
def limbQueries (b : ℕ) (bits : ℕ) (mode : Mode) (limbs : List (Lin p)) : List (Lin p) :=
  limbs ++ (if mode = .unknown ∧ slack b bits ≠ 0 then [(limbs.getD (decompSize bits b - 1) (.lit 0)).scale (2 ^ slack b bits)] else [])

/-- The steps of an entry with several limbs. -/
theorem commitEntry_limbs {σ σ' : Cs p} {x : Lin p} {bits : ℕ} {mode : Mode} {qs : List (Lin p)} (h0 : decompSize bits b ≠ 0) (h1 : decompSize bits b ≠ 1) :
    commitEntry b x bits mode σ = some (qs, σ') ↔
      bAssertEq (if mode = .smallAbs then x.scale (2 ^ slack b bits) else x) (composed b ((List.range (decompSize bits b)).map fun i => .wire (σ.next + i)))
        { σ with next := σ.next + decompSize bits b } = some ((), σ') ∧ qs = limbQueries b bits mode ((List.range (decompSize bits b)).map fun i => .wire (σ.next + i)) := by
  unfold commitEntry
  rw [if_neg h0, if_neg h1]
  simp only [bind, newWires, Option.bind_some, pure]
  generalize bAssertEq _ _ _ = o
  rcases o with _ | ⟨u, τ⟩
  · simp
  · simp only [Option.bind_some, Option.some.injEq, Prod.mk.injEq, limbQueries]
    exact ⟨fun ⟨h, h'⟩ => ⟨⟨trivial, h'⟩, h.symm⟩, fun ⟨h, h'⟩ => ⟨h'.symm, h.2⟩⟩

theorem commitEntry_sound {w : Asg p} {σ σ' : Cs p} {x : Lin p} {bits : ℕ} {mode : Mode} {qs : List (Lin p)} (h : commitEntry b x bits mode σ = some (qs, σ')) (hh : σ'.Holds b w)
    (hq : ∀ q ∈ qs, inTable b (q.eval w) = true) : σ.Holds b w ∧ CheckSat b (x.eval w) bits mode := by
  by_cases h0 : decompSize bits b = 0
  · unfold commitEntry at h; rw [if_pos h0] at h; simp [bPanic] at h
  · by_cases h1 : decompSize bits b = 1
    · unfold commitEntry at h
      rw [if_neg h0, if_pos h1] at h
      obtain ⟨rfl, rfl⟩ : _ = qs ∧ σ = σ' := by simpa [pure] using h
      refine ⟨hh, [0], by simp [h1], ?_⟩
      rw [entryOk, recomposes, if_neg h0, if_pos h1, Bool.true_and, List.all_eq_true]
      rw [rangeQueries, if_pos h1]
      intro v hv
      rcases List.mem_cons.1 hv with rfl | hv
      · rw [← eval_scaled (b := b) w x bits mode]; exact hq _ List.mem_cons_self
      · split at hv
        · rename_i hm
          rw [List.mem_singleton.1 hv, ← Lin.eval_scale]
          exact hq _ (by simp [hm])
        · simp at hv
    · obtain ⟨e, rfl⟩ := (commitEntry_limbs h0 h1).1 h
      have hm : Cs.Holds b w { σ with next := σ.next + decompSize bits b } := mono_assertEq (b := b) w _ _ _ e hh
      have heq := assertEq_eval e hh
      refine ⟨hm, ((List.range (decompSize bits b)).map fun i => (Lin.wire (σ.next + i) : Lin p)).map (Lin.eval w), by simp, ?_⟩
      rw [entryOk, recomposes, if_neg h0, if_neg h1, ← eval_scaled (b := b), heq, eval_composed, ← eval_queries w x bits mode _ h1]
      simp only [decide_true, Bool.true_and, List.all_eq_true]
      intro v hv
      obtain ⟨q, hq', rfl⟩ := List.mem_map.1 hv
      exact hq q hq'

theorem commitEntry_checks {σ σ' : Cs p} {x : Lin p} {bits : ℕ} {mode : Mode} {qs : List (Lin p)} (h : commitEntry b x bits mode σ = some (qs, σ')) :
    σ'.checks = σ.checks ∧ σ'.queries = σ.queries := by
  by_cases h0 : decompSize bits b = 0
  · unfold commitEntry at h; rw [if_pos h0] at h; simp [bPanic] at h
  · by_cases h1 : decompSize bits b = 1
    · unfold commitEntry at h
      rw [if_neg h0, if_pos h1] at h
      obtain ⟨-, rfl⟩ : _ = qs ∧ σ = σ' := by simpa [pure] using h
      exact ⟨rfl, rfl⟩
    · have := assertEq_checks ((commitEntry_limbs h0 h1).1 h).1
      exact this

theorem bound_scaled {n : ℕ} {x : Lin p} (hx : x.bound ≤ n) (bits : ℕ) (mode : Mode) : (if mode = .smallAbs then x.scale (2 ^ slack b bits) else x).bound ≤ n := by
  split
  · exact (Lin.bound_scale _ _).trans hx
  · exact hx

theorem commitEntry_complete {w : Asg p} {σ : Cs p} {x : Lin p} {bits : ℕ} {mode : Mode} (wf : σ.WF) (hx : x.bound ≤ σ.next) (hh : σ.Holds b w) (hc : CheckSat b (x.eval w) bits mode) :
    ∃ qs σ' w', commitEntry b x bits mode σ = some (qs, σ') ∧ σ'.WF ∧ σ.next ≤ σ'.next ∧ Agree σ.next w w' ∧ σ'.Holds b w' ∧ (∀ q ∈ qs, q.bound ≤ σ'.next) ∧
      ∀ q ∈ qs, inTable b (q.eval w') = true := by
  obtain ⟨limbs, hl, hc⟩ := hc
  rw [entryOk, Bool.and_eq_true, List.all_eq_true] at hc
  obtain ⟨hr, hq⟩ := hc
  by_cases h0 : decompSize bits b = 0
  · simp [recomposes, h0] at hr
  by_cases h1 : decompSize bits b = 1
  · rw [rangeQueries, if_pos h1] at hq
    refine ⟨(if mode = .smallAbs then x.scale (2 ^ slack b bits) else x) :: (if mode = .unknown ∧ slack b bits ≠ 0 then [x.scale (2 ^ slack b bits)] else []), σ, w, ?_, wf, le_rfl, fun _ _ => rfl, hh, ?_, ?_⟩
    · unfold commitEntry
      rw [if_neg h0, if_pos h1]
      rfl
    · intro q hq
      rcases List.mem_cons.1 hq with rfl | hq
      · exact bound_scaled hx bits mode
      · split at hq
        · rw [List.mem_singleton.1 hq]; exact (Lin.bound_scale _ _).trans hx
        · simp at hq
    · intro q hq'
      rcases List.mem_cons.1 hq' with rfl | hq'
      · rw [eval_scaled]; exact hq _ List.mem_cons_self
      · split at hq'
        · rename_i hm
          rw [List.mem_singleton.1 hq', Lin.eval_scale]; exact hq _ (by simp [hm])
        · simp at hq'
  · have hag : Agree σ.next w (fun i => if i < σ.next then w i else limbs.getD (i - σ.next) 0) := fun i hi => if_pos hi
    obtain ⟨w', hw'⟩ : ∃ w' : Asg p, w' = fun i => if i < σ.next then w i else limbs.getD (i - σ.next) 0 := ⟨_, rfl⟩
    rw [← hw'] at hag
    have hlimbs : ((List.range (decompSize bits b)).map fun i => (Lin.wire (σ.next + i) : Lin p)).map (Lin.eval w') = limbs := by
      apply List.ext_getElem
      · simp [hl]
      · intro i h1 h2
        simp [hw', h2]
    have hxe : x.eval w' = x.eval w := Lin.eval_congr hag hx
    have heq : (if mode = .smallAbs then x.scale (2 ^ slack b bits) else x).eval w' =
        (composed b ((List.range (decompSize bits b)).map fun i => (.wire (σ.next + i) : Lin p))).eval w' := by
      rw [recomposes, if_neg h0, if_neg h1] at hr
      rw [eval_composed, hlimbs, eval_scaled, hxe]
      exact of_decide_eq_true hr
    have hbl : ∀ l ∈ ((List.range (decompSize bits b)).map fun i => (Lin.wire (σ.next + i) : Lin p)), l.bound ≤ σ.next + decompSize bits b := by
      intro l hl
      obtain ⟨i, hi, rfl⟩ := List.mem_map.1 hl
      rw [Lin.bound_wire]
      have := List.mem_range.1 hi
      omega
    have hcomp := ref_assertEq (b := b)
      (Γ := [((if mode = .smallAbs then x.scale (2 ^ slack b bits) else x), (if mode = .smallAbs then x.scale (2 ^ slack b bits) else x).eval w'),
        (composed b ((List.range (decompSize bits b)).map fun i => .wire (σ.next + i)), (composed b ((List.range (decompSize bits b)).map fun i => .wire (σ.next + i))).eval w')])
      (der_var List.mem_cons_self) (der_var (List.mem_cons_of_mem _ List.mem_cons_self))
    obtain ⟨⟨⟩, σ', w'', e, wf', hn, hag', hh', -⟩ := hcomp.complete w' { σ with next := σ.next + decompSize bits b } () (wf.grow (by omega)) (hh.congr wf hag) (by
      intro q hq
      rcases List.mem_cons.1 hq with rfl | hq
      · exact ⟨bound_scaled (hx.trans (by simp)) bits mode, rfl⟩
      · rw [List.mem_singleton.1 hq]
        exact ⟨bound_composed hbl, rfl⟩) ⟨decide_eq_true heq, rfl⟩
    have hn' : σ.next + decompSize bits b ≤ σ'.next := hn
    have hbq : ∀ q ∈ limbQueries b bits mode ((List.range (decompSize bits b)).map fun i => (Lin.wire (σ.next + i) : Lin p)), q.bound ≤ σ.next + decompSize bits b := by
      intro q hq
      rw [limbQueries, List.mem_append] at hq
      rcases hq with hq | hq
      · exact hbl q hq
      · split at hq
        · rw [List.mem_singleton.1 hq]
          refine (Lin.bound_scale _ _).trans ?_
          by_cases hlt : decompSize bits b - 1 < decompSize bits b
          · rw [List.getD_eq_getElem?_getD, List.getElem?_eq_getElem (by simpa using hlt), Option.getD_some]
            exact hbl _ (List.getElem_mem _)
          · omega
        · simp at hq
    refine ⟨_, σ', w'', (commitEntry_limbs h0 h1).2 ⟨e, rfl⟩, wf', by omega, hag.trans hag' (by simp), hh', fun q hq => (hbq q hq).trans hn', fun q hq' => ?_⟩
    rw [Lin.eval_congr hag' (hbq q hq')]
    refine hq _ ?_
    rw [← hlimbs, ← hxe, ← eval_queries w' x bits mode _ h1]
    exact List.mem_map_of_mem hq'

theorem commitAll_sound {w : Asg p} : ∀ {l : List (Lin p × ℕ × Mode)} {σ σ' : Cs p} {qs : List (Lin p)}, commitAll b l σ = some (qs, σ') → σ'.Holds b w → (∀ q ∈ qs, inTable b (q.eval w) = true) →
    σ.Holds b w ∧ (∀ c ∈ l, CheckSat b (c.1.eval w) c.2.1 c.2.2) ∧ σ'.checks = σ.checks
  | [], σ, σ', qs, h, hh, hq => by
    obtain ⟨-, rfl⟩ : [] = qs ∧ σ = σ' := by simpa [commitAll, pure] using h
    exact ⟨hh, by simp, rfl⟩
  | c :: l, σ, σ', qs, h, hh, hq => by
    unfold commitAll at h
    obtain ⟨⟨q1, σ1⟩, e1, e⟩ := Option.bind_eq_some_iff.1 h
    obtain ⟨⟨q2, σ2⟩, e2, e⟩ := Option.bind_eq_some_iff.1 e
    obtain ⟨rfl, rfl⟩ : q1 ++ q2 = qs ∧ σ2 = σ' := by simpa [pure] using e
    obtain ⟨h1, h2, h3⟩ := commitAll_sound e2 hh fun q hq' => hq q (List.mem_append_right _ hq')
    obtain ⟨h4, h5⟩ := commitEntry_sound e1 h1 fun q hq' => hq q (List.mem_append_left _ hq')
    refine ⟨h4, fun d hd => ?_, h3.trans (commitEntry_checks e1).1⟩
    rcases List.mem_cons.1 hd with rfl | hd
    · exact h5
    · exact h2 d hd

theorem commitAll_checks : ∀ {l : List (Lin p × ℕ × Mode)} {σ σ' : Cs p} {qs : List (Lin p)}, commitAll b l σ = some (qs, σ') → σ'.checks = σ.checks
  | [], σ, σ', qs, h => by
    obtain ⟨-, rfl⟩ : [] = qs ∧ σ = σ' := by simpa [commitAll, pure] using h
    rfl
  | c :: l, σ, σ', qs, h => by
    unfold commitAll at h
    obtain ⟨⟨q1, σ1⟩, e1, e⟩ := Option.bind_eq_some_iff.1 h
    obtain ⟨⟨q2, σ2⟩, e2, e⟩ := Option.bind_eq_some_iff.1 e
    obtain ⟨rfl, rfl⟩ : q1 ++ q2 = qs ∧ σ2 = σ' := by simpa [pure] using e
    exact (commitAll_checks e2).trans (commitEntry_checks e1).1

theorem commitAll_complete : ∀ {l : List (Lin p × ℕ × Mode)} {σ : Cs p} {w : Asg p}, σ.WF → (∀ c ∈ l, c.1.bound ≤ σ.next) → σ.Holds b w → (∀ c ∈ l, CheckSat b (c.1.eval w) c.2.1 c.2.2) →
    ∃ qs σ' w', commitAll b l σ = some (qs, σ') ∧ σ'.WF ∧ σ.next ≤ σ'.next ∧ Agree σ.next w w' ∧ σ'.Holds b w' ∧ (∀ q ∈ qs, q.bound ≤ σ'.next) ∧ ∀ q ∈ qs, inTable b (q.eval w') = true
  | [], σ, w, wf, _, hh, _ => ⟨[], σ, w, rfl, wf, le_rfl, fun _ _ => rfl, hh, by simp, by simp⟩
  | c :: l, σ, w, wf, hb, hh, hc => by
    obtain ⟨q1, σ1, w1, e1, wf1, n1, ag1, hh1, hb1, hq1⟩ := commitEntry_complete (b := b) wf (hb c List.mem_cons_self) hh (hc c List.mem_cons_self)
    obtain ⟨q2, σ2, w2, e2, wf2, n2, ag2, hh2, hb2, hq2⟩ := commitAll_complete (l := l) wf1 (fun d hd => (hb d (List.mem_cons_of_mem _ hd)).trans n1) hh1 fun d hd => by
      rw [Lin.eval_congr ag1 (hb d (List.mem_cons_of_mem _ hd))]; exact hc d (List.mem_cons_of_mem _ hd)
    refine ⟨q1 ++ q2, σ2, w2, ?_, wf2, n1.trans n2, ag1.trans ag2 n1, hh2, fun q hq => ?_, fun q hq => ?_⟩
    · unfold commitAll
      exact Option.bind_eq_some_iff.2 ⟨_, e1, Option.bind_eq_some_iff.2 ⟨_, e2, rfl⟩⟩
    · rcases List.mem_append.1 hq with hq | hq
      · exact (hb1 q hq).trans n2
      · exact hb2 q hq
    · rcases List.mem_append.1 hq with hq | hq
      · rw [Lin.eval_congr ag2 (hb1 q hq)]; exact hq1 q hq
      · exact hq2 q hq

/-- `Ref` from a given state. -/
structure RefAt {α β : Type} (b : ℕ) [Out p α β] (σ : Cs p) (Γ : Env p) (m : Bld p α) (c : Circ p β) : Prop where
  sound : ∀ w a σ', m σ = some (a, σ') → σ'.Holds b w → Γ.Ev w → σ.Bools w → c.Sat b true (Out.ev w a) ∧ σ'.Bools w
  complete : ∀ w r, σ.WF → σ.Holds b w → Γ.Ok σ.next w → c.Sat b true r →
    ∃ a σ' w', m σ = some (a, σ') ∧ σ'.WF ∧ σ.next ≤ σ'.next ∧ Agree σ.next w w' ∧ σ'.Holds b w' ∧ (Out.pairs a r).Ok σ'.next w'

theorem Ref.at {α β : Type} [Out p α β] {Γ : Env p} {m : Bld p α} {c : Circ p β} (h : Ref b Γ m c) (σ : Cs p) : RefAt b σ Γ m c := ⟨fun w => h.sound w σ, fun w => h.complete w σ⟩

/-- Whatever satisfies the compiled system is a result of the program. -/
theorem compile_sound {n : ℕ} {Γ : Env p} {m : Bld p Unit} {c : Circ p Unit} (h : RefAt b ⟨n, [], [], [], []⟩ Γ m c) {s : System p} (hs : compile b n m = some s) {w : Asg p} (hw : s.Sat b w) (hΓ : Γ.Ev w) : c.Sat b true () := by
  obtain ⟨⟨⟨⟩, σ⟩, e1, e⟩ := Option.bind_eq_some_iff.1 hs
  obtain ⟨⟨qs, σ'⟩, e2, rfl⟩ := Option.map_eq_some_iff.1 e
  have hck := commitAll_checks e2
  have hck : σ'.checks = [] := hck
  obtain ⟨h1, h2, -⟩ := commitAll_sound (w := w) e2 ⟨hw.1, by rw [hck]; simp, hw.2.2⟩ hw.2.1
  exact (h.sound w _ _ e1 ⟨h1.1, fun d hd => h2 d (List.mem_reverse.2 hd), h1.2.2⟩ hΓ (fun x hx => by simp at hx)).1

/-- What is marked as boolean while compiling has a boolean value in every satisfying assignment. -/
theorem compile_bools {n : ℕ} {Γ : Env p} {m : Bld p Unit} {c : Circ p Unit} (h : RefAt b ⟨n, [], [], [], []⟩ Γ m c) {s : System p} (hs : compile b n m = some s) {w : Asg p} (hw : s.Sat b w) (hΓ : Γ.Ev w) :
    ∃ σ, m ⟨n, [], [], [], []⟩ = some ((), σ) ∧ ∀ x ∈ σ.bools, x.eval w = 0 ∨ x.eval w = 1 := by
  obtain ⟨⟨⟨⟩, σ⟩, e1, e⟩ := Option.bind_eq_some_iff.1 hs
  obtain ⟨⟨qs, σ'⟩, e2, rfl⟩ := Option.map_eq_some_iff.1 e
  have hck : σ'.checks = [] := commitAll_checks e2
  obtain ⟨h1, h2, -⟩ := commitAll_sound (w := w) e2 ⟨hw.1, by rw [hck]; simp, hw.2.2⟩ hw.2.1
  refine ⟨σ, e1, fun x hx => isBool_iff.1 ?_⟩
  exact (h.sound w _ _ e1 ⟨h1.1, fun d hd => h2 d (List.mem_reverse.2 hd), h1.2.2⟩ hΓ (fun x hx => by simp at hx)).2 x hx

/-- A program with a result compiles, and the system has a solution. -/
theorem compile_complete {n : ℕ} {Γ : Env p} {m : Bld p Unit} {c : Circ p Unit} (h : RefAt b ⟨n, [], [], [], []⟩ Γ m c) {w : Asg p} (hΓ : Γ.Ok n w) (hc : c.Sat b true ()) :
    ∃ s w', compile b n m = some s ∧ Agree n w w' ∧ s.Sat b w' := by
  obtain ⟨⟨⟩, σ, w1, e1, wf1, n1, ag1, hh1, -⟩ := h.complete w () ⟨by simp, by simp, by simp⟩ ⟨by simp, by simp, by simp⟩ hΓ hc
  obtain ⟨qs, σ', w2, e2, wf2, n2, ag2, hh2, hb2, hq2⟩ := commitAll_complete (b := b) (l := σ.checks.reverse) (σ := { σ with checks := [] }) (w := w1) ⟨wf1.1, by simp, wf1.2.2⟩
    (fun c hc => wf1.2.1 c (List.mem_reverse.1 hc)) ⟨hh1.1, by simp, hh1.2.2⟩ fun c hc => hh1.2.1 c (List.mem_reverse.1 hc)
  refine ⟨⟨σ'.r1cs, qs, σ'.queries⟩, w2, ?_, ag1.trans ag2 n1, hh2.1, hq2, hh2.2.2⟩
  unfold compile
  rw [e1]
  exact Option.map_eq_some_iff.2 ⟨_, e2, rfl⟩

end ZkLoc.R1cs
