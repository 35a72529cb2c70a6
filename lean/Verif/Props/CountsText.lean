import Verif.CountsText
import Verif.R1csAgain
import Verif.Spec.CountsFiles
import Verif.Props.R1cs

/-!
# Property C87: the totals for many operations

`TestFloatCircuitConstraints` measures every operation once and multiplies ("guaranteed to be accurate", /repo/float/float_constraints_test.go:112-115). Here the circuits with `n` operations are compiled.
-/

namespace ZkLoc

open R1cs (Op Bld Cs Lin FV)
open CountsText (Measured Turn)

/-! ### What an operation costs the second time -/

/-- The published number of native constraints of an operation. -/
def Published.nativeOf (o : Op) : ℕ := Published.native.getD (Op.all.idxOf o) 0

/-- The operations with their published numbers. -/
def Published.priced : List (Op × ℕ) := Op.all.map fun o => (o, Published.nativeOf o)

theorem Published.mem_priced (o : Op) : (o, Published.nativeOf o) ∈ Published.priced := by cases o <;> decide

/-- **C87** The operations spoken of here are the measured ones: the circuit of the test reads the two inputs and measures them in turn. -/
theorem C87_measured_ops {p : ℕ} (f : Fmt) : (R1cs.floatCircuit f : Bld p (List ℕ)) = (do
    let xy ← R1cs.readBoth f (.wire 0) (.wire 1)
    let init ← R1cs.countNative (Op.run f (.wire 0) xy.1 xy.2 .init)
    let add ← R1cs.countNative (Op.run f (.wire 0) xy.1 xy.2 .add)
    let sub ← R1cs.countNative (Op.run f (.wire 0) xy.1 xy.2 .sub)
    let mul ← R1cs.countNative (Op.run f (.wire 0) xy.1 xy.2 .mul)
    let div ← R1cs.countNative (Op.run f (.wire 0) xy.1 xy.2 .div)
    let sqrt ← R1cs.countNative (Op.run f (.wire 0) xy.1 xy.2 .sqrt)
    let cmp ← R1cs.countNative (Op.run f (.wire 0) xy.1 xy.2 .cmp)
    pure [init, add, sub, mul, div, sqrt, cmp]) := by
  have hd : ∀ {α : Type} (m : Bld p α), R1cs.countNative (do let _ ← m; pure () : Bld p Unit) = R1cs.countNative m := by
    intro α m
    funext σ
    show ((m σ).bind fun r => some ((), r.2)).map _ = (m σ).map _
    cases m σ <;> rfl
  have hb : ∀ {α : Type} (k : FV (Lin p) × FV (Lin p) → Bld p α), (R1cs.readBoth f (.wire 0) (.wire 1) >>= k) = (do let x ← R1cs.newFloat f (.wire 0); let y ← R1cs.newFloat f (.wire 1); k (x, y)) := by
    intro α k
    funext σ
    show (((R1cs.newFloat f (.wire 0) : Bld p _) σ).bind fun r => ((R1cs.newFloat f (.wire 1) : Bld p _) r.2).bind fun s => some ((r.1, s.1), s.2)).bind (fun r => k r.1 r.2) =
      ((R1cs.newFloat f (.wire 0) : Bld p _) σ).bind fun r => ((R1cs.newFloat f (.wire 1) : Bld p _) r.2).bind fun s => k (r.1, s.1) s.2
    rw [Option.bind_assoc]
    congr 1
    funext r
    rw [Option.bind_assoc]
    rfl
  rw [hb]
  simp only [Op.run, hd]
  rfl

/-- The two inputs are read, then `startOk`. -/
def readOk (f : Fmt) (p : ℕ) (pre : List Op) (os : List (Op × ℕ)) : Bool :=
  match R1cs.readBoth f (.wire 0) (.wire 1) (R1cs.empty 2 : Cs p) with
  | none => false
  | some (xy, σ) => R1cs.startOk f pre os xy.1 xy.2 σ

/-- The starts that are compared: the measured circuit as a whole, and every operation alone. -/
theorem starts_ok : ∀ row ∈ Published.table, readOk ⟨row.E, row.M⟩ bn254 Op.all Published.priced = true ∧
    ∀ o, readOk ⟨row.E, row.M⟩ bn254 [o] [(o, Published.nativeOf o)] = true := by
  have h32 : readOk ⟨8, 23⟩ bn254 Op.all Published.priced = true ∧ ∀ o ∈ Op.all, readOk ⟨8, 23⟩ bn254 [o] [(o, Published.nativeOf o)] = true := by decide +kernel
  have h64 : readOk ⟨11, 52⟩ bn254 Op.all Published.priced = true ∧ ∀ o ∈ Op.all, readOk ⟨11, 52⟩ bn254 [o] [(o, Published.nativeOf o)] = true := by decide +kernel
  have hall : ∀ o : Op, o ∈ Op.all := fun o => by cases o <;> decide
  intro row hr
  simp only [Published.table, List.mem_cons, List.not_mem_nil, or_false] at hr
  rcases hr with rfl | rfl | rfl | rfl | rfl | rfl
  · exact ⟨h32.1, fun o => h32.2 o (hall o)⟩
  · exact ⟨h32.1, fun o => h32.2 o (hall o)⟩
  · exact ⟨h32.1, fun o => h32.2 o (hall o)⟩
  · exact ⟨h64.1, fun o => h64.2 o (hall o)⟩
  · exact ⟨h64.1, fun o => h64.2 o (hall o)⟩
  · exact ⟨h64.1, fun o => h64.2 o (hall o)⟩

/-- The first time costs the same. -/
theorem firsts_ok : ∀ row ∈ Published.table, ∃ x y σ, R1cs.readBoth ⟨row.E, row.M⟩ (.wire 0) (.wire 1) (R1cs.empty 2 : Cs bn254) = some ((x, y), σ) ∧
    ∀ o : Op, ∃ σ1, o.run ⟨row.E, row.M⟩ (.wire 0) x y σ = some ((), σ1) ∧ σ1.r1cs.length = σ.r1cs.length + Published.nativeOf o := by
  have key : ∀ f : Fmt, (match R1cs.readBoth f (.wire 0) (.wire 1) (R1cs.empty 2 : Cs bn254) with
      | none => false
      | some (xy, σ) => Op.all.all fun o => match o.run f (.wire 0) xy.1 xy.2 σ with
        | none => false
        | some (_, σ1) => decide (σ1.r1cs.length = σ.r1cs.length + Published.nativeOf o)) = true →
      ∃ x y σ, R1cs.readBoth f (.wire 0) (.wire 1) (R1cs.empty 2 : Cs bn254) = some ((x, y), σ) ∧ ∀ o : Op, ∃ σ1, o.run f (.wire 0) x y σ = some ((), σ1) ∧ σ1.r1cs.length = σ.r1cs.length + Published.nativeOf o := by
    intro f h
    split at h
    · simp at h
    · rename_i xy σ h1
      refine ⟨xy.1, xy.2, σ, h1, fun o => ?_⟩
      have := List.all_eq_true.1 h o (by cases o <;> decide)
      split at this
      · simp at this
      · rename_i u σ1 h2
        exact ⟨σ1, h2, of_decide_eq_true this⟩
  have h32 := key ⟨8, 23⟩ (by decide +kernel)
  have h64 := key ⟨11, 52⟩ (by decide +kernel)
  intro row hr
  simp only [Published.table, List.mem_cons, List.not_mem_nil, or_false] at hr
  rcases hr with rfl | rfl | rfl | rfl | rfl | rfl
  exacts [h32, h32, h32, h64, h64, h64]

theorem start_of_read {f : Fmt} {pre : List Op} {os : List (Op × ℕ)} {x y : FV (Lin bn254)} {σ : Cs bn254} (h : readOk f bn254 pre os = true)
    (h1 : R1cs.readBoth f (.wire 0) (.wire 1) (R1cs.empty 2 : Cs bn254) = some ((x, y), σ)) : R1cs.startOk f pre os x y σ = true := by
  unfold readOk at h
  rw [h1] at h
  exact h

theorem sum_map_const {α : Type} (l : List α) (c : ℕ) : (l.map fun _ => c).sum = l.length * c := by simp

/-- **C87** The number of native constraints of `n` operations is `n` times the published number, for every `n`, every row of the published table and every measured operation: no operation is cheaper or dearer the second time. -/
theorem C87_repeated {row : Published.Row} (hr : row ∈ Published.table) :
    ∃ x y σ, R1cs.readBoth ⟨row.E, row.M⟩ (.wire 0) (.wire 1) (R1cs.empty 2 : Cs bn254) = some ((x, y), σ) ∧ ∀ (o : Op) (n : ℕ),
      ∃ τ, R1cs.runAll (List.replicate n (o.run ⟨row.E, row.M⟩ (.wire 0) x y)) σ = some ((), τ) ∧ τ.r1cs.length = σ.r1cs.length + n * Published.nativeOf o := by
  obtain ⟨x, y, σ, h1, h2⟩ := firsts_ok row hr
  refine ⟨x, y, σ, h1, fun o n => ?_⟩
  cases n with
  | zero => exact ⟨σ, rfl, by simp⟩
  | succ n =>
    obtain ⟨σ1, h3, h4⟩ := h2 o
    obtain ⟨σ1', h5, h6⟩ := R1cs.sequence_of_start (start_of_read ((starts_ok row hr).2 o) h1)
    have : σ1' = σ1 := by
      have h7 : R1cs.runAll ([o].map fun o => o.run ⟨row.E, row.M⟩ (.wire 0) x y) σ = some ((), σ1) := (R1cs.bind_some h3).trans rfl
      rw [h7, Option.some.injEq, Prod.mk.injEq] at h5
      exact h5.2.symm
    subst this
    obtain ⟨τ, h7, h8⟩ := h6 (List.replicate n (o, Published.nativeOf o)) (fun oc h => by rw [List.eq_of_mem_replicate h]; exact List.mem_singleton_self _)
    refine ⟨τ, (R1cs.bind_some h3).trans (by simpa using h7), ?_⟩
    rw [h8, h4]
    simp only [List.map_replicate, List.sum_replicate, smul_eq_mul]
    ring

/-- **C87** After the operations of the test, any further sequence of the operations on the same operands costs the sum of the published numbers. -/
theorem C87_any_sequence {row : Published.Row} (hr : row ∈ Published.table) :
    ∃ x y σ σ1, R1cs.readBoth ⟨row.E, row.M⟩ (.wire 0) (.wire 1) (R1cs.empty 2 : Cs bn254) = some ((x, y), σ) ∧
      R1cs.runAll (Op.all.map fun o => o.run ⟨row.E, row.M⟩ (.wire 0) x y) σ = some ((), σ1) ∧ ∀ l : List Op,
      ∃ τ, R1cs.runAll (l.map fun o => o.run ⟨row.E, row.M⟩ (.wire 0) x y) σ1 = some ((), τ) ∧ τ.r1cs.length = σ1.r1cs.length + (l.map Published.nativeOf).sum := by
  obtain ⟨x, y, σ, h1, -⟩ := firsts_ok row hr
  obtain ⟨σ1, h2, h3⟩ := R1cs.sequence_of_start (start_of_read (starts_ok row hr).1 h1)
  refine ⟨x, y, σ, σ1, h1, h2, fun l => ?_⟩
  obtain ⟨τ, h4, h5⟩ := h3 (l.map fun o => (o, Published.nativeOf o)) (by simp only [List.mem_map]; rintro _ ⟨o, -, rfl⟩; exact Published.mem_priced o)
  refine ⟨τ, by simpa [List.map_map, Function.comp_def] using h4, ?_⟩
  rw [h5, List.map_map]
  rfl

theorem onces_ok : ∀ row ∈ Published.table, ∀ o : Op, R1cs.onceOk ⟨row.E, row.M⟩ bn254 (o, 2 * Published.nativeOf .init + Published.nativeOf o) = true := by
  have h32 : ∀ o ∈ Op.all, R1cs.onceOk ⟨8, 23⟩ bn254 (o, 2 * Published.nativeOf .init + Published.nativeOf o) = true := by decide +kernel
  have h64 : ∀ o ∈ Op.all, R1cs.onceOk ⟨11, 52⟩ bn254 (o, 2 * Published.nativeOf .init + Published.nativeOf o) = true := by decide +kernel
  have hall : ∀ o : Op, o ∈ Op.all := fun o => by cases o <;> decide
  intro row hr
  simp only [Published.table, List.mem_cons, List.not_mem_nil, or_false] at hr
  rcases hr with rfl | rfl | rfl | rfl | rfl | rfl
  exacts [fun o => h32 o (hall o), fun o => h32 o (hall o), fun o => h32 o (hall o), fun o => h64 o (hall o), fun o => h64 o (hall o), fun o => h64 o (hall o)]

/-- **C87** The same for different operands: a circuit with `N` inputs that any number of times reads two of them and does one of the operations has exactly the published numbers of constraints, two readings and the operation each time. -/
theorem C87_other_operands {row : Published.Row} (hr : row ∈ Published.table) (N : ℕ) (l : List (Op × ℕ × ℕ)) (hl : ∀ u ∈ l, u.2.1 < u.2.2 ∧ u.2.2 < N) :
    ∃ τ, R1cs.runAll (l.map fun u => R1cs.once ⟨row.E, row.M⟩ u.1 (.wire u.2.1) (.wire u.2.2)) (R1cs.empty N : Cs bn254) = some ((), τ) ∧
      τ.r1cs.length = (l.map fun u => 2 * Published.nativeOf .init + Published.nativeOf u.1).sum := by
  obtain ⟨τ, h1, h2⟩ := R1cs.sequence_of_once (f := ⟨row.E, row.M⟩) (N := N) (l.map fun u => ((u.1, 2 * Published.nativeOf .init + Published.nativeOf u.1), u.2)) (by
    simp only [List.mem_map]
    rintro _ ⟨u, hu, rfl⟩
    exact ⟨onces_ok row hr u.1, hl u hu⟩) (τ := (R1cs.empty N : Cs bn254)) le_rfl (fun e he => by simp [R1cs.empty] at he)
  refine ⟨τ, by simpa [List.map_map, Function.comp_def] using h1, ?_⟩
  rw [h2, List.map_map]
  simp [R1cs.empty, Function.comp_def]

/-! ### The totals -/

/-- What the row of the published table says about an operation. -/
def Published.measured (row : Published.Row) (o : Op) : Measured := ⟨Published.nativeOf o, row.queries.getD (Op.all.idxOf o) 0, row.oneTime⟩

/-- **C87** The computed total is the number of constraints of a circuit with `n` operations: the native constraints that the compiler emits for them, what the counter of the lookups grows by when they are run (on any operands, from any
state of the gadget between operations), and the one-time cost reported after them. -/
theorem C87_total {row : Published.Row} (hr : row ∈ Published.table) (o : Op) (n : ℕ) :
    ∃ x y σ τ, R1cs.readBoth ⟨row.E, row.M⟩ (.wire 0) (.wire 1) (R1cs.empty 2 : Cs bn254) = some ((x, y), σ) ∧
      R1cs.runAll (List.replicate n (o.run ⟨row.E, row.M⟩ (.wire 0) x y)) σ = some ((), τ) ∧
      ∀ {st : Bool} {c : List (Circ bn254 Unit)} {g g' : IntGadget bn254} {ks : List Constraints}, c.length = n →
        (∀ d ∈ c, ∃ X x y, (measuredOps ⟨row.E, row.M⟩ X x y)[Op.all.idxOf o]? = some d) → Running row.size (⟨row.E, row.M⟩ : Fmt).pow2Size g → CountAll st c g ks g' →
        (τ.r1cs.length - σ.r1cs.length) + (g'.lookupQueryConstraints - g.lookupQueryConstraints) + (g'.lookupEntryConstraints + g'.lookupFinalizeConstraints) = (Published.measured row o).total n := by
  obtain ⟨x, y, σ, h1, h2⟩ := C87_repeated hr
  obtain ⟨τ, h3, h4⟩ := h2 o n
  refine ⟨x, y, σ, τ, h1, h3, ?_⟩
  intro st c g g' ks hn hc hg h
  have hlen : ∀ row ∈ Published.table, row.queries.length = 7 ∧ 2 ^ row.size + (⟨row.E, row.M⟩ : Fmt).pow2Size + 3 = row.oneTime := by decide
  have hi : Op.all.idxOf o < row.queries.length := by rw [(hlen row hr).1]; cases o <;> decide
  have h5 := C58_repeated hr hc hg h hi
  have h6 : Running row.size (⟨row.E, row.M⟩ : Fmt).pow2Size g' := by
    have hi' : Op.all.idxOf o < (measuredShapes ⟨row.E, row.M⟩).length := by
      show Op.all.idxOf o < 7
      cases o <;> decide
    have hf : List.Forall₂ (fun c l => HasShape (⟨row.E, row.M⟩ : Fmt).pow2Size c l.1 l.2) c (c.map fun _ => (measuredShapes ⟨row.E, row.M⟩)[Op.all.idxOf o]) := by
      rw [List.forall₂_map_right_iff, List.forall₂_same]
      intro d hd
      obtain ⟨X, x, y, hd⟩ := hc d hd
      have := (List.forall₂_iff_get.1 (measured_shapes ⟨row.E, row.M⟩ X x y)).2 (Op.all.idxOf o) (by rw [(measured_shapes ⟨row.E, row.M⟩ X x y).length_eq]; exact hi') hi'
      obtain ⟨_, hd⟩ := List.getElem?_eq_some_iff.1 hd
      simpa [hd] using this
    exact (countAll_eq (table_shapes row hr).1 _ _ hf hg h).1
  rw [h4, h5]
  simp only [Published.measured, Measured.total, IntGadget.lookupEntryConstraints, IntGadget.lookupFinalizeConstraints, h6.range, h6.pow2, hn]
  have h7 := (hlen row hr).2
  rw [List.getD_eq_getElem?_getD, List.getElem?_eq_getElem hi, Option.getD_some, Nat.add_sub_cancel_left, Nat.add_sub_cancel_left]
  rw [Nat.mul_add]
  omega

/-- **C87** The last column falls to the cost of one operation: it is that cost and the integer part of the one-time cost per operation, never rises with `n`, and is the cost alone exactly from the first `n` above the one-time cost. -/
theorem C87_amortized (c : Measured) {n : ℕ} (hn : 0 < n) :
    c.amortized n = c.native + c.query + c.once / n ∧ (∀ m, n ≤ m → c.amortized m ≤ c.amortized n) ∧ (c.amortized n = c.native + c.query ↔ c.once < n) := by
  have key : ∀ m, 0 < m → c.amortized m = c.native + c.query + c.once / m := by
    intro m hm
    unfold Measured.amortized Measured.total
    rw [Nat.mul_add_div hm]
  refine ⟨key n hn, fun m hm => ?_, ?_⟩
  · rw [key n hn, key m (by omega)]
    exact Nat.add_le_add_left (Nat.div_le_div_left hm hn) _
  · rw [key n hn]
    constructor
    · intro h
      have : c.once / n = 0 := by omega
      rcases (Nat.div_eq_zero_iff).1 this with h | h <;> omega
    · intro h
      rw [Nat.div_eq_of_lt h]
      rfl

/-! ### The files -/

/-- What a turn of the test measures: the native constraints from the compiler, the lookups from the counters of the gadget. -/
def MeasuredIn (t : Turn) (res : List Measured) : Prop :=
  (∃ σ, (R1cs.floatCircuit ⟨t.E, t.M⟩ : Bld bn254 (List ℕ)) (R1cs.empty 2) = some (res.map Measured.native, σ)) ∧
    ∃ (st : Bool) (X Y : ZMod bn254), FloatCircuitDefine st ⟨t.E, t.M⟩ t.size X Y (res.map fun c => ⟨c.query, c.once⟩)

/-- The turns belong to the rows of the published table. -/
theorem turns_rows : List.Forall₂ (fun (t : Turn) (row : Published.Row) => t.E = row.E ∧ t.M = row.M ∧ t.size = row.size) CountsText.turns Published.table := by
  simp [CountsText.turns, Published.table]

theorem native_row {row : Published.Row} (hr : row ∈ Published.table) : ∃ σ, (R1cs.floatCircuit ⟨row.E, row.M⟩ : Bld bn254 (List ℕ)) (R1cs.empty 2) = some (Published.native, σ) := by
  have := C83_native_counts row hr
  rw [Option.map_eq_some_iff] at this
  obtain ⟨⟨a, σ⟩, h1, h2⟩ := this
  exact ⟨σ, by rw [← (show a = Published.native from h2)]; exact h1⟩

theorem measured_row {t : Turn} {row : Published.Row} (hr : row ∈ Published.table) (ht : t.E = row.E ∧ t.M = row.M ∧ t.size = row.size) {res : List Measured} :
    MeasuredIn t res ↔ res = Op.all.map (Published.measured row) := by
  obtain ⟨h1, h2, h3⟩ := ht
  unfold MeasuredIn
  rw [h1, h2, h3]
  have hq : ∀ row ∈ Published.table, (Op.all.map (Published.measured row)).map Measured.native = Published.native ∧
      (Op.all.map (Published.measured row)).map (fun c => (⟨c.query, c.once⟩ : Constraints)) = row.queries.map fun n => ⟨n, row.oneTime⟩ := by decide
  constructor
  · rintro ⟨⟨σ, h4⟩, st, X, Y, h5⟩
    obtain ⟨σ', h6⟩ := native_row hr
    rw [h6, Option.some.injEq, Prod.mk.injEq] at h4
    have h7 := C58_published_counts hr h5
    have h8 : ∀ (l l' : List Measured), l.map Measured.native = l'.map Measured.native → l.map (fun c => (⟨c.query, c.once⟩ : Constraints)) = l'.map (fun c => (⟨c.query, c.once⟩ : Constraints)) → l = l' := by
      intro l
      induction l with
      | nil => intro l' h _; cases l' with
        | nil => rfl
        | cons _ _ => simp at h
      | cons c l ih => intro l' h h'; cases l' with
        | nil => simp at h
        | cons c' l' =>
          simp only [List.map_cons, List.cons.injEq, Constraints.mk.injEq] at h h'
          obtain ⟨a, b, d⟩ := c
          obtain ⟨a', b', d'⟩ := c'
          simp only at h h'
          rw [ih l' h.2 h'.2, h.1, h'.1.1, h'.1.2]
    exact h8 _ _ (by rw [← h4.1, (hq row hr).1]) (by rw [h7, (hq row hr).2])
  · rintro rfl
    rw [(hq row hr).1, (hq row hr).2]
    refine ⟨native_row hr, ?_⟩
    obtain ⟨X, Y, res, h⟩ := C58_measured_satisfiable row hr
    have := C58_published_counts hr h
    exact ⟨true, X, Y, by rw [← this]; exact h⟩

open Lean Meta Elab Tactic in
/-- Both sides evaluate to the same; only the kernel looks at it. -/
elab "kernel_rfl" : tactic => do
  let g ← getMainGoal
  let some (_, a, _) := (← instantiateMVars (← g.getType)).consumeMData.eq? | throwError "not an equation"
  g.assign (← mkEqRefl a)

/-- **C87** The files in /repo/benchmarks/float are what the test writes: whatever the six circuits measure (their counters for any inputs and any prover), the names and the contents of the 43 files are the committed ones, character by
character. -/
theorem C87_files {res : List (List Measured)} (h : List.Forall₂ MeasuredIn CountsText.turns res) :
    (CountsText.files (CountsText.turns.zip res)).map (fun f => (String.ofList f.1, String.ofList f.2)) = Published.floatFiles := by
  have hres : res = Published.table.map fun row => Op.all.map (Published.measured row) := by
    have key : ∀ (ts : List Turn) (rows : List Published.Row) (res : List (List Measured)), (∀ row ∈ rows, row ∈ Published.table) →
        List.Forall₂ (fun (t : Turn) (row : Published.Row) => t.E = row.E ∧ t.M = row.M ∧ t.size = row.size) ts rows → List.Forall₂ MeasuredIn ts res → res = rows.map fun row => Op.all.map (Published.measured row) := by
      intro ts rows res hrows h1
      induction h1 generalizing res with
      | nil => intro h2; cases h2; rfl
      | cons h3 _ ih =>
        intro h2
        cases h2 with
        | cons h4 h5 =>
          rw [List.map_cons, ← (measured_row (hrows _ List.mem_cons_self) h3).1 h4, ← ih _ (fun r hr => hrows r (List.mem_cons_of_mem _ hr)) h5]
    exact key _ _ _ (fun _ h => h) turns_rows h
  subst hres
  kernel_rfl

/-- **C87** There is something to measure: the six circuits compile and the honest prover completes them. -/
theorem C87_measurable : ∃ res, List.Forall₂ MeasuredIn CountsText.turns res := by
  refine ⟨Published.table.map fun row => Op.all.map (Published.measured row), ?_⟩
  rw [List.forall₂_map_right_iff]
  have key : ∀ (ts : List Turn) (rows : List Published.Row), (∀ row ∈ rows, row ∈ Published.table) →
      List.Forall₂ (fun (t : Turn) (row : Published.Row) => t.E = row.E ∧ t.M = row.M ∧ t.size = row.size) ts rows → List.Forall₂ (fun t row => MeasuredIn t (Op.all.map (Published.measured row))) ts rows := by
    intro ts rows hrows h1
    induction h1 with
    | nil => exact .nil
    | cons h3 _ ih => exact .cons ((measured_row (hrows _ List.mem_cons_self) h3).2 rfl) (ih fun r hr => hrows r (List.mem_cons_of_mem _ hr))
  exact key _ _ (fun _ h => h) turns_rows

/-! ### Concrete cases -/

/-- 32768 additions in single precision cost 1376256 native constraints. -/
example : ∃ x y σ τ, R1cs.readBoth ⟨8, 23⟩ (.wire 0) (.wire 1) (R1cs.empty 2 : Cs bn254) = some ((x, y), σ) ∧
    R1cs.runAll (List.replicate 32768 (Op.run ⟨8, 23⟩ (.wire 0) x y .add)) σ = some ((), τ) ∧ τ.r1cs.length = σ.r1cs.length + 1376256 := by
  obtain ⟨x, y, σ, h1, h2⟩ := C87_repeated (row := ⟨8, 23, 8, [17, 43, 43, 33, 38, 22, 7], 291⟩) (by simp [Published.table])
  obtain ⟨τ, h3, h4⟩ := h2 .add 32768
  exact ⟨x, y, σ, τ, h1, h3, h4⟩

/-- A product of two inputs, then the difference of two others, then the product again. -/
example : ∃ τ, R1cs.runAll ([(Op.mul, 0, 1), (.sub, 1, 3), (.mul, 0, 1)].map fun u : Op × ℕ × ℕ => R1cs.once ⟨11, 52⟩ u.1 (.wire u.2.1) (.wire u.2.2)) (R1cs.empty 4 : Cs bn254) = some ((), τ) ∧ τ.r1cs.length = 182 :=
  C87_other_operands (row := ⟨11, 52, 16, [20, 40, 40, 30, 35, 23, 6], 65603⟩) (by simp [Published.table]) 4 _ (by simp)

/-- With the large tables, a division in single precision never reaches its own cost within the published file, but would with twice the largest number of operations. -/
example : (Published.measured ⟨8, 23, 16, [14, 27, 27, 18, 23, 15, 4], 65571⟩ .div).amortized 32768 = 63 ∧ (Published.measured ⟨8, 23, 16, [14, 27, 27, 18, 23, 15, 4], 65571⟩ .div).amortized 131072 = 61 := by decide

example : (Published.measured ⟨8, 23, 8, [17, 43, 43, 33, 38, 22, 7], 291⟩ .add).total 4 = 631 := by decide

end ZkLoc
