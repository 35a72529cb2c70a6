import Verif.R1csTests
import Verif.LogDeriv
import Verif.GadgetSpec

/-!
# The constraints of the lookups

`System.Sat` takes "the query is in the table" as a primitive. gnark's `logderivarg.Build` compiles it to rank-1 constraints over a challenge that is derived from a commitment to the queries and the multiplicities
(gnark is not in /repo: this is a model of `std/logderivarg` and `std/multicommit`, version 0.9, for tables with one column). Here the constraint system is extended by these constraints; the commitment itself is
not modelled: the challenge is a wire, and the theorems count the values of this wire for which the system can be satisfied once the committed values are fixed.
-/

namespace ZkLoc.R1cs

section
variable {p : ℕ}

/-- `DivUnchecked`: `y * r = e`; division by the constant zero panics. -/
def bDivUnchecked (e y : Lin p) : Bld p (Lin p) := fun σ =>
  match y.const? with
  | some k => if k = 0 then none else some (e.scale k⁻¹, σ)
  | none => (do
    let r ← newWire
    constrain y r e
    pure r : Bld p (Lin p)) σ

/-- The left side of the argument: multiplicity over challenge minus entry, summed over the table (`acc`: the sum so far). -/
def divs (x : Lin p) : List (Lin p × Lin p) → Lin p → Bld p (Lin p)
  | [], acc => pure acc
  | t :: l, acc => do
    let r ← bDivUnchecked t.2 (x.sub t.1)
    divs x l (acc.add r)

/-- The right side: the inverses of challenge minus query, summed over the queries. -/
def invs (x : Lin p) : List (Lin p) → Lin p → Bld p (Lin p)
  | [], acc => pure acc
  | q :: l, acc => do
    let r ← bInverse (x.sub q)
    invs x l (acc.add r)

/-- The callback of `logderivarg.Build`. The random combination of the columns is the only column (its coefficient is the constant 1). -/
def lookupArg (x : Lin p) (table exps queries : List (Lin p)) : Bld p Unit := do
  let lp ← divs x (table.zip exps) (.lit 0)
  let rp ← invs x queries (.lit 0)
  bAssertEq lp rp

/-- `buildTable`, /repo/gadget/rangecheck.go:51-57. -/
def rangeTable (b : ℕ) : List (ZMod p) := (List.range (2 ^ b)).map fun i => ((i : ℕ) : ZMod p)

/-- The entries of the powers-of-two table, /repo/gadget/gadget.go:19-26. -/
def pow2Table (size : ℕ) : List (ZMod p) := (List.range size).map fun i => ((i * 2 ^ size + 2 ^ i : ℕ) : ZMod p)

/-- A number above all wires of the system and its `n` inputs. -/
def System.fresh (s : System p) (n : ℕ) : ℕ :=
  max n (max ((s.r1cs.map fun r => max r.1.bound (max r.2.1.bound r.2.2.bound)).foldr max 0) (max ((s.range.map Lin.bound).foldr max 0) ((s.pow2.map fun q => q.2.bound).foldr max 0)))

/-- The two deferred arguments: `CommitChecker.commit` (/repo/gadget/rangecheck.go:118-119) comes first and `PowersOfTwo.commit` (/repo/gadget/gadget.go:33-35) second, as they were deferred by `New`
(/repo/gadget/gadget.go:48-52). Each asks the prover for the multiplicities of its table (`countHint`); `multicommit` then takes one commitment to everything, the first argument gets the commitment `x` as challenge and
the second `x * x`. For circuits without a range check, where `commit` returns early, this is not the right program. -/
def arguments (b size : ℕ) (range pow2 : List (Lin p)) : Bld p (List (Lin p) × List (Lin p) × Lin p) := do
  let er ← newWires (2 ^ b)
  let ep ← newWires size
  let x ← newWire
  lookupArg x ((rangeTable b).map .lit) er range
  let x2 ← bMul x x
  lookupArg x2 ((pow2Table size).map .lit) ep pow2
  pure (er, ep, x)

/-- All that the proof system is given: rank-1 constraints only. `committed`: what the challenge is computed from (queries and multiplicities). -/
structure Full (p : ℕ) where
  r1cs : List (Lin p × Lin p × Lin p)
  committed : List (Lin p)
  challenge : Lin p

/-- The lookups of a system expanded. The wires of the arguments are numbered above all others. -/
def System.expand (s : System p) (b size n : ℕ) : Option (Full p) :=
  (arguments b size s.range (s.pow2.map Prod.snd) ⟨s.fresh n, s.r1cs, [], [], []⟩).map fun r => ⟨r.2.r1cs, s.range ++ (s.pow2.map Prod.snd ++ (r.1.1 ++ r.1.2.1)), r.1.2.2⟩

/-- With the given inputs, committed values and challenge, the remaining wires can be chosen so that all constraints hold. -/
def Full.Passes (F : Full p) (xs committed : List (ZMod p)) (x : ZMod p) : Prop :=
  ∃ w : Asg p, (∀ i (h : i < xs.length), w i = xs[i]) ∧ F.committed.map (Lin.eval w) = committed ∧ F.challenge.eval w = x ∧ ∀ r ∈ F.r1cs, r.1.eval w * r.2.1.eval w = r.2.2.eval w

end

/-! ## Their shape -/

section
variable {p : ℕ}

/-- The constraints of `divs`. -/
def divRows (x : Lin p) : ℕ → List (Lin p × Lin p) → List (Lin p × Lin p × Lin p)
  | _, [] => []
  | n, t :: l => divRows x (n + 1) l ++ [(x.sub t.1, .wire n, t.2)]

/-- The constraints of `invs`. -/
def invRows (x : Lin p) : ℕ → List (Lin p) → List (Lin p × Lin p × Lin p)
  | _, [] => []
  | n, q :: l => invRows x (n + 1) l ++ [(x.sub q, .wire n, .lit 1)]

/-- A sum of consecutive wires. -/
def sumWires : ℕ → ℕ → Lin p → Lin p
  | 0, _, acc => acc
  | k + 1, n, acc => sumWires k (n + 1) (acc.add (.wire n))

/-- More wires and constraints. -/
def Cs.plus (σ : Cs p) (k : ℕ) (R : List (Lin p × Lin p × Lin p)) : Cs p := { σ with next := σ.next + k, r1cs := R ++ σ.r1cs }

theorem run_bind {α β : Type} {m : Bld p α} {k : α → Bld p β} {σ τ : Cs p} {a : α} (h : m σ = some (a, τ)) : (m >>= k) σ = k a τ := by
  show (m σ).bind _ = _
  rw [h, Option.bind_some]

theorem divs_run {x : Lin p} : ∀ (l : List (Lin p × Lin p)) (acc : Lin p) (σ : Cs p), (∀ t ∈ l, (x.sub t.1).const? = none) →
    divs x l acc σ = some (sumWires l.length σ.next acc, σ.plus l.length (divRows x σ.next l))
  | [], acc, σ, _ => rfl
  | t :: l, acc, σ, h => by
    have h1 : bDivUnchecked t.2 (x.sub t.1) σ = some (.wire σ.next, σ.plus 1 [(x.sub t.1, .wire σ.next, t.2)]) := by
      unfold bDivUnchecked
      rw [h t List.mem_cons_self]
      rfl
    unfold divs
    rw [run_bind h1, divs_run l _ _ fun t ht => h t (List.mem_cons_of_mem _ ht)]
    simp [Cs.plus, sumWires, divRows, add_assoc, add_comm 1 l.length]

theorem invs_run {x : Lin p} : ∀ (l : List (Lin p)) (acc : Lin p) (σ : Cs p), (∀ q ∈ l, (x.sub q).const? = none) →
    invs x l acc σ = some (sumWires l.length σ.next acc, σ.plus l.length (invRows x σ.next l))
  | [], acc, σ, _ => rfl
  | t :: l, acc, σ, h => by
    have h1 : bInverse (x.sub t) σ = some (.wire σ.next, σ.plus 1 [(x.sub t, .wire σ.next, .lit 1)]) := by
      unfold bInverse
      rw [h t List.mem_cons_self]
      rfl
    unfold invs
    rw [run_bind h1, invs_run l _ _ fun t ht => h t (List.mem_cons_of_mem _ ht)]
    simp [Cs.plus, sumWires, invRows, add_assoc, add_comm 1 l.length]

theorem length_divRows (x : Lin p) : ∀ (n : ℕ) (l : List (Lin p × Lin p)), (divRows x n l).length = l.length
  | _, [] => rfl
  | n, t :: l => by simp [divRows, length_divRows x (n + 1) l]

theorem length_invRows (x : Lin p) : ∀ (n : ℕ) (l : List (Lin p)), (invRows x n l).length = l.length
  | _, [] => rfl
  | n, t :: l => by simp [invRows, length_invRows x (n + 1) l]

theorem eval_sumWires (w : Asg p) : ∀ (k n : ℕ) (acc : Lin p), (sumWires k n acc).eval w = acc.eval w + ((List.range' n k).map w).sum
  | 0, n, acc => by simp [sumWires]
  | k + 1, n, acc => by
    rw [sumWires, eval_sumWires w k (n + 1), Lin.eval_add, List.range'_succ, List.map_cons, List.sum_cons, Lin.eval_wire, add_assoc]

theorem holds_divRows (w : Asg p) (x : Lin p) : ∀ (l : List (Lin p × Lin p)) (n : ℕ), (∀ r ∈ divRows x n l, r.1.eval w * r.2.1.eval w = r.2.2.eval w) ↔
    List.Forall₂ (fun t a => (x.eval w - t.1) * a = t.2) (l.map fun t => (t.1.eval w, t.2.eval w)) ((List.range' n l.length).map w)
  | [], n => by simp [divRows]
  | t :: l, n => by
    simp only [divRows, List.mem_append, or_imp, forall_and, holds_divRows w x l (n + 1), List.mem_singleton, forall_eq, List.length_cons, List.range'_succ, List.map_cons, List.forall₂_cons,
      Lin.eval_sub, Lin.eval_wire]
    exact and_comm

theorem holds_invRows (w : Asg p) (x : Lin p) : ∀ (l : List (Lin p)) (n : ℕ), (∀ r ∈ invRows x n l, r.1.eval w * r.2.1.eval w = r.2.2.eval w) ↔
    List.Forall₂ (fun q b => (x.eval w - q) * b = 1) (l.map (Lin.eval w)) ((List.range' n l.length).map w)
  | [], n => by simp [invRows]
  | t :: l, n => by
    simp only [invRows, List.mem_append, or_imp, forall_and, holds_invRows w x l (n + 1), List.mem_singleton, forall_eq, List.length_cons, List.range'_succ, List.map_cons, List.forall₂_cons,
      Lin.eval_sub, Lin.eval_wire, Lin.eval_lit]
    exact and_comm

/-- The constraints of one argument. -/
def argRows (x : Lin p) (n : ℕ) (tm : List (Lin p × Lin p)) (qs : List (Lin p)) : List (Lin p × Lin p × Lin p) :=
  (.lit 1, sumWires tm.length n (.lit 0), sumWires qs.length (n + tm.length) (.lit 0)) :: (invRows x (n + tm.length) qs ++ divRows x n tm)

/-- The meaning of the constraints of one argument. -/
theorem holds_argRows {w : Asg p} {x : Lin p} {n : ℕ} {tm : List (Lin p × Lin p)} {qs : List (Lin p)} : (∀ r ∈ argRows x n tm qs, r.1.eval w * r.2.1.eval w = r.2.2.eval w) ↔
    List.Forall₂ (fun t a => (x.eval w - t.1) * a = t.2) (tm.map fun t => (t.1.eval w, t.2.eval w)) ((List.range' n tm.length).map w) ∧
    List.Forall₂ (fun q b => (x.eval w - q) * b = 1) (qs.map (Lin.eval w)) ((List.range' (n + tm.length) qs.length).map w) ∧
    ((List.range' n tm.length).map w).sum = ((List.range' (n + tm.length) qs.length).map w).sum := by
  rw [← holds_divRows, ← holds_invRows]
  simp only [argRows, List.mem_cons, List.mem_append, or_imp, forall_and, forall_eq, eval_sumWires, Lin.eval_lit, zero_add, one_mul]
  tauto

theorem length_argRows {x : Lin p} {n : ℕ} {tm : List (Lin p × Lin p)} {qs : List (Lin p)} : (argRows x n tm qs).length = tm.length + qs.length + 1 := by
  simp [argRows, length_divRows, length_invRows]; omega

variable [hp : Fact p.Prime]

/-- Adding one to a wire. -/
theorem bumped (i : ℕ) : Agree i (fun _ => 0 : Asg p) (fun j => if j = i then 1 else 0) := fun j hj => by simp [Nat.ne_of_lt hj]

theorem not_const {e : Lin p} {w w' : Asg p} (h : e.eval w ≠ e.eval w') : e.const? = none := by
  cases hc : e.const? with
  | none => rfl
  | some k => exact absurd (by rw [Lin.eval_const hc, Lin.eval_const hc]) h

theorem not_const_sub {i : ℕ} {t : Lin p} (h : t.bound ≤ i) : ((Lin.wire i).sub t).const? = none := by
  refine not_const (w := fun _ => 0) (w' := fun j => if j = i then 1 else 0) ?_
  rw [Lin.eval_sub, Lin.eval_sub, Lin.eval_congr (bumped i) h, Lin.eval_wire, Lin.eval_wire, if_pos rfl]
  intro e
  exact one_ne_zero (sub_left_injective e).symm

theorem not_const_sum {n k : ℕ} (hk : 0 < k) : (sumWires k n (.lit 0) : Lin p).const? = none := by
  refine not_const (w := fun _ => 0) (w' := fun j => if j = n then 1 else 0) ?_
  rw [eval_sumWires, eval_sumWires]
  obtain ⟨k, rfl⟩ : ∃ k', k = k' + 1 := ⟨k - 1, by omega⟩
  have h1 : ((List.range' (n + 1) k).map fun j => if j = n then (1 : ZMod p) else 0) = (List.range' (n + 1) k).map fun _ => 0 :=
    List.map_congr_left fun j hj => by
      have := (List.mem_range'_1.1 hj).1
      rw [if_neg (by omega)]
  rw [List.range'_succ, List.map_cons, List.map_cons, List.sum_cons, List.sum_cons, h1, if_pos rfl]
  simp

theorem lookupArg_run {i : ℕ} {table exps qs : List (Lin p)} {σ : Cs p} (ht : ∀ t ∈ table, t.bound ≤ i) (hq : ∀ q ∈ qs, q.bound ≤ i) (h0 : 0 < (table.zip exps).length) :
    lookupArg (.wire i) table exps qs σ = some ((), σ.plus ((table.zip exps).length + qs.length) (argRows (.wire i) σ.next (table.zip exps) qs)) := by
  unfold lookupArg
  rw [run_bind (divs_run _ _ _ fun t ht' => not_const_sub (ht _ (List.of_mem_zip ht').1)), run_bind (invs_run _ _ _ fun q hq' => not_const_sub (hq _ hq'))]
  unfold bAssertEq
  simp only [not_const_sum h0]
  simp [constrain, Cs.plus, argRows, add_assoc]

/-- The values that multiply the table. -/
theorem newWires_run (k : ℕ) (σ : Cs p) : newWires k σ = some ((List.range' σ.next k).map Lin.wire, σ.plus k []) := by
  simp only [newWires, Cs.plus, List.nil_append, Option.some.injEq, Prod.mk.injEq, and_true, List.range'_eq_map_range, List.map_map]
  rfl

/-- The constraints of both arguments: the first one above `N + 2^b + size`, the challenge. -/
def allRows (b size N : ℕ) (range pow2 : List (Lin p)) : List (Lin p × Lin p × Lin p) :=
  argRows (.wire (N + 2 ^ b + size + 1 + (2 ^ b + range.length))) (N + 2 ^ b + size + 1 + (2 ^ b + range.length) + 1) (((pow2Table size).map Lin.lit).zip ((List.range' (N + 2 ^ b) size).map Lin.wire)) pow2 ++
    (.wire (N + 2 ^ b + size), .wire (N + 2 ^ b + size), .wire (N + 2 ^ b + size + 1 + (2 ^ b + range.length))) ::
      argRows (.wire (N + 2 ^ b + size)) (N + 2 ^ b + size + 1) (((rangeTable b).map Lin.lit).zip ((List.range' N (2 ^ b)).map Lin.wire)) range

theorem plus_plus (σ : Cs p) (k k' : ℕ) (R R' : List (Lin p × Lin p × Lin p)) : (σ.plus k R).plus k' R' = σ.plus (k + k') (R' ++ R) := by simp [Cs.plus, add_assoc]

theorem newWire_run (σ : Cs p) : newWire σ = some (.wire σ.next, σ.plus 1 []) := rfl

theorem square_run (i : ℕ) (σ : Cs p) : bMul (.wire i) (.wire i) σ = some (.wire σ.next, σ.plus 1 [(.wire i, .wire i, .wire σ.next)]) := rfl

theorem zip_range {b N : ℕ} : (((rangeTable b).map (Lin.lit (p := p))).zip ((List.range' N (2 ^ b)).map (Lin.wire (p := p)))).length = 2 ^ b := by simp [rangeTable]
theorem zip_pow2 {size N : ℕ} : (((pow2Table size).map (Lin.lit (p := p))).zip ((List.range' N size).map (Lin.wire (p := p)))).length = size := by simp [pow2Table]

theorem arguments_run {b size : ℕ} {range pow2 : List (Lin p)} {σ : Cs p} (hs : 0 < size) (hr : ∀ q ∈ range, q.bound ≤ σ.next) (hq : ∀ q ∈ pow2, q.bound ≤ σ.next) :
    ∃ k, arguments b size range pow2 σ = some (((List.range' σ.next (2 ^ b)).map Lin.wire, (List.range' (σ.next + 2 ^ b) size).map Lin.wire, .wire (σ.next + 2 ^ b + size)),
      σ.plus k (allRows b size σ.next range pow2)) := by
  have hlit : ∀ (l : List (ZMod p)) (n : ℕ), ∀ t ∈ l.map Lin.lit, t.bound ≤ n := fun l n t ht => by
    obtain ⟨v, -, rfl⟩ := List.mem_map.1 ht
    simp
  have h2 : 0 < 2 ^ b := Nat.two_pow_pos b
  refine ⟨2 ^ b + size + 1 + (2 ^ b + range.length) + 1 + (size + pow2.length), ?_⟩
  unfold arguments
  rw [run_bind (newWires_run _ _), run_bind (newWires_run _ _), run_bind (newWire_run _)]
  rw [run_bind (lookupArg_run (hlit _ _) (fun q h => (hr q h).trans (by simp only [Cs.plus]; omega)) (by rw [zip_range]; exact h2))]
  rw [run_bind (square_run _ _)]
  rw [run_bind (lookupArg_run (hlit _ _) (fun q h => (hq q h).trans (by simp only [Cs.plus]; omega)) (by rw [zip_pow2]; exact hs))]
  simp only [plus_plus, zip_range, zip_pow2, pure]
  simp only [Cs.plus, allRows, List.append_assoc, List.append_nil, List.nil_append, List.singleton_append, add_assoc, List.cons_append]

theorem foldr_max {l : List ℕ} {a : ℕ} (h : a ∈ l) : a ≤ l.foldr max 0 := by
  induction l with
  | nil => simp at h
  | cons x l ih =>
    rcases List.mem_cons.1 h with rfl | h
    · exact le_max_left _ _
    · exact (ih h).trans (le_max_right _ _)

theorem fresh_inputs (s : System p) (n : ℕ) : n ≤ s.fresh n := le_max_left _ _
theorem fresh_r1cs {s : System p} {n : ℕ} {r : Lin p × Lin p × Lin p} (h : r ∈ s.r1cs) : r.1.bound ≤ s.fresh n ∧ r.2.1.bound ≤ s.fresh n ∧ r.2.2.bound ≤ s.fresh n := by
  have := foldr_max (List.mem_map_of_mem (f := fun r : Lin p × Lin p × Lin p => max r.1.bound (max r.2.1.bound r.2.2.bound)) h)
  unfold System.fresh
  simp only [le_max_iff, max_le_iff] at this ⊢
  tauto
theorem fresh_range {s : System p} {n : ℕ} {q : Lin p} (h : q ∈ s.range) : q.bound ≤ s.fresh n := by
  have := foldr_max (List.mem_map_of_mem (f := Lin.bound) h)
  unfold System.fresh
  simp only [le_max_iff] at this ⊢
  tauto
theorem fresh_pow2 {s : System p} {n : ℕ} {q : Lin p} (h : q ∈ s.pow2.map Prod.snd) : q.bound ≤ s.fresh n := by
  obtain ⟨t, ht, rfl⟩ := List.mem_map.1 h
  have := foldr_max (List.mem_map_of_mem (f := fun q : ℕ × Lin p => q.2.bound) ht)
  unfold System.fresh
  simp only [le_max_iff] at this ⊢
  tauto

/-- The expanded system. -/
def System.expanded (s : System p) (b size n : ℕ) : Full p :=
  ⟨allRows b size (s.fresh n) s.range (s.pow2.map Prod.snd) ++ s.r1cs,
    s.range ++ (s.pow2.map Prod.snd ++ ((List.range' (s.fresh n) (2 ^ b)).map Lin.wire ++ (List.range' (s.fresh n + 2 ^ b) size).map Lin.wire)), .wire (s.fresh n + 2 ^ b + size)⟩

theorem expand_some {s : System p} {b size n : ℕ} (hs : 0 < size) : s.expand b size n = some (s.expanded b size n) := by
  obtain ⟨k, h⟩ := arguments_run (b := b) (σ := (⟨s.fresh n, s.r1cs, [], [], []⟩ : Cs p)) hs (fun q h => fresh_range h) (fun q h => fresh_pow2 h)
  unfold System.expand
  rw [h]
  rfl

theorem length_expanded (s : System p) (b size n : ℕ) : (s.expanded b size n).r1cs.length = s.r1cs.length + (2 ^ b + size) + (s.range.length + s.pow2.length) + 3 := by
  simp only [System.expanded, allRows, List.length_append, List.length_cons, length_argRows, zip_range, zip_pow2, List.length_map]
  omega

theorem mem_rangeTable {b : ℕ} {v : ZMod p} : v ∈ rangeTable b ↔ inTable b v = true := by
  constructor
  · intro h
    obtain ⟨i, hi, rfl⟩ := List.mem_map.1 h
    exact inTable_natCast (List.mem_range.1 hi)
  · intro h
    exact List.mem_map.2 ⟨v.val, List.mem_range.2 ((inTable_iff b v).1 h), ZMod.natCast_zmod_val v⟩

theorem mem_pow2Table {size : ℕ} {v : ZMod p} : v ∈ pow2Table size ↔ pow2Query size v = true := by
  rw [pow2Query_iff]
  simp [pow2Table, eq_comm]

/-- The challenges whose square is in the set. -/
noncomputable def roots2 (B : Finset (ZMod p)) : Finset (ZMod p) := B.biUnion fun y => (Polynomial.nthRoots 2 y).toFinset

theorem mem_roots2 {B : Finset (ZMod p)} {x : ZMod p} : x ∈ roots2 B ↔ x * x ∈ B := by
  simp [roots2, Polynomial.mem_nthRoots, sq]

theorem card_roots2 (B : Finset (ZMod p)) : (roots2 B).card ≤ 2 * B.card := by
  rw [mul_comm]
  exact Finset.card_biUnion_le_card_mul _ _ _ fun y _ => (Multiset.toFinset_card_le _).trans (Polynomial.card_nthRoots 2 y)

theorem map_zip_lit (w : Asg p) (table : List (ZMod p)) (es : List (Lin p)) : ((table.map Lin.lit).zip es).map (fun t => (t.1.eval w, t.2.eval w)) = table.zip (es.map (Lin.eval w)) := by
  induction table generalizing es with
  | nil => rfl
  | cons v l ih =>
    cases es with
    | nil => rfl
    | cons e es => simp [ih]

/-- An argument is satisfied at the value of its challenge. -/
theorem holds_arg {w : Asg p} {x : Lin p} {n : ℕ} {table : List (ZMod p)} {es qs : List (Lin p)} (h : ∀ r ∈ argRows x n ((table.map Lin.lit).zip es) qs, r.1.eval w * r.2.1.eval w = r.2.2.eval w) :
    LogDeriv.Holds (x.eval w) (table.zip (es.map (Lin.eval w))) (qs.map (Lin.eval w)) := by
  obtain ⟨h1, h2, h3⟩ := holds_argRows.1 h
  rw [map_zip_lit] at h1
  exact ⟨_, _, h1, h2, h3⟩

theorem mem_zip_fst {α β : Type} {l : List α} {l' : List β} {a : α} (h : a ∈ (l.zip l').map Prod.fst) : a ∈ l := by
  obtain ⟨t, ht, rfl⟩ := List.mem_map.1 h
  exact (List.of_mem_zip ht).1

theorem small_cast {m : ℕ} (h : m < p) (k : ℕ) (h0 : 0 < k) (hk : k ≤ m) : ((k : ℕ) : ZMod p) ≠ 0 := by
  rw [Ne, ZMod.natCast_eq_zero_iff]
  exact fun hd => absurd (Nat.le_of_dvd h0 hd) (by omega)

/-- **Soundness.** If the system does not accept the inputs, then whatever is committed to, the expanded system can be satisfied for few challenges only. -/
theorem expand_sound {s : System p} {b size n : ℕ} {F : Full p} (hF : s.expand b size n = some F) (h0 : 0 < size) (hs : ∀ q ∈ s.pow2, q.1 = size) {xs : List (ZMod p)} (hx : ¬ s.Accepts b xs)
    (cs : List (ZMod p)) : ∃ B : Finset (ZMod p), B.card ≤ 2 * 2 ^ b + s.range.length + 2 * (2 * size + s.pow2.length) ∧ ∀ x, F.Passes xs cs x → x ∈ B := by
  rw [expand_some h0, Option.some.injEq] at hF
  subst hF
  by_cases hbig : s.range.length < p ∧ s.pow2.length < p
  swap
  · refine ⟨Finset.univ, ?_, fun x _ => Finset.mem_univ x⟩
    rw [Finset.card_univ, ZMod.card]
    omega
  obtain ⟨B1, hB1⟩ : ∃ B, B = LogDeriv.chances ((rangeTable b).zip ((cs.drop (s.range.length + s.pow2.length)).take (2 ^ b))) (cs.take s.range.length) := ⟨_, rfl⟩
  obtain ⟨B2, hB2⟩ : ∃ B, B = LogDeriv.chances ((pow2Table size).zip ((cs.drop (s.range.length + s.pow2.length + 2 ^ b)).take size)) ((cs.drop s.range.length).take s.pow2.length) := ⟨_, rfl⟩
  refine ⟨B1 ∪ roots2 B2, ?_, ?_⟩
  · have h1 := Finset.card_union_le B1 (roots2 B2)
    have h2 := card_roots2 B2
    have h3 : B1.card ≤ 2 * 2 ^ b + s.range.length := by
      rw [hB1]
      refine (LogDeriv.card_chances _ _).trans ?_
      simp only [List.length_zip, List.length_take, rangeTable, List.length_map, List.length_range]
      omega
    have h4 : B2.card ≤ 2 * size + s.pow2.length := by
      rw [hB2]
      refine (LogDeriv.card_chances _ _).trans ?_
      simp only [List.length_zip, List.length_take, pow2Table, List.length_map, List.length_range]
      omega
    omega
  · rintro x ⟨w, hw, hc, hxv, hr⟩
    simp only [System.expanded] at hc hxv hr
    rw [Lin.eval_wire] at hxv
    have hc1 : cs.take s.range.length = s.range.map (Lin.eval w) := by
      rw [← hc, List.map_append]
      exact List.take_left' (by simp)
    have hc2 : (cs.drop s.range.length).take s.pow2.length = (s.pow2.map Prod.snd).map (Lin.eval w) := by
      rw [← hc, List.map_append, List.map_append, List.drop_left' (by simp)]
      exact List.take_left' (by simp)
    have hc3 : (cs.drop (s.range.length + s.pow2.length)).take (2 ^ b) = ((List.range' (s.fresh n) (2 ^ b)).map Lin.wire).map (Lin.eval w) := by
      rw [← hc, List.map_append, List.map_append, ← List.append_assoc, List.drop_left' (by simp), List.map_append]
      exact List.take_left' (by simp)
    have hc4 : (cs.drop (s.range.length + s.pow2.length + 2 ^ b)).take size = ((List.range' (s.fresh n + 2 ^ b) size).map Lin.wire).map (Lin.eval w) := by
      rw [← hc, List.map_append, List.map_append, List.map_append, ← List.append_assoc, ← List.append_assoc, List.drop_left' (by simp [add_assoc])]
      exact List.take_of_length_le (by simp)
    simp only [allRows, List.mem_append, List.mem_cons, or_imp, forall_and, forall_eq] at hr
    obtain ⟨⟨hr2, hsq, hr1⟩, hr0⟩ := hr
    simp only [Lin.eval_wire] at hsq
    have h1 := holds_arg hr1
    have h2 := holds_arg hr2
    rw [Lin.eval_wire, hxv, ← hc1, ← hc3] at h1
    rw [Lin.eval_wire, ← hsq, hxv, ← hc2, ← hc4] at h2
    by_contra hB
    rw [Finset.mem_union, not_or, mem_roots2] at hB
    refine hx ⟨w, hw, hr0, fun q hq => ?_, fun q hq => ?_⟩
    · by_contra hn
      refine hB.1 (hB1 ▸ LogDeriv.sound (small_cast (m := (cs.take s.range.length).length) ?_) ⟨q.eval w, ?_, fun hm => hn (mem_rangeTable.1 (mem_zip_fst hm))⟩ h1)
      · rw [hc1, List.length_map]; exact hbig.1
      · rw [hc1]; exact List.mem_map_of_mem hq
    · by_contra hn
      rw [hs q hq] at hn
      refine hB.2 (hB2 ▸ LogDeriv.sound (small_cast (m := ((cs.drop s.range.length).take s.pow2.length).length) ?_) ⟨q.2.eval w, ?_, fun hm => hn (mem_pow2Table.1 (mem_zip_fst hm))⟩ h2)
      · rw [hc2, List.length_map, List.length_map]; exact hbig.2
      · rw [hc2]; exact List.mem_map_of_mem (List.mem_map_of_mem hq)

theorem nodup_rangeTable {b : ℕ} (h : 2 ^ b ≤ p) : (rangeTable b : List (ZMod p)).Nodup := by
  refine List.Nodup.map_on (fun i hi j hj e => ?_) List.nodup_range
  rw [List.mem_range] at hi hj
  have := congrArg ZMod.val e
  rwa [ZMod.val_natCast_of_lt (by omega), ZMod.val_natCast_of_lt (by omega)] at this

theorem nodup_pow2Table {size : ℕ} (h : size * 2 ^ size ≤ p) : (pow2Table size : List (ZMod p)).Nodup := by
  have hlt : ∀ i, i < size → i * 2 ^ size + 2 ^ i < (i + 1) * 2 ^ size := fun i hi => by
    have := Nat.pow_lt_pow_right (a := 2) (by norm_num) hi
    rw [add_mul, one_mul]; omega
  have hp' : ∀ i, i < size → i * 2 ^ size + 2 ^ i < p := fun i hi => (hlt i hi).trans_le ((Nat.mul_le_mul_right _ hi).trans h)
  refine List.Nodup.map_on (fun i hi j hj e => ?_) List.nodup_range
  rw [List.mem_range] at hi hj
  have h1 := congrArg ZMod.val e
  rw [ZMod.val_natCast_of_lt (hp' i hi), ZMod.val_natCast_of_lt (hp' j hj)] at h1
  have hdiv : ∀ i, i < size → (i * 2 ^ size + 2 ^ i) / 2 ^ size = i := fun i hi => by
    rw [Nat.div_eq_of_lt_le (Nat.le_add_right _ _) (hlt i hi)]
  rw [← hdiv i hi, h1, hdiv j hj]

/-- The assignment that continues `w` by a list. -/
def extend (w : Asg p) (N : ℕ) (vs : List (ZMod p)) : Asg p := fun i => if i < N then w i else vs.getD (i - N) 0

theorem agree_extend (w : Asg p) (N : ℕ) (vs : List (ZMod p)) : Agree N w (extend w N vs) := fun i hi => by simp [extend, hi]

theorem extend_part (w : Asg p) (N : ℕ) (l1 l2 l3 : List (ZMod p)) {n k : ℕ} (hn : n = N + l1.length) (hk : k = l2.length) : (List.range' n k).map (extend w N (l1 ++ (l2 ++ l3))) = l2 := by
  subst hn hk
  apply List.ext_getElem
  · simp
  · intro i h1 h2
    simp only [List.getElem_map, List.getElem_range', one_mul, extend]
    rw [if_neg (by omega), show N + l1.length + i - N = l1.length + i by omega, List.getD_eq_getElem?_getD, List.getElem?_append_right (by omega), Nat.add_sub_cancel_left,
      List.getElem?_append_left h2, List.getElem?_eq_getElem h2, Option.getD_some]

theorem eval_wires (w : Asg p) (l : List ℕ) : (l.map Lin.wire).map (Lin.eval w) = l.map w := by
  simp [List.map_map, Function.comp_def]

theorem extend_one (w : Asg p) (N : ℕ) (l1 l3 : List (ZMod p)) (v : ZMod p) {n : ℕ} (hn : n = N + l1.length) : extend w N (l1 ++ ([v] ++ l3)) n = v := by
  have := extend_part w N l1 [v] l3 (k := 1) hn rfl
  simpa using this

/-- **Completeness.** If the system accepts the inputs, there are values to commit to for which the expanded system can be satisfied for all but few challenges. -/
theorem expand_complete {s : System p} {b size n : ℕ} {F : Full p} (hF : s.expand b size n = some F) (h0 : 0 < size) (hs : ∀ q ∈ s.pow2, q.1 = size) (hb : 2 ^ b ≤ p) (hsz : size * 2 ^ size ≤ p)
    {xs : List (ZMod p)} (hn : xs.length = n) (hx : s.Accepts b xs) :
    ∃ (cs : List (ZMod p)) (B : Finset (ZMod p)), B.card ≤ s.range.length + 2 * s.pow2.length ∧ ∀ x, x ∉ B → F.Passes xs cs x := by
  rw [expand_some h0, Option.some.injEq] at hF
  subst hF
  obtain ⟨w, hw, hr0, hrange, hpow⟩ := hx
  obtain ⟨rv, hrv⟩ : ∃ l, l = s.range.map (Lin.eval w) := ⟨_, rfl⟩
  obtain ⟨pv, hpv⟩ : ∃ l, l = (s.pow2.map Prod.snd).map (Lin.eval w) := ⟨_, rfl⟩
  have hrt : ∀ q ∈ rv, q ∈ rangeTable b := fun q hq => by
    obtain ⟨e, he, rfl⟩ := List.mem_map.1 (hrv ▸ hq)
    exact mem_rangeTable.2 (hrange e he)
  have hpt : ∀ q ∈ pv, q ∈ pow2Table size := fun q hq => by
    obtain ⟨e, he, rfl⟩ := List.mem_map.1 (hpv ▸ hq)
    obtain ⟨t, ht, rfl⟩ := List.mem_map.1 he
    exact mem_pow2Table.2 (hs t ht ▸ hpow t ht)
  obtain ⟨mr, hmr⟩ : ∃ l : List (ZMod p), l = (rangeTable b).map fun t => ((rv.count t : ℕ) : ZMod p) := ⟨_, rfl⟩
  obtain ⟨mp, hmp⟩ : ∃ l : List (ZMod p), l = (pow2Table size).map fun t => ((pv.count t : ℕ) : ZMod p) := ⟨_, rfl⟩
  have hzip : ∀ (T vs : List (ZMod p)), T.zip (T.map fun t => ((vs.count t : ℕ) : ZMod p)) = LogDeriv.counts T vs := fun T vs => by
    unfold LogDeriv.counts
    induction T with
    | nil => rfl
    | cons t T ih => rw [List.map_cons, List.zip_cons_cons, ih, List.map_cons]
  refine ⟨rv ++ (pv ++ (mr ++ mp)), rv.toFinset ∪ roots2 pv.toFinset, ?_, fun x hxB => ?_⟩
  · have h1 := Finset.card_union_le rv.toFinset (roots2 pv.toFinset)
    have h2 := card_roots2 pv.toFinset
    have h3 := List.toFinset_card_le rv
    have h4 := List.toFinset_card_le pv
    have h5 : rv.length = s.range.length := by simp [hrv]
    have h6 : pv.length = s.pow2.length := by simp [hpv]
    omega
  rw [Finset.mem_union, not_or, mem_roots2, List.mem_toFinset, List.mem_toFinset] at hxB
  obtain ⟨a1, b1, ha1, hb1, hs1⟩ := LogDeriv.complete (nodup_rangeTable hb) hrt hxB.1
  obtain ⟨a2, b2, ha2, hb2, hs2⟩ := LogDeriv.complete (nodup_pow2Table hsz) hpt hxB.2
  have la1 : a1.length = 2 ^ b := by have := ha1.length_eq; simpa [LogDeriv.counts, rangeTable] using this.symm
  have la2 : a2.length = size := by have := ha2.length_eq; simpa [LogDeriv.counts, pow2Table] using this.symm
  have lb1 : b1.length = s.range.length := by have := hb1.length_eq; simpa [hrv] using this.symm
  have lb2 : b2.length = s.pow2.length := by have := hb2.length_eq; simpa [hpv] using this.symm
  have lmr : mr.length = 2 ^ b := by simp [hmr, rangeTable]
  have lmp : mp.length = size := by simp [hmp, pow2Table]
  obtain ⟨w', hw'⟩ : ∃ w', w' = extend w (s.fresh n) (mr ++ (mp ++ ([x] ++ (a1 ++ (b1 ++ ([x * x] ++ (a2 ++ (b2 ++ [])))))))) := ⟨_, rfl⟩
  have hag : Agree (s.fresh n) w w' := hw' ▸ agree_extend _ _ _
  have p1 : (List.range' (s.fresh n) (2 ^ b)).map w' = mr := by
    rw [hw']; exact extend_part w _ [] mr _ (by simp) lmr.symm
  have p2 : (List.range' (s.fresh n + 2 ^ b) size).map w' = mp := by
    rw [hw']; exact extend_part w _ mr mp _ (by simp [lmr]) lmp.symm
  have p3 : w' (s.fresh n + 2 ^ b + size) = x := by
    rw [hw', ← List.append_assoc]; exact extend_one w _ _ _ x (by simp only [List.length_append, List.length_singleton, lmr, lmp]; omega)
  have p4 : (List.range' (s.fresh n + 2 ^ b + size + 1) (2 ^ b)).map w' = a1 := by
    rw [hw', ← List.append_assoc, ← List.append_assoc]; exact extend_part w _ _ a1 _ (by simp only [List.length_append, List.length_singleton, lmr, lmp]; omega) la1.symm
  have p5 : (List.range' (s.fresh n + 2 ^ b + size + 1 + 2 ^ b) s.range.length).map w' = b1 := by
    rw [hw', ← List.append_assoc, ← List.append_assoc, ← List.append_assoc]; exact extend_part w _ _ b1 _ (by simp only [List.length_append, List.length_singleton, lmr, lmp, la1]; omega) lb1.symm
  have p6 : w' (s.fresh n + 2 ^ b + size + 1 + (2 ^ b + s.range.length)) = x * x := by
    rw [hw', ← List.append_assoc, ← List.append_assoc, ← List.append_assoc, ← List.append_assoc]; exact extend_one w _ _ _ (x * x) (by simp only [List.length_append, List.length_singleton, lmr, lmp, la1, lb1]; omega)
  have p7 : (List.range' (s.fresh n + 2 ^ b + size + 1 + (2 ^ b + s.range.length) + 1) size).map w' = a2 := by
    rw [hw', ← List.append_assoc, ← List.append_assoc, ← List.append_assoc, ← List.append_assoc, ← List.append_assoc]; exact extend_part w _ _ a2 _ (by simp only [List.length_append, List.length_singleton, lmr, lmp, la1, lb1]; omega) la2.symm
  have p8 : (List.range' (s.fresh n + 2 ^ b + size + 1 + (2 ^ b + s.range.length) + 1 + size) s.pow2.length).map w' = b2 := by
    rw [hw', ← List.append_assoc, ← List.append_assoc, ← List.append_assoc, ← List.append_assoc, ← List.append_assoc, ← List.append_assoc]
    exact extend_part w _ _ b2 _ (by simp only [List.length_append, List.length_singleton, lmr, lmp, la1, la2, lb1]; omega) lb2.symm
  have q1 : s.range.map (Lin.eval w') = rv := by
    rw [hrv]; exact List.map_congr_left fun q hq => Lin.eval_congr hag (fresh_range hq)
  have q2 : (s.pow2.map Prod.snd).map (Lin.eval w') = pv := by
    rw [hpv]; exact List.map_congr_left fun q hq => Lin.eval_congr hag (fresh_pow2 hq)
  refine ⟨w', fun i hi => ?_, ?_, ?_, ?_⟩
  · rw [hag i (hi.trans_le (hn ▸ fresh_inputs s n))]; exact hw i hi
  · simp only [System.expanded, List.map_append]
    rw [eval_wires, eval_wires, p1, p2, q1, q2]
  · simp only [System.expanded, Lin.eval_wire]; exact p3
  · simp only [System.expanded, allRows, List.mem_append, List.mem_cons, or_imp, forall_and, forall_eq]
    refine ⟨⟨?_, ?_, ?_⟩, fun r hr => ?_⟩
    · rw [holds_argRows, zip_pow2, map_zip_lit, eval_wires, p2, q2, Lin.eval_wire, p6, p7, List.length_map, p8, hmp, hzip]
      exact ⟨ha2, hb2, hs2⟩
    · simp only [Lin.eval_wire]
      rw [p3, p6]
    · rw [holds_argRows, zip_range, map_zip_lit, eval_wires, p1, q1, Lin.eval_wire, p3, p4, p5, hmr, hzip]
      exact ⟨ha1, hb1, hs1⟩
    · obtain ⟨h1, h2, h3⟩ := fresh_r1cs (n := n) hr
      rw [Lin.eval_congr hag h1, Lin.eval_congr hag h2, Lin.eval_congr hag h3]
      exact hr0 r hr

end

end ZkLoc.R1cs
