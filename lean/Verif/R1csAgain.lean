import Verif.R1csShift

/-!
# Operations compiled again and again

What a circuit with many operations costs, from the renaming of wires (R1csShift.lean): the operation at a later place of the circuit is the first one with other wires. The only thing that can make a difference is what is already
marked as boolean, so the first occurrence is compared with the later ones on a state in which the marks over the operands are already there.
-/

namespace ZkLoc.R1cs

set_option maxRecDepth 8000

variable {p : ℕ} {α : Type}

/-- The seven operations measured by /repo/float/float_constraints_test.go:61-69. -/
inductive Op
  | init | add | sub | mul | div | sqrt | cmp
deriving DecidableEq, Repr

/-- In the order of the list in /repo/float/float_constraints_test.go:61-69. -/
def Op.all : List Op := [.init, .add, .sub, .mul, .div, .sqrt, .cmp]

/-- The closures of /repo/float/float_constraints_test.go:62-68: `X` is the input read again by the first one, `x` and `y` are the operands of the others. -/
def Op.run (f : Fmt) (X : Lin p) (x y : FV (Lin p)) : Op → Bld p Unit
  | .init => do let _ ← newFloat f X; pure ()
  | .add => do let _ ← fAdd f x y; pure ()
  | .sub => do let _ ← fSub f x y; pure ()
  | .mul => do let _ ← fMul f x y; pure ()
  | .div => do let _ ← fDiv f x y; pure ()
  | .sqrt => do let _ ← fSqrt f x; pure ()
  | .cmp => do let _ ← fIsLt f x y; pure ()

/-- The two inputs read, /repo/float/float_constraints_test.go:58-59. -/
def readBoth (f : Fmt) (X Y : Lin p) : Bld p (FV (Lin p) × FV (Lin p)) := do
  let x ← newFloat f X
  let y ← newFloat f Y
  pure (x, y)

/-- Programs one after the other. -/
def runAll : List (Bld p Unit) → Bld p Unit
  | [] => pure ()
  | m :: l => do
    let _ ← m
    runAll l

/-- The compiler before the circuit: `n` inputs. -/
def empty (n : ℕ) : Cs p := ⟨n, [], [], [], []⟩

theorem bind_some {β : Type} {m : Bld p α} {k : α → Bld p β} {σ σ' : Cs p} {a : α} (h : m σ = some (a, σ')) : (m >>= k) σ = k a σ' := by
  show (m σ).bind _ = _
  rw [h]
  rfl

theorem eqv_op {ρ : ℕ → ℕ} [Fact (StrictMono ρ)] {f : Fmt} {X X' : Lin p} {x y x' y' : FV (Lin p)} (hX : X' = X.ren ρ) (hx : x' = x.ren ρ) (hy : y' = y.ren ρ) (o : Op) :
    Eqv ρ (id : Unit → Unit) (o.run f X x y) (o.run f X' x' y') := by
  cases o
  · exact eqv_bind (eqv_newFloat hX) fun _ => eqv_pure rfl
  · exact eqv_bind (eqv_fAdd hx hy) fun _ => eqv_pure rfl
  · exact eqv_bind (eqv_fSub hx hy) fun _ => eqv_pure rfl
  · exact eqv_bind (eqv_fMul hx hy) fun _ => eqv_pure rfl
  · exact eqv_bind (eqv_fDiv hx hy) fun _ => eqv_pure rfl
  · exact eqv_bind (eqv_fSqrt hx) fun _ => eqv_pure rfl
  · exact eqv_bind (eqv_fIsLt hx hy) fun _ => eqv_pure rfl

theorem eqv_readBoth {ρ : ℕ → ℕ} [Fact (StrictMono ρ)] {f : Fmt} {X Y X' Y' : Lin p} (hX : X' = X.ren ρ) (hY : Y' = Y.ren ρ) : Eqv ρ (Prod.map (FV.ren ρ) (FV.ren ρ)) (readBoth f X Y) (readBoth f X' Y') :=
  eqv_bind (eqv_newFloat hX) fun _ => eqv_bind (eqv_newFloat hY) fun _ => eqv_pure rfl

/-! ## On the same operands -/

/-- Wires from `N` on are moved up by `D`. -/
def shift (N D i : ℕ) : ℕ := if i < N then i else i + D

instance (N D : ℕ) : Fact (StrictMono (shift N D)) := ⟨fun i j h => by unfold shift; split_ifs <;> omega⟩

theorem bdT_shift (N D : ℕ) : ∀ l : List (ℕ × ZMod p), bdT (l.map fun t => (shift N D t.1, t.2)) = if bdT l ≤ N then bdT l else bdT l + D
  | [] => by simp [bdT]
  | t :: l => by
    have hc : ∀ (t : ℕ × ZMod p) l, bdT (t :: l) = max (t.1 + 1) (bdT l) := fun _ _ => rfl
    rw [List.map_cons, hc, hc, bdT_shift N D l]
    generalize bdT l = n
    unfold shift
    by_cases h1 : t.1 < N <;> by_cases h2 : n ≤ N
    · rw [if_pos h1, if_pos h2, if_pos (by omega)]
    · rw [if_pos h1, if_neg h2, if_neg (by omega)]; omega
    · rw [if_neg h1, if_pos h2, if_neg (by omega)]; omega
    · rw [if_neg h1, if_neg h2, if_neg (by omega)]; omega

theorem bound_shift (N D : ℕ) (x : Lin p) : (x.ren (shift N D)).bound = if x.bound ≤ N then x.bound else x.bound + D := bdT_shift N D x.ts

theorem mem_bdT {t : ℕ × ZMod p} : ∀ {l : List (ℕ × ZMod p)}, t ∈ l → t.1 < bdT l
  | [], h => by simp at h
  | s :: l, h => by
    rcases List.mem_cons.1 h with rfl | h
    · simp only [bdT, List.foldr_cons]; omega
    · have := mem_bdT h
      simp only [bdT, List.foldr_cons] at this ⊢; omega

theorem ren_shift {N D : ℕ} {x : Lin p} (h : x.bound ≤ N) : x.ren (shift N D) = x := by
  obtain ⟨c, ts⟩ := x
  simp only [Lin.ren, Lin.mk.injEq, true_and]
  refine (List.map_congr_left fun t ht => ?_).trans (List.map_id ts)
  have : t.1 < bdT ts := mem_bdT ht
  have h' : bdT ts ≤ N := h
  simp only [shift, id]
  rw [if_pos (by omega)]

/-- All four parts use wires below `n`. -/
def FV.Below (x : FV (Lin p)) (n : ℕ) : Prop := x.sign.bound ≤ n ∧ x.exponent.bound ≤ n ∧ x.mantissa.bound ≤ n ∧ x.isAbnormal.bound ≤ n

instance (x : FV (Lin p)) (n : ℕ) : Decidable (x.Below n) := by unfold FV.Below; infer_instance

theorem FV.ren_shift {N D : ℕ} {x : FV (Lin p)} (h : x.Below N) : x.ren (shift N D) = x := by
  obtain ⟨h1, h2, h3, h4⟩ := h
  simp [FV.ren, R1cs.ren_shift h1, R1cs.ren_shift h2, R1cs.ren_shift h3, R1cs.ren_shift h4]

/-- A later state: `σ` followed by operations that added no marks over the wires of `σ`. -/
def Later (σ τ : Cs p) : Prop := ∃ D, τ.next = σ.next + D ∧ Rel (shift σ.next D) σ τ ∧ ∀ e ∈ τ.bools, e.bound ≤ τ.next

/-- The marks of a state are over its wires. -/
def Cs.Closed (σ : Cs p) : Prop := ∀ e ∈ σ.bools, e.bound ≤ σ.next

/-- An operation done at `σ` leads to `σ'`, adding only marks over new wires. -/
def Fresh (σ σ' : Cs p) : Prop := σ'.Closed ∧ ∀ e ∈ σ'.bools, e.bound ≤ σ.next → e ∈ σ.bools

instance (σ : Cs p) : Decidable σ.Closed := by unfold Cs.Closed; infer_instance
instance (σ σ' : Cs p) : Decidable (Fresh σ σ') := by unfold Fresh; infer_instance

theorem Later.refl {σ : Cs p} (h : σ.Closed) : Later σ σ := by
  refine ⟨0, rfl, ⟨fun i => by unfold shift; split_ifs <;> omega, fun e => ?_⟩, h⟩
  have : e.ren (shift σ.next 0) = e := by
    obtain ⟨c, ts⟩ := e
    simp only [Lin.ren, Lin.mk.injEq, true_and]
    refine (List.map_congr_left fun t _ => ?_).trans (List.map_id ts)
    simp [shift]
  rw [this]

/-- An operation that is its own renaming adds at every later state as many constraints as it did at `σ`. -/
theorem Later.step {σ σ' τ : Cs p} {m : Bld p Unit} (hm : ∀ D, Eqv (shift σ.next D) (id : Unit → Unit) m m) (h1 : m σ = some ((), σ')) (hf : Fresh σ σ') (hc : σ.Closed) :
    Later σ τ → ∃ τ', m τ = some ((), τ') ∧ Later σ τ' ∧ τ'.r1cs.length + σ.r1cs.length = τ.r1cs.length + σ'.r1cs.length := by
  rintro ⟨D, hD, hr, hb⟩
  rcases hm D σ τ hr with ⟨h, -⟩ | ⟨a, σ2, τ', h2, h3, d, B, R, k1, k2, k3, k4, k5, k6⟩
  · rw [h1] at h; simp at h
  · rw [h1, Option.some.injEq, Prod.mk.injEq] at h2
    obtain ⟨-, rfl⟩ := h2
    have hB : ∀ e ∈ B, e ∈ σ'.bools := fun e he => by rw [k3]; exact List.mem_append_left _ he
    have hcl : ∀ e ∈ τ'.bools, e.bound ≤ τ'.next := by
      intro e he
      rw [k4, List.mem_append, List.mem_map] at he
      rcases he with ⟨b, hb', rfl⟩ | he
      · have := hf.1 b (hB b hb')
        rw [bound_shift]
        split_ifs <;> omega
      · have := hb e he
        omega
    refine ⟨τ', h3, ⟨D + d, by omega, ⟨fun i => ?_, fun e => ?_⟩, hcl⟩, ?_⟩
    · unfold shift
      rw [if_neg (by omega)]
      omega
    · constructor
      · intro he
        rw [ren_shift (hc e he), k4]
        refine List.mem_append_right _ ?_
        have := (hr.bools e).1 he
        rwa [ren_shift (hc e he)] at this
      · intro he
        by_cases hle : e.bound ≤ σ.next
        · rw [ren_shift hle, k4, List.mem_append, List.mem_map] at he
          rcases he with ⟨b, hb', h⟩ | he
          · have : b = e := ren_inj (ρ := shift σ.next D) (by rw [h, ren_shift hle])
            subst this
            exact hf.2 b (hB b hb') hle
          · exact (hr.bools e).2 (by rwa [ren_shift hle])
        · have := hcl _ he
          rw [bound_shift, if_neg hle] at this
          omega
    · rw [k5, k6]
      simp only [List.length_append, List.length_map]
      omega

/-- Any sequence of such operations. -/
theorem Later.runAll {σ : Cs p} (hc : σ.Closed) (l : List (Bld p Unit × ℕ))
    (hl : ∀ m ∈ l, (∀ D, Eqv (shift σ.next D) (id : Unit → Unit) m.1 m.1) ∧ ∃ σ', m.1 σ = some ((), σ') ∧ Fresh σ σ' ∧ σ'.r1cs.length = σ.r1cs.length + m.2) {τ : Cs p} (hτ : Later σ τ) :
    ∃ τ', R1cs.runAll (l.map Prod.fst) τ = some ((), τ') ∧ Later σ τ' ∧ τ'.r1cs.length = τ.r1cs.length + (l.map Prod.snd).sum := by
  induction l generalizing τ with
  | nil => exact ⟨τ, rfl, hτ, by simp⟩
  | cons m l ih =>
    obtain ⟨h1, σ', h2, h3, h4⟩ := hl m List.mem_cons_self
    obtain ⟨τ1, h5, h6, h7⟩ := hτ.step h1 h2 h3 hc
    obtain ⟨τ2, h8, h9, h10⟩ := ih (fun m hm => hl m (List.mem_cons_of_mem _ hm)) h6
    refine ⟨τ2, (bind_some h5).trans h8, h9, ?_⟩
    simp only [List.map_cons, List.sum_cons]
    omega

/-- What has to be evaluated about the start of the circuit: the inputs are read, then the operations of `pre` are done, and at the state reached `o` is compiled to `c` constraints with marks over new wires only. -/
def startOk (f : Fmt) (pre : List Op) (os : List (Op × ℕ)) (x y : FV (Lin p)) (σ : Cs p) : Bool :=
  match R1cs.runAll (pre.map fun o => o.run f (.wire 0) x y) σ with
  | none => false
  | some (_, σ1) => decide (0 < σ1.next ∧ x.Below σ1.next ∧ y.Below σ1.next ∧ σ1.Closed) && os.all fun oc =>
    match oc.1.run f (.wire 0) x y σ1 with
    | none => false
    | some (_, σ2) => decide (Fresh σ1 σ2 ∧ σ2.r1cs.length = σ1.r1cs.length + oc.2)

/-- Then any sequence of these operations adds what its members add. -/
theorem sequence_of_start {f : Fmt} {pre : List Op} {os : List (Op × ℕ)} {x y : FV (Lin p)} {σ : Cs p} (h : startOk f pre os x y σ = true) :
    ∃ σ1, R1cs.runAll (pre.map fun o => o.run f (.wire 0) x y) σ = some ((), σ1) ∧ ∀ l : List (Op × ℕ), (∀ oc ∈ l, oc ∈ os) →
      ∃ τ, R1cs.runAll (l.map fun oc => oc.1.run f (.wire 0) x y) σ1 = some ((), τ) ∧ τ.r1cs.length = σ1.r1cs.length + (l.map Prod.snd).sum := by
  unfold startOk at h
  split at h
  · simp at h
  · rename_i u σ1 hpre
    rw [Bool.and_eq_true, decide_eq_true_eq, List.all_eq_true] at h
    obtain ⟨⟨h0, hx, hy, hc⟩, hos⟩ := h
    refine ⟨σ1, hpre, fun l hl => ?_⟩
    obtain ⟨τ, h1, -, h2⟩ := Later.runAll hc (l.map fun oc => (oc.1.run f (.wire 0) x y, oc.2)) (by
      intro m hm
      obtain ⟨oc, hoc, rfl⟩ := List.mem_map.1 hm
      refine ⟨fun D => eqv_op (by rw [ren_wire]; simp [shift, h0]) (FV.ren_shift hx).symm (FV.ren_shift hy).symm _, ?_⟩
      have := hos oc (hl oc hoc)
      split at this
      · simp at this
      · rename_i u σ2 h2
        rw [decide_eq_true_eq] at this
        exact ⟨σ2, h2, this.1, this.2⟩) (Later.refl hc)
    refine ⟨τ, by simpa [List.map_map, Function.comp_def] using h1, by simpa [List.map_map, Function.comp_def] using h2⟩

/-! ## On other operands -/

/-- Two inputs and the wires after them, put somewhere else. -/
def place (a b T i : ℕ) : ℕ := if i = 0 then a else if i = 1 then b else T + (i - 2)

theorem place_mono {a b T : ℕ} (h1 : a < b) (h2 : b < T) : StrictMono (place a b T) := fun i j h => by
  unfold place; split_ifs <;> omega

/-- Every mark is over a wire that is not an input. -/
def Inner (N : ℕ) (σ : Cs p) : Prop := ∀ e ∈ σ.bools, ∃ t ∈ e.ts, N ≤ t.1 ∧ t.1 < σ.next

instance (N : ℕ) (σ : Cs p) : Decidable (Inner N σ) := by unfold Inner; infer_instance

/-- Inputs read and used once. -/
def once (f : Fmt) (o : Op) (X Y : Lin p) : Bld p Unit := do
  let xy ← readBoth f X Y
  o.run f X xy.1 xy.2

theorem once_placed {f : Fmt} {o : Op} {N a b : ℕ} (ha : a < b) (hb : b < N) {σ τ : Cs p} (h1 : once f o (.wire 0) (.wire 1) (empty 2) = some ((), σ)) (hi : Inner 2 σ) (hN : N ≤ τ.next) (hτ : Inner N τ) :
    ∃ τ', once f o (.wire a) (.wire b) τ = some ((), τ') ∧ N ≤ τ'.next ∧ Inner N τ' ∧ τ'.r1cs.length = τ.r1cs.length + σ.r1cs.length := by
  haveI : Fact (StrictMono (place a b τ.next)) := ⟨place_mono ha (by omega)⟩
  have he : Eqv (place a b τ.next) (id : Unit → Unit) (once f o (.wire 0) (.wire 1)) (once (p := p) f o (.wire a) (.wire b)) :=
    eqv_bind (eqv_readBoth rfl rfl) fun xy => eqv_op rfl rfl rfl o
  have hr : Rel (place a b τ.next) (empty 2 : Cs p) τ := by
    refine ⟨fun i => ?_, fun e => ⟨fun h => by simp [empty] at h, fun h => ?_⟩⟩
    · show place a b τ.next (2 + i) = _
      unfold place
      rw [if_neg (by omega), if_neg (by omega)]
      omega
    · obtain ⟨t, ht, h3, h4⟩ := hτ _ h
      obtain ⟨s, hs, rfl⟩ := List.mem_map.1 ht
      simp only [place] at h3 h4
      split_ifs at h3 h4 <;> omega
  rcases he _ _ hr with ⟨h, -⟩ | ⟨u, σ2, τ', h2, h3, d, B, R, k1, k2, k3, k4, k5, k6⟩
  · rw [h1] at h; simp at h
  · rw [h1, Option.some.injEq, Prod.mk.injEq] at h2
    obtain ⟨-, rfl⟩ := h2
    refine ⟨τ', h3, by omega, ?_, ?_⟩
    · intro e he
      rw [k4, List.mem_append, List.mem_map] at he
      rcases he with ⟨c, hc, rfl⟩ | he
      · obtain ⟨t, ht, h4, h5⟩ := hi c (by rw [k3]; exact List.mem_append_left _ hc)
        refine ⟨_, List.mem_map_of_mem ht, ?_⟩
        have : (empty 2 : Cs p).next = 2 := rfl
        simp only [place]
        rw [if_neg (by omega), if_neg (by omega)]
        omega
      · obtain ⟨t, ht, h4, h5⟩ := hτ e he
        exact ⟨t, ht, h4, by omega⟩
    · rw [k5, k6]
      simp [empty, Nat.add_comm]

/-- What has to be evaluated about a single use. -/
def onceOk (f : Fmt) (p : ℕ) (oc : Op × ℕ) : Bool :=
  match once f oc.1 (.wire 0) (.wire 1) (empty 2 : Cs p) with
  | none => false
  | some (_, σ) => decide (Inner 2 σ ∧ σ.r1cs.length = oc.2)

/-- Any sequence of uses of any pairs of inputs. -/
theorem sequence_of_once {f : Fmt} {N : ℕ} : ∀ (l : List ((Op × ℕ) × ℕ × ℕ)), (∀ u ∈ l, onceOk f p u.1 = true ∧ u.2.1 < u.2.2 ∧ u.2.2 < N) → ∀ {τ : Cs p}, N ≤ τ.next → Inner N τ →
    ∃ τ', runAll (l.map fun u => once f u.1.1 (.wire u.2.1) (.wire u.2.2)) τ = some ((), τ') ∧ τ'.r1cs.length = τ.r1cs.length + (l.map fun u => u.1.2).sum
  | [], _, τ, _, _ => ⟨τ, rfl, by simp⟩
  | u :: l, hl, τ, hN, hτ => by
    obtain ⟨h1, h2, h3⟩ := hl u List.mem_cons_self
    unfold onceOk at h1
    split at h1
    · simp at h1
    · rename_i v σ h4
      rw [decide_eq_true_eq] at h1
      obtain ⟨τ1, k1, k2, k3, k4⟩ := once_placed h2 h3 h4 h1.1 hN hτ
      obtain ⟨τ2, k5, k6⟩ := sequence_of_once l (fun u hu => hl u (List.mem_cons_of_mem _ hu)) k2 k3
      refine ⟨τ2, (bind_some k1).trans k5, ?_⟩
      have := h1.2
      simp only [List.map_cons, List.sum_cons]
      omega

end ZkLoc.R1cs
