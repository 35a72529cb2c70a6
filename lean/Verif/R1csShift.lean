import Verif.R1csCommit
import Mathlib.Order.Monotone.Basic
import Mathlib.Order.Basic

/-!
# Renaming the wires of compiled programs

The compiler decides by the form of the expressions (which of them are constant, which are marked as boolean) and not by the numbers of the wires. So an operation compiled at another place of a circuit adds the same constraints
with other wires.
-/

namespace ZkLoc.R1cs

set_option maxRecDepth 8000

variable {p : ℕ} {α β γ δ : Type} {ρ : ℕ → ℕ}

/-- An expression with its wires renamed. -/
def Lin.ren (ρ : ℕ → ℕ) (x : Lin p) : Lin p := ⟨x.c, x.ts.map fun t => (ρ t.1, t.2)⟩

/-- A constraint with its wires renamed. -/
def ren3 (ρ : ℕ → ℕ) (r : Lin p × Lin p × Lin p) : Lin p × Lin p × Lin p := (r.1.ren ρ, r.2.1.ren ρ, r.2.2.ren ρ)

theorem addTerm_ren [hρ : Fact (StrictMono ρ)] (i : ℕ) (a : ZMod p) : ∀ l : List (ℕ × ZMod p), (addTerm i a l).map (fun t => (ρ t.1, t.2)) = addTerm (ρ i) a (l.map fun t => (ρ t.1, t.2))
  | [] => rfl
  | (j, b) :: l => by
    have hlt : ∀ i j, ρ i < ρ j ↔ i < j := fun i j => hρ.out.lt_iff_lt
    simp only [addTerm, List.map_cons, hlt]
    split_ifs <;> simp [addTerm_ren i a l]

theorem ren_lit (k : ZMod p) : (Lin.lit k).ren ρ = .lit k := rfl
theorem ren_wire (i : ℕ) : (Lin.wire i : Lin p).ren ρ = .wire (ρ i) := rfl
theorem ren_add [Fact (StrictMono ρ)] (x y : Lin p) : (x.add y).ren ρ = (x.ren ρ).add (y.ren ρ) := by
  have h : ∀ l : List (ℕ × ZMod p), (l.foldr (fun t l => addTerm t.1 t.2 l) y.ts).map (fun t => (ρ t.1, t.2)) =
      (l.map fun t => (ρ t.1, t.2)).foldr (fun t l => addTerm t.1 t.2 l) (y.ts.map fun t => (ρ t.1, t.2)) := by
    intro l
    induction l with
    | nil => rfl
    | cons t l ih => simp only [List.foldr_cons, List.map_cons, addTerm_ren, ih]
  simp only [Lin.add, Lin.ren, h]
theorem ren_neg (x : Lin p) : x.neg.ren ρ = (x.ren ρ).neg := by simp [Lin.neg, Lin.ren]
theorem ren_scale (x : Lin p) (k : ZMod p) : (x.scale k).ren ρ = (x.ren ρ).scale k := by
  unfold Lin.scale
  split_ifs
  · rfl
  · simp [Lin.ren]
theorem ren_sub [Fact (StrictMono ρ)] (x y : Lin p) : (x.sub y).ren ρ = (x.ren ρ).sub (y.ren ρ) := by unfold Lin.sub; rw [ren_add, ren_neg]
theorem const_ren (x : Lin p) : (x.ren ρ).const? = x.const? := by simp [Lin.const?, Lin.ren]
theorem ren_inj [hρ : Fact (StrictMono ρ)] {x y : Lin p} (h : x.ren ρ = y.ren ρ) : x = y := by
  obtain ⟨c, ts⟩ := x
  obtain ⟨c', ts'⟩ := y
  simp only [Lin.ren, Lin.mk.injEq] at h
  obtain ⟨rfl, h⟩ := h
  congr 1
  refine List.map_injective_iff.2 ?_ h
  rintro ⟨i, a⟩ ⟨j, b⟩ h
  simp only [Prod.mk.injEq] at h
  rw [hρ.out.injective h.1, h.2]

/-- Two states of the compiler that differ by a renaming, as far as its decisions go: fresh wires correspond and the same expressions are marked as boolean. -/
structure Rel (ρ : ℕ → ℕ) (σ τ : Cs p) : Prop where
  next : ∀ i, ρ (σ.next + i) = τ.next + i
  bools : ∀ e, e ∈ σ.bools ↔ e.ren ρ ∈ τ.bools

/-- The same has been added to both states. -/
def Step (ρ : ℕ → ℕ) (σ σ' τ τ' : Cs p) : Prop :=
  ∃ (d : ℕ) (B : List (Lin p)) (R : List (Lin p × Lin p × Lin p)), σ'.next = σ.next + d ∧ τ'.next = τ.next + d ∧ σ'.bools = B ++ σ.bools ∧ τ'.bools = B.map (Lin.ren ρ) ++ τ.bools ∧
    σ'.r1cs = R ++ σ.r1cs ∧ τ'.r1cs = R.map (ren3 ρ) ++ τ.r1cs

theorem Step.refl {σ τ : Cs p} : Step ρ σ σ τ τ := ⟨0, [], [], by simp⟩

theorem Step.trans {σ σ' σ'' τ τ' τ'' : Cs p} : Step ρ σ σ' τ τ' → Step ρ σ' σ'' τ' τ'' → Step ρ σ σ'' τ τ'' := by
  rintro ⟨d, B, R, h1, h2, h3, h4, h5, h6⟩ ⟨d', B', R', k1, k2, k3, k4, k5, k6⟩
  exact ⟨d + d', B' ++ B, R' ++ R, by rw [k1, h1, add_assoc], by rw [k2, h2, add_assoc], by rw [k3, h3, List.append_assoc], by rw [k4, h4, List.map_append, List.append_assoc],
    by rw [k5, h5, List.append_assoc], by rw [k6, h6, List.map_append, List.append_assoc]⟩

theorem Rel.step [Fact (StrictMono ρ)] {σ σ' τ τ' : Cs p} (h : Rel ρ σ τ) : Step ρ σ σ' τ τ' → Rel ρ σ' τ' := by
  rintro ⟨d, B, R, h1, h2, h3, h4, h5, h6⟩
  refine ⟨fun i => by rw [h1, h2, add_assoc, h.next, add_assoc], fun e => ?_⟩
  rw [h3, h4, List.mem_append, List.mem_append, h.bools, List.mem_map]
  exact or_congr ⟨fun he => ⟨e, he, rfl⟩, fun ⟨e', he', hr⟩ => ren_inj hr ▸ he'⟩ Iff.rfl

/-- The second program is the first one with the wires renamed: it panics with it, returns the renamed result and adds the renamed constraints. -/
def Eqv (ρ : ℕ → ℕ) (g : α → β) (m : Bld p α) (m' : Bld p β) : Prop :=
  ∀ σ τ, Rel ρ σ τ → (m σ = none ∧ m' τ = none) ∨ ∃ a σ' τ', m σ = some (a, σ') ∧ m' τ = some (g a, τ') ∧ Step ρ σ σ' τ τ'

theorem eqv_pure {g : α → β} {a : α} {b : β} (h : b = g a) : Eqv ρ g (pure a : Bld p α) (pure b) := fun σ τ _ => .inr ⟨a, σ, τ, rfl, h ▸ rfl, .refl⟩

variable [hρ : Fact (StrictMono ρ)]

theorem eqv_bind {g : α → β} {h : γ → δ} {m : Bld p α} {m' : Bld p β} {k : α → Bld p γ} {k' : β → Bld p δ} (hm : Eqv ρ g m m') (hk : ∀ a, Eqv ρ h (k a) (k' (g a))) : Eqv ρ h (m >>= k) (m' >>= k') := fun σ τ hr => by
  rcases hm σ τ hr with ⟨h1, h2⟩ | ⟨a, σ', τ', h1, h2, h3⟩
  · exact .inl ⟨by show (m σ).bind _ = none; rw [h1]; rfl, by show (m' τ).bind _ = none; rw [h2]; rfl⟩
  · rcases hk a σ' τ' (hr.step h3) with ⟨h4, h5⟩ | ⟨b, σ'', τ'', h4, h5, h6⟩
    · exact .inl ⟨by show (m σ).bind _ = none; rw [h1]; exact h4, by show (m' τ).bind _ = none; rw [h2]; exact h5⟩
    · exact .inr ⟨b, σ'', τ'', by show (m σ).bind _ = _; rw [h1]; exact h4, by show (m' τ).bind _ = _; rw [h2]; exact h5, h3.trans h6⟩

omit hρ in
theorem eqv_newWire : Eqv ρ (Lin.ren ρ) (newWire : Bld p (Lin p)) newWire := fun σ τ hr =>
  .inr ⟨_, _, _, rfl, by simp only [newWire, ren_wire]; rw [show ρ σ.next = τ.next from hr.next 0], ⟨1, [], [], by simp⟩⟩
omit hρ in
theorem eqv_constrain {x y z x' y' z' : Lin p} (hx : x' = x.ren ρ) (hy : y' = y.ren ρ) (hz : z' = z.ren ρ) : Eqv ρ (id : Unit → Unit) (constrain x y z) (constrain x' y' z') := fun σ τ hr =>
  .inr ⟨_, _, _, rfl, rfl, ⟨0, [], [(x, y, z)], by simp [ren3, hx, hy, hz]⟩⟩
omit hρ in
theorem eqv_mark {x x' : Lin p} (hx : x' = x.ren ρ) : Eqv ρ (id : Unit → Unit) (Api.mark x : Bld p _) (Api.mark x' : Bld p _) := fun σ τ hr => by
  subst hx
  show (bMark x σ = none ∧ bMark (x.ren ρ) τ = none) ∨ ∃ a σ' τ', bMark x σ = some (a, σ') ∧ bMark (x.ren ρ) τ = some (a, τ') ∧ _
  unfold bMark
  rw [const_ren]
  split
  · split
    · exact .inr ⟨_, _, _, rfl, rfl, .refl⟩
    · exact .inl ⟨rfl, rfl⟩
  · exact .inr ⟨_, _, _, rfl, rfl, ⟨0, [x], [], by simp⟩⟩
theorem eqv_assertBool {x x' : Lin p} (hx : x' = x.ren ρ) : Eqv ρ (id : Unit → Unit) (Api.assertBool x : Bld p _) (Api.assertBool x' : Bld p _) := fun σ τ hr => by
  subst hx
  show (bAssertBool x σ = none ∧ bAssertBool (x.ren ρ) τ = none) ∨ ∃ a σ' τ', bAssertBool x σ = some (a, σ') ∧ bAssertBool (x.ren ρ) τ = some (a, τ') ∧ _
  unfold bAssertBool
  rw [const_ren]
  split
  · split
    · exact .inr ⟨_, _, _, rfl, rfl, .refl⟩
    · exact .inl ⟨rfl, rfl⟩
  · simp only [← hr.bools]
    split
    · exact .inr ⟨_, _, _, rfl, rfl, .refl⟩
    · exact .inr ⟨_, _, _, rfl, rfl, ⟨0, [x], [(x, (Lin.lit 1).sub x, .lit 0)], by simp [ren3, ren_sub, ren_lit]⟩⟩
theorem eqv_mul {x y x' y' : Lin p} (hx : x' = x.ren ρ) (hy : y' = y.ren ρ) : Eqv ρ (Lin.ren ρ) (Api.mul x y : Bld p _) (Api.mul x' y' : Bld p _) := by
  show Eqv ρ _ (bMul x y) (bMul x' y')
  unfold bMul
  rw [hx, hy, const_ren, const_ren]
  split
  · exact eqv_pure (ren_scale _ _).symm
  · exact eqv_pure (ren_scale _ _).symm
  · exact eqv_bind eqv_newWire fun r => eqv_bind (eqv_constrain rfl rfl rfl) fun _ => eqv_pure rfl
theorem eqv_select {c x y c' x' y' : Lin p} (hc : c' = c.ren ρ) (hx : x' = x.ren ρ) (hy : y' = y.ren ρ) : Eqv ρ (Lin.ren ρ) (Api.select c x y : Bld p _) (Api.select c' x' y' : Bld p _) := by
  show Eqv ρ _ (bSelect c x y) (bSelect c' x' y')
  unfold bSelect
  refine eqv_bind (eqv_assertBool hc) fun _ => ?_
  rw [hc, hx, hy, const_ren]
  split
  · exact eqv_pure (by split <;> rfl)
  · exact eqv_bind (eqv_mul rfl (ren_sub _ _).symm) fun r => eqv_pure (ren_add _ _).symm
theorem eqv_and {x y x' y' : Lin p} (hx : x' = x.ren ρ) (hy : y' = y.ren ρ) : Eqv ρ (Lin.ren ρ) (Api.and x y : Bld p _) (Api.and x' y' : Bld p _) := by
  show Eqv ρ _ (bAnd x y) (bAnd x' y')
  unfold bAnd
  refine eqv_bind (eqv_assertBool hx) fun _ => eqv_bind (eqv_assertBool hy) fun _ => eqv_bind (eqv_mul hx hy) fun _ => eqv_bind (eqv_mark rfl) fun _ => eqv_pure rfl
theorem eqv_or {x y x' y' : Lin p} (hx : x' = x.ren ρ) (hy : y' = y.ren ρ) : Eqv ρ (Lin.ren ρ) (Api.or x y : Bld p _) (Api.or x' y' : Bld p _) := by
  show Eqv ρ _ (bOr x y) (bOr x' y')
  unfold bOr
  refine eqv_bind (eqv_assertBool hx) fun _ => eqv_bind (eqv_assertBool hy) fun _ => eqv_bind eqv_newWire fun _ => eqv_bind (eqv_mark rfl) fun _ =>
    eqv_bind (eqv_constrain hx hy (by rw [hx, hy, ren_sub, ren_add])) fun _ => eqv_pure rfl
theorem eqv_xor {x y x' y' : Lin p} (hx : x' = x.ren ρ) (hy : y' = y.ren ρ) : Eqv ρ (Lin.ren ρ) (Api.xor x y : Bld p _) (Api.xor x' y' : Bld p _) := by
  show Eqv ρ _ (bXor x y) (bXor x' y')
  unfold bXor
  refine eqv_bind (eqv_assertBool hx) fun _ => eqv_bind (eqv_assertBool hy) fun _ => eqv_bind eqv_newWire fun _ => eqv_bind (eqv_mark rfl) fun _ =>
    eqv_bind (eqv_constrain (by rw [hx, ren_scale]) hy (by rw [hx, hy, ren_sub, ren_add])) fun _ => eqv_pure rfl
theorem eqv_isZero {x x' : Lin p} (hx : x' = x.ren ρ) : Eqv ρ (Lin.ren ρ) (Api.isZero x : Bld p _) (Api.isZero x' : Bld p _) := by
  show Eqv ρ _ (bIsZero x) (bIsZero x')
  unfold bIsZero
  rw [hx, const_ren]
  split
  · exact eqv_pure rfl
  · exact eqv_bind eqv_newWire fun r => eqv_bind eqv_newWire fun i => eqv_bind (eqv_constrain rfl rfl (ren_sub (.lit 1) r).symm) fun _ => eqv_bind (eqv_constrain rfl rfl rfl) fun _ => eqv_bind (eqv_mark rfl) fun _ => eqv_pure rfl
omit hρ in
theorem eqv_assertEq {x y x' y' : Lin p} (hx : x' = x.ren ρ) (hy : y' = y.ren ρ) : Eqv ρ (id : Unit → Unit) (Api.assertEq x y : Bld p _) (Api.assertEq x' y' : Bld p _) := fun σ τ hr => by
  subst hx hy
  show (bAssertEq x y σ = none ∧ bAssertEq (x.ren ρ) (y.ren ρ) τ = none) ∨ ∃ a σ' τ', bAssertEq x y σ = some (a, σ') ∧ bAssertEq (x.ren ρ) (y.ren ρ) τ = some (a, τ') ∧ _
  unfold bAssertEq
  rw [const_ren, const_ren]
  split
  · split
    · exact .inr ⟨_, _, _, rfl, rfl, .refl⟩
    · exact .inl ⟨rfl, rfl⟩
  · exact eqv_constrain rfl rfl rfl σ τ hr
theorem eqv_inverse {x x' : Lin p} (hx : x' = x.ren ρ) : Eqv ρ (Lin.ren ρ) (Api.inverse x : Bld p _) (Api.inverse x' : Bld p _) := fun σ τ hr => by
  subst hx
  show (bInverse x σ = none ∧ bInverse (x.ren ρ) τ = none) ∨ ∃ a σ' τ', bInverse x σ = some (a, σ') ∧ bInverse (x.ren ρ) τ = some (a.ren ρ, τ') ∧ _
  unfold bInverse
  rw [const_ren]
  split
  · split
    · exact .inl ⟨rfl, rfl⟩
    · exact .inr ⟨_, _, _, rfl, rfl, .refl⟩
  · have h : Eqv ρ (Lin.ren ρ) (newWire >>= fun r => constrain x r (.lit 1) >>= fun _ => pure r : Bld p (Lin p)) (newWire >>= fun r => constrain (x.ren ρ) r (.lit 1) >>= fun _ => pure r) :=
      eqv_bind eqv_newWire fun r => eqv_bind (eqv_constrain rfl rfl rfl) fun _ => eqv_pure rfl
    exact h σ τ hr
omit hρ in
theorem eqv_hint {xs xs' : List (Lin p)} {h h' : List (ZMod p) → Option (ZMod p)} : Eqv ρ (Lin.ren ρ) (Api.hint xs h : Bld p _) (Api.hint xs' h' : Bld p _) := eqv_newWire
omit hρ in
theorem eqv_query {n n' : ℕ} {x x' : Lin p} : Eqv ρ (id : Unit → Unit) (Api.query n x : Bld p _) (Api.query n' x' : Bld p _) := fun σ τ hr => .inr ⟨_, _, _, rfl, rfl, ⟨0, [], [], by simp⟩⟩
omit hρ in
theorem eqv_check {n n' : ℕ} {x x' : Lin p} {md md' : Mode} : Eqv ρ (id : Unit → Unit) (Api.check x n md : Bld p _) (Api.check x' n' md' : Bld p _) := fun σ τ hr =>
  .inr ⟨_, _, _, rfl, rfl, ⟨0, [], [], by simp⟩⟩

/-- A float with its wires renamed. -/
def FV.ren (ρ : ℕ → ℕ) (x : FV (Lin p)) : FV (Lin p) := ⟨x.sign.ren ρ, x.exponent.ren ρ, x.mantissa.ren ρ, x.isAbnormal.ren ρ⟩

theorem ren_opAdd (x y : Lin p) : (Ops.add x y).ren ρ = Ops.add (x.ren ρ) (y.ren ρ) := ren_add x y
theorem ren_opSub (x y : Lin p) : (Ops.sub x y).ren ρ = Ops.sub (x.ren ρ) (y.ren ρ) := ren_sub x y
omit hρ in
theorem ren_opNeg (x : Lin p) : (Ops.neg x).ren ρ = Ops.neg (x.ren ρ) := ren_neg x
omit hρ in
theorem ren_opScale (x : Lin p) (k : ZMod p) : (Ops.scale x k).ren ρ = Ops.scale (x.ren ρ) k := ren_scale x k
omit hρ in
theorem ren_opLit (k : ZMod p) : (Ops.lit k : Lin p).ren ρ = Ops.lit k := rfl

open Lean Meta Elab Tactic in
/-- As `compiled`, for `Eqv`. -/
partial def solveE (g0 : MVarId) : TacticM Unit := do
  let (_, g) ← g0.intros
  g.withContext do
  let t := (← instantiateMVars (← g.getType)).consumeMData
  if t.isAppOf ``Eqv then
    let args := t.getAppArgs
    match (args[args.size - 2]!).getAppFn.constName? with
    | some n =>
      let gs ← withReducible (g.applyConst (`ZkLoc.R1cs ++ Name.mkSimple ("eqv_" ++ n.getString!)))
      for g' in gs do
        unless ← g'.isAssigned do
          let ty ← instantiateMVars (← g'.getType)
          if ← isProp ty then solveE g'
    | none => throwError "no program"
  else
    setGoals [g]
    evalTactic (← `(tactic| first | rfl | (simp only [ren_opAdd, ren_opSub, ren_opNeg, ren_opScale, ren_opLit, FV.ren, Prod.map]; done) | (simp only [ren_opAdd, ren_opSub, ren_opNeg, ren_opScale, ren_opLit, FV.ren, Prod.map]; rfl)))

open Lean Meta Elab Tactic in
/-- The two programs differ by the renaming. -/
elab "eqvs" : tactic => do
  let g ← getMainGoal
  let rest := (← getGoals).tail!
  solveE g
  setGoals rest

section
variable {x y : Lin p} {x' y' : Lin p}

theorem eqv_gAbs {n : ℕ} (hx : x' = x.ren ρ) : Eqv ρ (Prod.map (Lin.ren ρ) (Lin.ren ρ)) (gAbs x n : Bld p _) (gAbs x' n : Bld p _) := by subst hx; unfold gAbs; eqvs
theorem eqv_gIsPositive {n : ℕ} (hx : x' = x.ren ρ) : Eqv ρ (Lin.ren ρ) (gIsPositive x n : Bld p _) (gIsPositive x' n : Bld p _) := by subst hx; unfold gIsPositive; eqvs
theorem eqv_gMax {n : ℕ} (hx : x' = x.ren ρ) (hy : y' = y.ren ρ) : Eqv ρ (Lin.ren ρ) (gMax x y n : Bld p _) (gMax x' y' n : Bld p _) := by subst hx hy; unfold gMax; eqvs
theorem eqv_gMin {n : ℕ} (hx : x' = x.ren ρ) (hy : y' = y.ren ρ) : Eqv ρ (Lin.ren ρ) (gMin x y n : Bld p _) (gMin x' y' n : Bld p _) := by subst hx hy; unfold gMin; eqvs
theorem eqv_gIsEq (hx : x' = x.ren ρ) (hy : y' = y.ren ρ) : Eqv ρ (Lin.ren ρ) (gIsEq x y : Bld p _) (gIsEq x' y' : Bld p _) := by subst hx hy; unfold gIsEq; eqvs
theorem eqv_queryPowerOf2 {n : ℕ} (hx : x' = x.ren ρ) : Eqv ρ (Lin.ren ρ) (queryPowerOf2 n x : Bld p _) (queryPowerOf2 n x' : Bld p _) := by subst hx; unfold queryPowerOf2; eqvs
theorem eqv_newFloat {f : Fmt} (hx : x' = x.ren ρ) : Eqv ρ (FV.ren ρ) (newFloat f x : Bld p _) (newFloat f x' : Bld p _) := by subst hx; unfold newFloat; dsimp only; eqvs

variable {f : Fmt} {u v u' v' : FV (Lin p)}

theorem eqv_round {L k : ℕ} {s s' h h' : Lin p} (hx : x' = x.ren ρ) (hs : s' = s.ren ρ) (hh : h' = h.ren ρ) : Eqv ρ (Lin.ren ρ) (round f x L s k h : Bld p _) (round f x' L s' k h' : Bld p _) := by
  subst hx hs hh; unfold round; dsimp only; eqvs
theorem eqv_fixOverflow {z e i z' e' i' : Lin p} (hx : x' = x.ren ρ) (hz : z' = z.ren ρ) (he : e' = e.ren ρ) (hi : i' = i.ren ρ) :
    Eqv ρ (Prod.map (Lin.ren ρ) (Prod.map (Lin.ren ρ) (Lin.ren ρ))) (fixOverflow f x z e i : Bld p _) (fixOverflow f x' z' e' i' : Bld p _) := by
  subst hx hz he hi; unfold fixOverflow; dsimp only; eqvs
theorem eqv_eitherNaN (hu : u' = u.ren ρ) (hv : v' = v.ren ρ) : Eqv ρ (Lin.ren ρ) (eitherNaN u v : Bld p _) (eitherNaN u' v' : Bld p _) := by subst hu hv; unfold eitherNaN; eqvs
theorem eqv_fAdd (hu : u' = u.ren ρ) (hv : v' = v.ren ρ) : Eqv ρ (FV.ren ρ) (fAdd f u v : Bld p _) (fAdd f u' v' : Bld p _) := by subst hu hv; unfold fAdd; dsimp only; eqvs
theorem eqv_fNeg (hu : u' = u.ren ρ) : Eqv ρ (FV.ren ρ) (fNeg u : Bld p _) (fNeg u' : Bld p _) := by subst hu; unfold fNeg; dsimp only; eqvs
theorem eqv_fSub (hu : u' = u.ren ρ) (hv : v' = v.ren ρ) : Eqv ρ (FV.ren ρ) (fSub f u v : Bld p _) (fSub f u' v' : Bld p _) := by subst hu hv; unfold fSub; eqvs
theorem eqv_subnormalShift {k : ℕ} (hx : x' = x.ren ρ) : Eqv ρ (Lin.ren ρ) (subnormalShift f x k : Bld p _) (subnormalShift f x' k : Bld p _) := by subst hx; unfold subnormalShift; eqvs
theorem eqv_fMul (hu : u' = u.ren ρ) (hv : v' = v.ren ρ) : Eqv ρ (FV.ren ρ) (fMul f u v : Bld p _) (fMul f u' v' : Bld p _) := by subst hu hv; unfold fMul; dsimp only; eqvs
theorem eqv_fDiv (hu : u' = u.ren ρ) (hv : v' = v.ren ρ) : Eqv ρ (FV.ren ρ) (fDiv f u v : Bld p _) (fDiv f u' v' : Bld p _) := by subst hu hv; unfold fDiv; dsimp only; eqvs
theorem eqv_fSqrt (hu : u' = u.ren ρ) : Eqv ρ (FV.ren ρ) (fSqrt f u : Bld p _) (fSqrt f u' : Bld p _) := by subst hu; unfold fSqrt; dsimp only; eqvs
theorem eqv_fLess {k : ℕ} (hu : u' = u.ren ρ) (hv : v' = v.ren ρ) : Eqv ρ (Lin.ren ρ) (fLess f u v k : Bld p _) (fLess f u' v' k : Bld p _) := by subst hu hv; unfold fLess; eqvs
theorem eqv_fIsLt (hu : u' = u.ren ρ) (hv : v' = v.ren ρ) : Eqv ρ (Lin.ren ρ) (fIsLt f u v : Bld p _) (fIsLt f u' v' : Bld p _) := by subst hu hv; unfold fIsLt; eqvs
theorem eqv_fTrunc (hu : u' = u.ren ρ) : Eqv ρ (FV.ren ρ) (fTrunc f u : Bld p _) (fTrunc f u' : Bld p _) := by subst hu; unfold fTrunc; dsimp only; eqvs
theorem eqv_fFloor (hu : u' = u.ren ρ) : Eqv ρ (FV.ren ρ) (fFloor f u : Bld p _) (fFloor f u' : Bld p _) := by subst hu; unfold fFloor; dsimp only; eqvs
theorem eqv_fCeil (hu : u' = u.ren ρ) : Eqv ρ (FV.ren ρ) (fCeil f u : Bld p _) (fCeil f u' : Bld p _) := by subst hu; unfold fCeil; eqvs
theorem eqv_fToInt (hu : u' = u.ren ρ) : Eqv ρ (Lin.ren ρ) (fToInt f u : Bld p _) (fToInt f u' : Bld p _) := by subst hu; unfold fToInt; eqvs

end
end ZkLoc.R1cs
