import Verif.R1csLocCirc

/-!
# A wire that is marked only after it is constrained

In the circuits with hinted sines the sign of a hinted value is used, and its negation is marked as boolean, before anything constrains it; the constraint comes with a later `Xor`, unless the builder believes
by then that the wire is boolean. `Inv i` says that wire `i` is in the record of known booleans only if its constraint is there. It is kept by all calls other than `MarkBoolean`, and by the uses of that
call in the code, since what is marked does not contain wire `i`, or is `1 - i`.
-/

namespace ZkLoc.R1cs

set_option maxRecDepth 8000

variable {p : ℕ} {α β γ : Type} {i : ℕ}

/-! ### Wires are only added -/

/-- The program adds wires only. -/
def Nx (m : Bld p α) : Prop := ∀ σ a σ', m σ = some (a, σ') → σ.next ≤ σ'.next

theorem nx_bind {m : Bld p α} {k : α → Bld p γ} (h : Nx m) (h' : ∀ a, Nx (k a)) : Nx (m >>= k) := fun σ r σ'' he => by
  obtain ⟨⟨a, σ'⟩, h1, h2⟩ := Option.bind_eq_some_iff.1 he
  exact (h σ a σ' h1).trans (h' a σ' r σ'' h2)
theorem nx_pure {a : α} : Nx (pure a : Bld p α) := fun σ r σ' h => by
  simp only [show (pure a : Bld p α) σ = some (a, σ) from rfl, Option.some.injEq, Prod.mk.injEq] at h
  rw [← h.2]
theorem nx_newWire : Nx (newWire : Bld p (Lin p)) := fun σ r σ' h => by
  simp only [newWire, Option.some.injEq, Prod.mk.injEq] at h
  rw [← h.2]; exact Nat.le_succ _
theorem nx_constrain {x y z : Lin p} : Nx (constrain x y z) := fun σ r σ' h => by
  simp only [constrain, Option.some.injEq, Prod.mk.injEq] at h
  rw [← h.2]
theorem nx_mark {x : Lin p} : Nx (Api.mark x : Bld p _) := fun σ r σ' h => by
  change bMark x σ = _ at h
  unfold bMark at h
  repeat' split at h
  all_goals simp only [Option.some.injEq, Prod.mk.injEq, reduceCtorEq] at h
  all_goals rw [← h.2]
theorem nx_assertBool {x : Lin p} : Nx (Api.assertBool x : Bld p _) := fun σ r σ' h => by
  change bAssertBool x σ = _ at h
  unfold bAssertBool at h
  repeat' split at h
  all_goals simp only [Option.some.injEq, Prod.mk.injEq, reduceCtorEq] at h
  all_goals rw [← h.2]
theorem nx_mul {x y : Lin p} : Nx (Api.mul x y : Bld p _) := by
  show Nx (bMul x y)
  unfold bMul
  split
  · exact nx_pure
  · exact nx_pure
  · exact nx_bind nx_newWire fun _ => nx_bind nx_constrain fun _ => nx_pure
theorem nx_assertEq {x y : Lin p} : Nx (Api.assertEq x y : Bld p _) := fun σ r σ' h => by
  change bAssertEq x y σ = _ at h
  unfold bAssertEq at h
  repeat' split at h
  · simp only [Option.some.injEq, Prod.mk.injEq] at h; rw [← h.2]
  · simp at h
  · exact nx_constrain σ r σ' h
theorem nx_select {c x y : Lin p} : Nx (Api.select c x y : Bld p _) := by
  show Nx (bSelect c x y)
  unfold bSelect
  refine nx_bind nx_assertBool fun _ => ?_
  split
  · exact nx_pure
  · exact nx_bind nx_mul fun _ => nx_pure
theorem nx_and {x y : Lin p} : Nx (Api.and x y : Bld p _) := show Nx (bAnd x y) from nx_bind nx_assertBool fun _ => nx_bind nx_assertBool fun _ => nx_bind nx_mul fun _ => nx_bind nx_mark fun _ => nx_pure
theorem nx_or {x y : Lin p} : Nx (Api.or x y : Bld p _) := show Nx (bOr x y) from
  nx_bind nx_assertBool fun _ => nx_bind nx_assertBool fun _ => nx_bind nx_newWire fun _ => nx_bind nx_mark fun _ => nx_bind nx_constrain fun _ => nx_pure
theorem nx_xor {x y : Lin p} : Nx (Api.xor x y : Bld p _) := show Nx (bXor x y) from
  nx_bind nx_assertBool fun _ => nx_bind nx_assertBool fun _ => nx_bind nx_newWire fun _ => nx_bind nx_mark fun _ => nx_bind nx_constrain fun _ => nx_pure
theorem nx_isZero {x : Lin p} : Nx (Api.isZero x : Bld p _) := by
  show Nx (bIsZero x)
  unfold bIsZero
  split
  · exact nx_pure
  · exact nx_bind nx_newWire fun _ => nx_bind nx_newWire fun _ => nx_bind nx_constrain fun _ => nx_bind nx_constrain fun _ => nx_bind nx_mark fun _ => nx_pure
theorem nx_inverse {x : Lin p} : Nx (Api.inverse x : Bld p _) := fun σ r σ' h => by
  change bInverse x σ = _ at h
  unfold bInverse at h
  split at h
  · split at h
    · simp at h
    · simp only [Option.some.injEq, Prod.mk.injEq] at h; rw [← h.2]
  · exact nx_bind nx_newWire (fun _ => nx_bind nx_constrain fun _ => nx_pure) σ r σ' h
theorem nx_hint {xs : List (Lin p)} {h : List (ZMod p) → Option (ZMod p)} : Nx (Api.hint xs h : Bld p _) := nx_newWire
theorem nx_check {x : Lin p} {n : ℕ} {md : Mode} : Nx (Api.check x n md : Bld p _) := fun σ r σ' h => by
  simp only [Api.check, bCheck, Option.some.injEq, Prod.mk.injEq] at h
  rw [← h.2]
theorem nx_query {n : ℕ} {x : Lin p} : Nx (Api.query n x : Bld p _) := fun σ r σ' h => by
  simp only [Api.query, bQuery, Option.some.injEq, Prod.mk.injEq] at h
  rw [← h.2]

open Lean Meta Elab Tactic in
/-- As `compiled`, for `Nx`. -/
def solveN : ℕ → MVarId → MetaM Unit
  | 0, _ => throwError "too deep"
  | fuel + 1, g0 => do
    let (_, g) ← g0.intros
    g.withContext do
    let t := (← instantiateMVars (← g.getType)).consumeMData
    unless t.isAppOf ``Nx do throwError "not a program: {t}"
    match (t.getAppArgs.back!).getAppFn.constName? with
    | some n =>
      let gs ← withReducible (g.applyConst (`ZkLoc.R1cs ++ Name.mkSimple ("nx_" ++ n.getString!)))
      for g' in gs do
        unless ← g'.isAssigned do
          let ty ← instantiateMVars (← g'.getType)
          if ← isProp ty then solveN fuel g'
    | none => throwError "no program"

open Lean Meta Elab Tactic in
/-- The program adds wires only. -/
elab "nexts" : tactic => do
  solveN 4000 (← getMainGoal)
  replaceMainGoal []

theorem nx_gAbs {x : Lin p} {n : ℕ} : Nx (gAbs x n : Bld p _) := by unfold gAbs; nexts
theorem nx_gIsPositive {x : Lin p} {n : ℕ} : Nx (gIsPositive x n : Bld p _) := by unfold gIsPositive; nexts
theorem nx_gMax {x y : Lin p} {n : ℕ} : Nx (gMax x y n : Bld p _) := by unfold gMax; nexts
theorem nx_gMin {x y : Lin p} {n : ℕ} : Nx (gMin x y n : Bld p _) := by unfold gMin; nexts
theorem nx_gIsEq {x y : Lin p} : Nx (gIsEq x y : Bld p _) := by unfold gIsEq; nexts
theorem nx_queryPowerOf2 {x : Lin p} {n : ℕ} : Nx (queryPowerOf2 n x : Bld p _) := by unfold queryPowerOf2; nexts

variable {f : Fmt} {x y : FV (Lin p)}

theorem nx_newFloat {x : Lin p} : Nx (newFloat f x : Bld p _) := by unfold newFloat; dsimp only; nexts
theorem nx_round {x y z : Lin p} {n k : ℕ} : Nx (round f x n y k z : Bld p _) := by unfold round; dsimp only; nexts
theorem nx_fixOverflow {x y z t : Lin p} : Nx (fixOverflow f x y z t : Bld p _) := by unfold fixOverflow; dsimp only; nexts
theorem nx_eitherNaN : Nx (eitherNaN x y : Bld p _) := by unfold eitherNaN; nexts
theorem nx_assertSameSign : Nx (assertSameSign x y : Bld p _) := by unfold assertSameSign; nexts
theorem nx_sameData : Nx (sameData x y : Bld p _) := by unfold sameData; nexts
theorem nx_fAssertIsEqualOrULP : Nx (fAssertIsEqualOrULP f x y : Bld p _) := by unfold fAssertIsEqualOrULP; nexts
theorem nx_fAdd : Nx (fAdd f x y : Bld p _) := by unfold fAdd; dsimp only; nexts
theorem nx_fNeg : Nx (fNeg x : Bld p _) := by unfold fNeg; dsimp only; nexts
theorem nx_fSub : Nx (fSub f x y : Bld p _) := by unfold fSub; nexts
theorem nx_subnormalShift {x : Lin p} {n : ℕ} : Nx (subnormalShift f x n : Bld p _) := by unfold subnormalShift; nexts
theorem nx_fMul : Nx (fMul f x y : Bld p _) := by unfold fMul; dsimp only; nexts
theorem nx_fDiv : Nx (fDiv f x y : Bld p _) := by unfold fDiv; dsimp only; nexts
theorem nx_fSqrt : Nx (fSqrt f x : Bld p _) := by unfold fSqrt; dsimp only; nexts
theorem nx_fLess {n : ℕ} : Nx (fLess f x y n : Bld p _) := by unfold fLess; nexts
theorem nx_fIsLe : Nx (fIsLe f x y : Bld p _) := nx_fLess
theorem nx_fIsGt : Nx (fIsGt f x y : Bld p _) := nx_fLess
theorem nx_fAssertIsEqualOrCustomULP {n : ℕ} : Nx (fAssertIsEqualOrCustomULP f x y n : Bld p _) := by unfold fAssertIsEqualOrCustomULP; nexts
theorem nx_fSelect {c : Lin p} : Nx (fSelect c x y : Bld p _) := by unfold fSelect; nexts
theorem nx_bitWire {v : Lin p} {i : ℕ} : Nx (bitWire v i : Bld p _) := by unfold bitWire; nexts
theorem nx_toBinary4 {v : Lin p} : Nx (toBinary4 v : Bld p _) := by unfold toBinary4; nexts
theorem nx_scaleLoop : ∀ (bits : List (Lin p)) (ps : List ℕ) (x : FV (Lin p)), Nx (scaleLoop f bits ps x : Bld p _)
  | [], _, x => by unfold scaleLoop; exact nx_pure
  | _ :: _, [], x => by unfold scaleLoop; exact nx_pure
  | t :: bits, q :: ps, x => by
    unfold scaleLoop
    exact nx_bind nx_fMul fun _ => nx_bind nx_select fun _ => nx_bind nx_select fun _ => nx_scaleLoop bits ps _
theorem nx_scaleR {g : GeoConsts} {r : Lin p} : Nx (scaleR f g x r : Bld p _) := by
  unfold scaleR
  exact nx_bind nx_toBinary4 fun _ => nx_bind (nx_scaleLoop _ _ _) fun _ => nx_fMul
theorem nx_calculateR {g : GeoConsts} {r : Lin p} : Nx (calculateR f g x r : Bld p _) := by unfold calculateR; nexts
variable {z : FV (Lin p)} {d : FD (Lin p)} {g : GeoConsts}
theorem nx_faceDist {c : Face} : Nx (faceDist f c x y z : Bld p _) := by unfold faceDist; nexts
theorem nx_faceStep {c : Face} : Nx (faceStep f c x y z d : Bld p _) := by unfold faceStep; nexts
theorem nx_faceLoop : ∀ (cs : List Face) (s : FD (Lin p)), Nx (faceLoop f x y z cs s : Bld p _)
  | [], _ => nx_pure
  | _ :: cs, _ => by unfold faceLoop; exact nx_bind nx_faceStep fun _ => nx_faceLoop cs _
theorem nx_closestFace : Nx (closestFace f g x y z : Bld p _) := nx_faceLoop _ _
theorem nx_shiftedLng : Nx (shiftedLng f g x : Bld p _) := by unfold shiftedLng; nexts
theorem nx_leBits {v : Lin p} : ∀ (n i : ℕ) (acc : Lin p), Nx (leBits v n i acc : Bld p _)
  | 0, i, acc => nx_assertEq
  | n + 1, i, acc => by
    unfold leBits
    refine nx_bind nx_hint fun _ => nx_bind ?_ fun _ => nx_leBits n _ _
    unfold leBit
    split
    · exact nx_assertBool
    · exact nx_constrain
theorem nx_lessOrEqual15 {n : ℕ} {v : Lin p} : Nx (lessOrEqual15 n v : Bld p _) := nx_leBits _ _ _
theorem nx_locInputs {n : ℕ} {a b c : Lin p} : Nx (locInputs n f g a b c : Bld p _) := by unfold locInputs; nexts

/-! ### The invariant -/

/-- The wire does not occur in the expression. -/
def Free (i : ℕ) (x : Lin p) : Prop := ∀ t ∈ x.ts, t.1 ≠ i

/-- The constraint of `AssertIsBoolean` on wire `i` is in the system. -/
def Forced (i : ℕ) (σ : Cs p) : Prop := (Lin.wire i, (Lin.lit 1).sub (.wire i), Lin.lit 0) ∈ σ.r1cs

/-- Wire `i` is believed boolean only if it is constrained. -/
def Inv (i : ℕ) (σ : Cs p) : Prop := Lin.wire i ∈ σ.bools → Forced i σ

/-- The program keeps `Inv i`, if it does not create wire `i`, and its result then satisfies `P`. -/
def Fr (i : ℕ) (m : Bld p α) (P : α → Prop) : Prop :=
  ∀ σ a σ', m σ = some (a, σ') → i < σ.next ∨ σ'.next ≤ i → Inv i σ → P a ∧ Inv i σ'

theorem Fr.imp {m : Bld p α} {P Q : α → Prop} (h : Fr i m P) (hi : ∀ a, P a → Q a) : Fr i m Q := fun σ a σ' he h1 h2 =>
  ⟨hi a (h σ a σ' he h1 h2).1, (h σ a σ' he h1 h2).2⟩

theorem fr_bind {m : Bld p α} {k : α → Bld p γ} {P : α → Prop} {Q : γ → Prop} (h : Fr i m P) (n1 : Nx m) (n2 : ∀ a, Nx (k a)) (h' : ∀ a, P a → Fr i (k a) Q) : Fr i (m >>= k) Q := fun σ r σ'' he hi hv => by
  obtain ⟨⟨a, σ'⟩, h1, h2⟩ := Option.bind_eq_some_iff.1 he
  obtain ⟨h4, h5⟩ := h σ a σ' h1 (hi.imp id fun h => (n2 a σ' r σ'' h2).trans h) hv
  exact h' a h4 σ' r σ'' h2 (hi.imp (fun h => lt_of_lt_of_le h (n1 σ a σ' h1)) id) h5

theorem free_lit {k : ZMod p} : Free i (Ops.lit k : Lin p) := fun t ht => by simp [Ops.lit, Lin.lit] at ht
theorem free_wire {j : ℕ} (h : j ≠ i) : Free i (.wire j : Lin p) := fun t ht => by
  simp only [Lin.wire, List.mem_singleton] at ht; rw [ht]; exact h
theorem mem_addTerm {j : ℕ} {a : ZMod p} {t : ℕ × ZMod p} : ∀ {l : List (ℕ × ZMod p)}, t ∈ addTerm j a l → t.1 = j ∨ ∃ s ∈ l, s.1 = t.1
  | [], h => by simp [addTerm] at h; exact .inl (by rw [h])
  | (k, c) :: l, h => by
    unfold addTerm at h
    split at h
    · rcases List.mem_cons.1 h with rfl | h
      · exact .inl rfl
      · exact .inr ⟨t, h, rfl⟩
    · split at h
      · rcases List.mem_cons.1 h with rfl | h
        · exact .inr ⟨_, List.mem_cons_self .., rfl⟩
        · rcases mem_addTerm h with h | ⟨s, hs, e⟩
          · exact .inl h
          · exact .inr ⟨s, List.mem_cons_of_mem _ hs, e⟩
      · split at h
        · exact .inr ⟨t, List.mem_cons_of_mem _ h, rfl⟩
        · rcases List.mem_cons.1 h with rfl | h
          · exact .inl rfl
          · exact .inr ⟨t, List.mem_cons_of_mem _ h, rfl⟩
theorem free_add {x y : Lin p} (hx : Free i x) (hy : Free i y) : Free i (Ops.add x y) := by
  have h : ∀ l : List (ℕ × ZMod p), (∀ t ∈ l, t.1 ≠ i) → ∀ t ∈ l.foldr (fun t l => addTerm t.1 t.2 l) y.ts, t.1 ≠ i := by
    intro l
    induction l with
    | nil => exact fun _ => hy
    | cons s l ih =>
      intro hl t ht
      rcases mem_addTerm ht with e | ⟨r, hr, e⟩
      · rw [e]; exact hl s (List.mem_cons_self ..)
      · rw [← e]; exact ih (fun u hu => hl u (List.mem_cons_of_mem _ hu)) r hr
  exact h x.ts hx
theorem free_neg {x : Lin p} (hx : Free i x) : Free i (Ops.neg x) := fun t ht => by
  obtain ⟨s, hs, rfl⟩ := List.mem_map.1 ht
  exact hx s hs
theorem free_sub {x y : Lin p} (hx : Free i x) (hy : Free i y) : Free i (Ops.sub x y) := free_add hx (free_neg hy)
theorem free_scale {x : Lin p} (hx : Free i x) (k : ZMod p) : Free i (Ops.scale x k) := fun t ht => by
  simp only [Ops.scale, Lin.scale] at ht
  split at ht
  · simp at ht
  · obtain ⟨s, hs, rfl⟩ := List.mem_map.1 ht
    exact hx s hs
theorem Free.ne {x : Lin p} (h : Free i x) : x ≠ .wire i := by
  rintro rfl
  exact h (i, 1) (by simp [Lin.wire]) rfl

theorem fr_pure {a : α} {P : α → Prop} (h : P a) : Fr i (pure a : Bld p α) P := fun σ r σ' he _ hv => by
  simp only [show (pure a : Bld p α) σ = some (a, σ) from rfl, Option.some.injEq, Prod.mk.injEq] at he
  obtain ⟨rfl, rfl⟩ := he
  exact ⟨h, hv⟩
theorem fr_newWire : Fr i (newWire : Bld p (Lin p)) (Free i) := fun σ r σ' h hi hv => by
  simp only [newWire, Option.some.injEq, Prod.mk.injEq] at h
  obtain ⟨rfl, rfl⟩ := h
  refine ⟨free_wire ?_, hv⟩
  rcases hi with hi | hi
  · omega
  · simp only at hi; omega
theorem fr_constrain {x y z : Lin p} : Fr i (constrain x y z) fun _ => True := fun σ r σ' h hi hv => by
  simp only [constrain, Option.some.injEq, Prod.mk.injEq] at h
  obtain ⟨-, rfl⟩ := h
  exact ⟨trivial, fun h => List.mem_cons_of_mem _ (hv h)⟩
theorem fr_mark {x : Lin p} (hx : x ≠ .wire i) : Fr i (Api.mark x : Bld p _) fun _ => True := fun σ r σ' h hi hv => by
  change bMark x σ = _ at h
  unfold bMark at h
  repeat' split at h
  all_goals simp only [Option.some.injEq, Prod.mk.injEq, reduceCtorEq] at h
  all_goals obtain ⟨-, rfl⟩ := h
  · exact ⟨trivial, hv⟩
  · refine ⟨trivial, fun h => ?_⟩
    rcases List.mem_cons.1 h with h | h
    · exact absurd h.symm hx
    · exact hv h
/-- After `AssertIsBoolean` on wire `i` its constraint is there. -/
theorem assertBool_forced {x : Lin p} {σ σ' : Cs p} {u : Unit} (h : bAssertBool x σ = some (u, σ')) (hv : Inv i σ) : Inv i σ' ∧ (x = .wire i → Forced i σ') := by
  unfold bAssertBool at h
  split at h
  · rename_i k hk
    split at h
    · simp only [Option.some.injEq, Prod.mk.injEq] at h
      obtain ⟨-, rfl⟩ := h
      exact ⟨hv, fun e => by rw [e] at hk; simp [Lin.const?, Lin.wire] at hk⟩
    · simp at h
  · split at h
    · rename_i hm
      simp only [Option.some.injEq, Prod.mk.injEq] at h
      obtain ⟨-, rfl⟩ := h
      exact ⟨hv, fun e => hv (e ▸ hm)⟩
    · simp only [Option.some.injEq, Prod.mk.injEq] at h
      obtain ⟨-, rfl⟩ := h
      refine ⟨fun h => ?_, fun e => ?_⟩
      · rcases List.mem_cons.1 h with h | h
        · unfold Forced; rw [h]; exact List.mem_cons_self ..
        · exact List.mem_cons_of_mem _ (hv h)
      · unfold Forced; rw [e]; exact List.mem_cons_self ..
theorem fr_assertBool {x : Lin p} : Fr i (Api.assertBool x : Bld p _) fun _ => True := fun _ _ _ h _ hv => ⟨trivial, (assertBool_forced h hv).1⟩
theorem fr_mul {x y : Lin p} : Fr i (Api.mul x y : Bld p _) fun r => Free i x → Free i y → Free i r := by
  show Fr i (bMul x y) _
  unfold bMul
  split
  · exact fr_pure fun _ hy => free_scale hy _
  · exact fr_pure fun hx _ => free_scale hx _
  · exact fr_bind fr_newWire nx_newWire (fun _ => nx_bind nx_constrain fun _ => nx_pure) fun r hr => fr_bind fr_constrain nx_constrain (fun _ => nx_pure) fun _ _ => fr_pure fun _ _ => hr
theorem fr_assertEq {x y : Lin p} : Fr i (Api.assertEq x y : Bld p _) fun _ => True := fun σ r σ' h hi hv => by
  change bAssertEq x y σ = _ at h
  unfold bAssertEq at h
  repeat' split at h
  · simp only [Option.some.injEq, Prod.mk.injEq] at h
    obtain ⟨-, rfl⟩ := h
    exact ⟨trivial, hv⟩
  · simp at h
  · exact fr_constrain σ r σ' h hi hv
theorem fr_select {c x y : Lin p} : Fr i (Api.select c x y : Bld p _) fun r => Free i c → Free i x → Free i y → Free i r := by
  show Fr i (bSelect c x y) _
  unfold bSelect
  refine fr_bind fr_assertBool nx_assertBool (fun _ => ?_) fun _ _ => ?_
  · split
    · exact nx_pure
    · exact nx_bind nx_mul fun _ => nx_pure
  split
  · refine fr_pure fun _ hx hy => ?_
    split
    · exact hy
    · exact hx
  · exact fr_bind fr_mul nx_mul (fun _ => nx_pure) fun r hr => fr_pure fun hc hx hy => free_add (hr hc (free_sub hx hy)) hy
theorem mul_cases {x y r : Lin p} {σ σ' : Cs p} (h : bMul x y σ = some (r, σ')) :
    (∃ k, x.const? = some k ∧ r = y.scale k ∧ σ' = σ) ∨ (∃ k, y.const? = some k ∧ r = x.scale k ∧ σ' = σ) ∨ (r = .wire σ.next ∧ σ' = { σ with next := σ.next + 1, r1cs := (x, y, .wire σ.next) :: σ.r1cs }) := by
  unfold bMul at h
  rcases hx : x.const? with _ | k
  · rcases hy : y.const? with _ | k
    · rw [hx, hy] at h
      obtain ⟨e1, e2⟩ := Prod.mk.inj (Option.some.inj h)
      exact .inr (.inr ⟨e1.symm, e2.symm⟩)
    · rw [hx, hy] at h
      obtain ⟨e1, e2⟩ := Prod.mk.inj (Option.some.inj h)
      exact .inr (.inl ⟨k, rfl, e1.symm, e2.symm⟩)
  · rw [hx] at h
    obtain ⟨e1, e2⟩ := Prod.mk.inj (Option.some.inj h)
    exact .inl ⟨k, rfl, e1.symm, e2.symm⟩
theorem assertBool_cases {x : Lin p} {σ σ' : Cs p} {u : Unit} (h : bAssertBool x σ = some (u, σ')) : (∀ k, x.const? = some k → k = 0 ∨ k = 1) ∧ ∀ c ∈ σ.r1cs, c ∈ σ'.r1cs := by
  unfold bAssertBool at h
  rcases hx : x.const? with _ | k
  · rw [hx] at h
    refine ⟨fun k hk => by simp at hk, fun c hc => ?_⟩
    simp only at h
    split at h
    · rw [← (Prod.mk.inj (Option.some.inj h)).2]; exact hc
    · rw [← (Prod.mk.inj (Option.some.inj h)).2]; exact List.mem_cons_of_mem _ hc
  · rw [hx] at h
    simp only at h
    split at h
    · rename_i hk
      rw [← (Prod.mk.inj (Option.some.inj h)).2]
      refine ⟨fun k' e => ?_, fun c hc => hc⟩
      obtain rfl := Option.some.inj e
      exact isBool_iff.1 hk
    · simp at h
theorem fr_and {x y : Lin p} : Fr i (Api.and x y : Bld p _) fun r => Free i x → Free i y → Free i r := fun σ r σ4 he hi hv => by
  change bAnd x y σ = _ at he
  obtain ⟨⟨⟨⟩, σ1⟩, h1, he⟩ := Option.bind_eq_some_iff.1 he
  obtain ⟨⟨⟨⟩, σ2⟩, h2, he⟩ := Option.bind_eq_some_iff.1 he
  obtain ⟨⟨r', σ3⟩, h3, he⟩ := Option.bind_eq_some_iff.1 he
  obtain ⟨⟨⟨⟩, σ4'⟩, h4, he⟩ := Option.bind_eq_some_iff.1 he
  obtain ⟨rfl, rfl⟩ := Prod.mk.inj (Option.some.inj he)
  have n1 : σ.next ≤ σ1.next := nx_assertBool σ _ σ1 h1
  have n2 : σ1.next ≤ σ2.next := nx_assertBool σ1 _ σ2 h2
  have n3 : σ2.next ≤ σ3.next := nx_mul σ2 _ σ3 h3
  have n4 : σ3.next ≤ σ4'.next := nx_mark σ3 _ σ4' h4
  have h3 : bMul x y σ2 = some (r', σ3) := h3
  obtain ⟨v1, f1⟩ := assertBool_forced h1 hv
  obtain ⟨v2, f2⟩ := assertBool_forced h2 v1
  have hi : i < σ.next ∨ σ4'.next ≤ i := hi
  obtain ⟨hf, v3⟩ := fr_mul σ2 r' σ3 h3 (by omega) v2
  refine ⟨hf, ?_⟩
  by_cases hr : r' = .wire i
  · -- the product is wire `i`: then it is one of the factors, which is constrained
    refine fun _ => ?_
    have e4 : σ4'.r1cs = σ3.r1cs := by
      have h4 : bMark r' σ3 = some ((), σ4') := h4
      unfold bMark at h4
      repeat' split at h4
      all_goals simp only [Option.some.injEq, Prod.mk.injEq, reduceCtorEq] at h4
      all_goals obtain ⟨-, rfl⟩ := h4
      all_goals rfl
    unfold Forced
    rw [e4]
    have hz : ∀ z : Lin p, z.scale 0 ≠ .wire i := fun z h => by simpa [Lin.scale, Lin.wire] using congrArg Lin.ts h
    have ho : ∀ z : Lin p, z.scale 1 = .wire i → z = .wire i := fun z h => by
      unfold Lin.scale at h
      split at h
      · simpa [Lin.wire] using congrArg Lin.ts h
      · simpa using h
    rcases mul_cases h3 with ⟨k, hk, e1, e2⟩ | ⟨k, hk, e1, e2⟩ | ⟨e1, e2⟩
    · rcases (assertBool_cases h1).1 k hk with rfl | rfl
      · exact absurd (e1.symm.trans hr) (hz y)
      · rw [e2]; exact f2 (ho y (e1.symm.trans hr))
    · rcases (assertBool_cases h2).1 k hk with rfl | rfl
      · exact absurd (e1.symm.trans hr) (hz x)
      · rw [e2]; exact (assertBool_cases h2).2 _ (f1 (ho x (e1.symm.trans hr)))
    · exfalso
      have := congrArg Lin.ts (e1.symm.trans hr)
      simp only [Lin.wire, List.cons.injEq, Prod.mk.injEq, and_true] at this
      have e3 : σ3.next = σ2.next + 1 := by rw [e2]
      omega
  · exact (fr_mark hr σ3 _ σ4' h4 (by show i < σ3.next ∨ σ4'.next ≤ i; omega) v3).2
theorem fr_or {x y : Lin p} : Fr i (Api.or x y : Bld p _) (Free i) := show Fr i (bOr x y) (Free i) from
  fr_bind fr_assertBool nx_assertBool (fun _ => nx_bind nx_assertBool fun _ => nx_bind nx_newWire fun _ => nx_bind nx_mark fun _ => nx_bind nx_constrain fun _ => nx_pure) fun _ _ =>
  fr_bind fr_assertBool nx_assertBool (fun _ => nx_bind nx_newWire fun _ => nx_bind nx_mark fun _ => nx_bind nx_constrain fun _ => nx_pure) fun _ _ =>
  fr_bind fr_newWire nx_newWire (fun _ => nx_bind nx_mark fun _ => nx_bind nx_constrain fun _ => nx_pure) fun _ hr =>
  fr_bind (fr_mark hr.ne) nx_mark (fun _ => nx_bind nx_constrain fun _ => nx_pure) fun _ _ => fr_bind fr_constrain nx_constrain (fun _ => nx_pure) fun _ _ => fr_pure hr
theorem fr_xor {x y : Lin p} : Fr i (Api.xor x y : Bld p _) (Free i) := show Fr i (bXor x y) (Free i) from
  fr_bind fr_assertBool nx_assertBool (fun _ => nx_bind nx_assertBool fun _ => nx_bind nx_newWire fun _ => nx_bind nx_mark fun _ => nx_bind nx_constrain fun _ => nx_pure) fun _ _ =>
  fr_bind fr_assertBool nx_assertBool (fun _ => nx_bind nx_newWire fun _ => nx_bind nx_mark fun _ => nx_bind nx_constrain fun _ => nx_pure) fun _ _ =>
  fr_bind fr_newWire nx_newWire (fun _ => nx_bind nx_mark fun _ => nx_bind nx_constrain fun _ => nx_pure) fun _ hr =>
  fr_bind (fr_mark hr.ne) nx_mark (fun _ => nx_bind nx_constrain fun _ => nx_pure) fun _ _ => fr_bind fr_constrain nx_constrain (fun _ => nx_pure) fun _ _ => fr_pure hr
theorem fr_isZero {x : Lin p} : Fr i (Api.isZero x : Bld p _) (Free i) := by
  show Fr i (bIsZero x) _
  unfold bIsZero
  split
  · exact fr_pure free_lit
  · exact fr_bind fr_newWire nx_newWire (fun _ => nx_bind nx_newWire fun _ => nx_bind nx_constrain fun _ => nx_bind nx_constrain fun _ => nx_bind nx_mark fun _ => nx_pure) fun r hr =>
      fr_bind fr_newWire nx_newWire (fun _ => nx_bind nx_constrain fun _ => nx_bind nx_constrain fun _ => nx_bind nx_mark fun _ => nx_pure) fun _ _ =>
      fr_bind fr_constrain nx_constrain (fun _ => nx_bind nx_constrain fun _ => nx_bind nx_mark fun _ => nx_pure) fun _ _ => fr_bind fr_constrain nx_constrain (fun _ => nx_bind nx_mark fun _ => nx_pure) fun _ _ =>
      fr_bind (fr_mark hr.ne) nx_mark (fun _ => nx_pure) fun _ _ => fr_pure hr
theorem fr_inverse {x : Lin p} : Fr i (Api.inverse x : Bld p _) fun _ => True := fun σ r σ' h hi hv => by
  change bInverse x σ = _ at h
  unfold bInverse at h
  split at h
  · split at h
    · simp at h
    · simp only [Option.some.injEq, Prod.mk.injEq] at h
      obtain ⟨rfl, rfl⟩ := h
      exact ⟨trivial, hv⟩
  · exact fr_bind fr_newWire nx_newWire (fun _ => nx_bind nx_constrain fun _ => nx_pure) (fun _ _ => fr_bind fr_constrain nx_constrain (fun _ => nx_pure) fun _ _ => fr_pure trivial) σ r σ' h hi hv
theorem fr_hint {xs : List (Lin p)} {h : List (ZMod p) → Option (ZMod p)} : Fr i (Api.hint xs h : Bld p _) (Free i) := fr_newWire
theorem fr_check {x : Lin p} {n : ℕ} {md : Mode} : Fr i (Api.check x n md : Bld p _) fun _ => True := fun σ r σ' h hi hv => by
  simp only [Api.check, bCheck, Option.some.injEq, Prod.mk.injEq] at h
  obtain ⟨-, rfl⟩ := h
  exact ⟨trivial, hv⟩
theorem fr_query {n : ℕ} {x : Lin p} : Fr i (Api.query n x : Bld p _) fun _ => True := fun σ r σ' h hi hv => by
  simp only [Api.query, bQuery, Option.some.injEq, Prod.mk.injEq] at h
  obtain ⟨-, rfl⟩ := h
  exact ⟨trivial, hv⟩

/-- Finds that an expression does not contain the wire. -/
syntax "fsolve" : tactic
macro_rules
  | `(tactic| fsolve) => `(tactic| first
    | assumption
    | exact trivial
    | exact free_lit
    | (refine ⟨?_, ?_⟩ <;> fsolve)
    | (refine Free.ne ?_; fsolve)
    | (intro _; fsolve)
    | (with_reducible refine free_sub ?_ ?_ <;> fsolve)
    | (with_reducible refine free_add ?_ ?_ <;> fsolve)
    | (with_reducible refine free_neg ?_; fsolve)
    | (with_reducible refine free_scale ?_ _; fsolve))

open Lean Meta Elab Tactic

/-- Solve with `fsolve`. -/
def fsolveM (g : MVarId) : TacticM Unit := do
  let gs ← Tactic.run g (do evalTactic (← `(tactic| fsolve)))
  unless gs.isEmpty do throwError "fsolve left goals"

/-- Take a hypothesis apart: conjunctions, and implications whose premises hold. -/
partial def useHyp (g : MVarId) (h : FVarId) : TacticM MVarId := g.withContext do
  let t ← instantiateMVars (← h.getType)
  let t := t.headBeta
  if t.isAppOf ``And then
    let g1 ← g.assert `h1 t.appFn!.appArg! (.proj ``And 0 (.fvar h))
    let (h1, g1) ← g1.intro1
    let g1 ← useHyp g1 h1
    g1.withContext do
    let g2 ← g1.assert `h2 t.appArg! (.proj ``And 1 (.fvar h))
    let (h2, g2) ← g2.intro1
    useHyp g2 h2
  else if t.isArrow then
    let saved ← saveState
    try
      let pf ← mkFreshExprMVar t.bindingDomain!
      fsolveM pf.mvarId!
      let g1 ← g.assert `h1 t.bindingBody! (.app (.fvar h) (← instantiateMVars pf))
      let (h1, g1) ← g1.intro1
      useHyp g1 h1
    catch _ =>
      restoreState saved
      return g
  else if t != (← h.getType) then
    let g1 ← g.assert `h1 t (.fvar h)
    return (← g1.intro1).2
  else return g

/-- Introduce a result and what is known of it. -/
def introHyp (g : MVarId) : TacticM MVarId := do
  let (_, g) ← g.intro1
  let (h, g) ← g.intro1
  useHyp g h

/-- Apply the lemma of a program. -/
def applyFr (g : MVarId) : TacticM Unit := g.withContext do
  let t := (← instantiateMVars (← g.getType)).consumeMData
  let args := t.getAppArgs
  match (args[args.size - 2]!).getAppFn.constName? with
  | some n =>
    let gs ← withReducible (g.applyConst (`ZkLoc.R1cs ++ Name.mkSimple ("fr_" ++ n.getString!)))
    for g' in gs do
      unless ← g'.isAssigned do
        if ← isProp (← instantiateMVars (← g'.getType)) then fsolveM g'
  | none => throwError "no program"

partial def solveFr (g : MVarId) : TacticM Unit := g.withContext do
  let t := (← instantiateMVars (← g.getType)).consumeMData
  unless t.isAppOf ``Fr do throwError "not a program: {t}"
  let args := t.getAppArgs
  let m := args[args.size - 2]!
  if m.isAppOf ``Bind.bind then
    let gs ← withReducible (g.applyConst ``fr_bind)
    let mut rest := none
    for g' in gs do
      unless ← g'.isAssigned do
        let ty ← instantiateMVars (← g'.getType)
        if ty.isAppOf ``Fr then applyFr g'
    for g' in gs do
      unless ← g'.isAssigned do
        let ty ← instantiateMVars (← g'.getType)
        if ← isProp ty then
          if ty.getForallBody.isAppOf ``Nx then solveN 4000 g' else rest := some g'
    match rest with
    | some g' => solveFr (← introHyp g')
    | none => throwError "no continuation"
  else if m.isAppOf ``Pure.pure then
    let gs ← g.applyConst ``fr_pure
    for g' in gs do
      unless ← g'.isAssigned do fsolveM (← g'.replaceTargetDefEq (← Core.betaReduce (← instantiateMVars (← g'.getType))))
  else
    let gs ← g.applyConst ``Fr.imp
    let mut rest := none
    for g' in gs do
      unless ← g'.isAssigned do
        let ty ← instantiateMVars (← g'.getType)
        if ty.isAppOf ``Fr then applyFr g'
        else if ← isProp ty then rest := some g'
    match rest with
    | some g' =>
      let g' ← introHyp g'
      g'.withContext do fsolveM (← g'.replaceTargetDefEq (← Core.betaReduce (← instantiateMVars (← g'.getType))))
    | none => pure ()

/-- The program keeps the invariant. -/
elab "frame" : tactic => do
  let g ← getMainGoal
  solveFr g
  replaceMainGoal []

theorem fr_gAbs {x : Lin p} {n : ℕ} : Fr i (gAbs x n : Bld p _) fun r => Free i r.2 := by unfold gAbs; frame
theorem fr_gIsPositive {x : Lin p} {n : ℕ} : Fr i (gIsPositive x n : Bld p _) (Free i) := by unfold gIsPositive; frame
theorem fr_gMax {x y : Lin p} {n : ℕ} : Fr i (gMax x y n : Bld p _) fun _ => True := by unfold gMax; frame
theorem fr_gMin {x y : Lin p} {n : ℕ} : Fr i (gMin x y n : Bld p _) fun _ => True := by unfold gMin; frame
theorem fr_gIsEq {x y : Lin p} : Fr i (gIsEq x y : Bld p _) (Free i) := by unfold gIsEq; frame
theorem fr_queryPowerOf2 {x : Lin p} {n : ℕ} : Fr i (queryPowerOf2 n x : Bld p _) fun _ => True := by unfold queryPowerOf2; frame
theorem fr_newFloat {x : Lin p} : Fr i (newFloat f x : Bld p _) fun r => Free i r.sign ∧ Free i r.isAbnormal := by unfold newFloat; dsimp only; frame
theorem fr_round {x y z : Lin p} {n k : ℕ} : Fr i (round f x n y k z : Bld p _) fun _ => True := by unfold round; dsimp only; frame
theorem fr_fixOverflow {x y z t : Lin p} : Fr i (fixOverflow f x y z t : Bld p _) fun r => Free i r.2.2 := by unfold fixOverflow; dsimp only; frame
theorem fr_eitherNaN : Fr i (eitherNaN x y : Bld p _) (Free i) := by unfold eitherNaN; frame
theorem fr_assertSameSign : Fr i (assertSameSign x y : Bld p _) fun _ => True := by unfold assertSameSign; frame
theorem fr_sameData : Fr i (sameData x y : Bld p _) (Free i) := by unfold sameData; frame
theorem fr_fAssertIsEqualOrULP : Fr i (fAssertIsEqualOrULP f x y : Bld p _) fun _ => True := by unfold fAssertIsEqualOrULP; frame
theorem fr_fAdd (hy : Free i y.isAbnormal) : Fr i (fAdd f x y : Bld p _) fun r => (Free i x.sign → Free i r.sign) ∧ Free i r.isAbnormal := by
  by_cases hx : Free i x.sign
  · unfold fAdd; dsimp only; frame
  · refine Fr.imp (P := fun r => Free i r.isAbnormal) ?_ fun a ha => ⟨fun h => absurd h hx, ha⟩
    unfold fAdd; dsimp only; frame
theorem fr_fNeg (hs : Ops.sub (Ops.lit 1) x.sign ≠ Lin.wire i) : Fr i (fNeg x : Bld p _) fun r => r.isAbnormal = x.isAbnormal := by
  unfold fNeg; dsimp only
  exact fr_bind (fr_mark hs) nx_mark (fun _ => nx_pure) fun _ _ => fr_pure rfl
theorem fr_fSub (hs : Ops.sub (Ops.lit 1) y.sign ≠ Lin.wire i) (hy : Free i y.isAbnormal) : Fr i (fSub f x y : Bld p _) fun r => (Free i x.sign → Free i r.sign) ∧ Free i r.isAbnormal := by
  unfold fSub
  exact fr_bind (fr_fNeg hs) nx_fNeg (fun _ => nx_fAdd) fun n hn => fr_fAdd (by rw [hn]; exact hy)
theorem fr_subnormalShift {x : Lin p} {n : ℕ} : Fr i (subnormalShift f x n : Bld p _) fun _ => True := by unfold subnormalShift; frame
theorem fr_fMul : Fr i (fMul f x y : Bld p _) fun r => Free i r.sign ∧ Free i r.isAbnormal := by unfold fMul; dsimp only; frame
theorem fr_fDiv : Fr i (fDiv f x y : Bld p _) fun r => Free i r.sign ∧ Free i r.isAbnormal := by unfold fDiv; dsimp only; frame
theorem fr_fSqrt : Fr i (fSqrt f x : Bld p _) fun r => (Free i x.sign → Free i r.sign) ∧ Free i r.isAbnormal := by unfold fSqrt; dsimp only; frame
theorem fr_fLess {n : ℕ} (hx : Free i x.sign) : Fr i (fLess f x y n : Bld p _) (Free i) := by unfold fLess; frame
theorem fr_fIsLe (hx : Free i x.sign) : Fr i (fIsLe f x y : Bld p _) (Free i) := fr_fLess hx
theorem fr_fIsGt (hy : Free i y.sign) : Fr i (fIsGt f x y : Bld p _) (Free i) := fr_fLess hy
theorem fr_fAssertIsEqualOrCustomULP {n : ℕ} (hs : Ops.sub (Ops.lit 1) y.sign ≠ Lin.wire i) (hy : Free i y.isAbnormal) : Fr i (fAssertIsEqualOrCustomULP f x y n : Bld p _) fun _ => True := by
  unfold fAssertIsEqualOrCustomULP; frame
theorem fr_fSelect {c : Lin p} (hc : Free i c) : Fr i (fSelect c x y : Bld p _) fun r => (Free i x.sign → Free i y.sign → Free i r.sign) ∧ (Free i x.isAbnormal → Free i y.isAbnormal → Free i r.isAbnormal) := by
  unfold fSelect
  refine fr_bind fr_select nx_select (fun _ => by nexts) fun s hs => fr_bind fr_select nx_select (fun _ => by nexts) fun _ _ => fr_bind fr_select nx_select (fun _ => by nexts) fun _ _ =>
    fr_bind fr_select nx_select (fun _ => by nexts) fun a ha => fr_pure ⟨hs hc, ha hc⟩

theorem fr_bitWire {v : Lin p} {n : ℕ} : Fr i (bitWire v n : Bld p _) (Free i) := by unfold bitWire; frame
theorem fr_toBinary4 {v : Lin p} : Fr i (toBinary4 v : Bld p _) fun r => Free i r.1 := by unfold toBinary4; frame
theorem fr_scaleLoop : ∀ (bits : List (Lin p)) (ps : List ℕ) (x : FV (Lin p)), Fr i (scaleLoop f bits ps x : Bld p _) fun _ => True
  | [], _, x => by unfold scaleLoop; exact fr_pure trivial
  | _ :: _, [], x => by unfold scaleLoop; exact fr_pure trivial
  | t :: bits, q :: ps, x => by
    unfold scaleLoop
    exact fr_bind fr_fMul nx_fMul (fun _ => nx_bind nx_select fun _ => nx_bind nx_select fun _ => nx_scaleLoop bits ps _) fun _ _ =>
      fr_bind fr_select nx_select (fun _ => nx_bind nx_select fun _ => nx_scaleLoop bits ps _) fun _ _ => fr_bind fr_select nx_select (fun _ => nx_scaleLoop bits ps _) fun _ _ => fr_scaleLoop bits ps _
theorem fr_scaleR {r : Lin p} : Fr i (scaleR f g x r : Bld p _) fun _ => True := by
  unfold scaleR
  exact fr_bind fr_toBinary4 nx_toBinary4 (fun _ => nx_bind (nx_scaleLoop _ _ _) fun _ => nx_fMul) fun _ _ => fr_bind (fr_scaleLoop _ _ _) (nx_scaleLoop _ _ _) (fun _ => nx_fMul) fun _ _ => fr_fMul.imp fun _ _ => trivial
theorem fr_calculateR {r : Lin p} (hs : Free i x.sign) (hx : Free i x.isAbnormal) : Fr i (calculateR f g x r : Bld p _) fun _ => True := by unfold calculateR; frame

/-- The negation of the sign is not the wire, and the flag does not contain it. -/
def Tame (i : ℕ) (x : FV (Lin p)) : Prop := Ops.sub (Ops.lit 1) x.sign ≠ Lin.wire i ∧ Free i x.isAbnormal

theorem tame_of {x : FV (Lin p)} (h : Free i x.sign ∧ Free i x.isAbnormal) : Tame i x := ⟨(free_sub free_lit h.1).ne, h.2⟩

theorem fr_faceDist {c : Face} (hx : Tame i x) (hy : Tame i y) (hz : Tame i z) : Fr i (faceDist f c x y z : Bld p _) fun r => Free i r.sign ∧ Free i r.isAbnormal := by
  obtain ⟨hx, hx'⟩ := hx
  obtain ⟨hy, hy'⟩ := hy
  obtain ⟨hz, hz'⟩ := hz
  unfold faceDist; frame
theorem fr_faceStep {c : Face} (hx : Tame i x) (hy : Tame i y) (hz : Tame i z) (h1 : Free i d.sqDist.sign) (h2 : Free i d.sqDist.isAbnormal) :
    Fr i (faceStep f c x y z d : Bld p _) fun r => Free i r.sqDist.sign ∧ Free i r.sqDist.isAbnormal := by
  unfold faceStep; frame
theorem fr_faceLoop (hx : Tame i x) (hy : Tame i y) (hz : Tame i z) : ∀ (cs : List Face) (s : FD (Lin p)), Free i s.sqDist.sign → Free i s.sqDist.isAbnormal →
    Fr i (faceLoop f x y z cs s : Bld p _) fun r => Free i r.sqDist.sign ∧ Free i r.sqDist.isAbnormal
  | [], _, h1, h2 => fr_pure ⟨h1, h2⟩
  | _ :: cs, _, h1, h2 => by
    unfold faceLoop
    exact fr_bind (fr_faceStep hx hy hz h1 h2) nx_faceStep (fun _ => nx_faceLoop cs _) fun _ h => fr_faceLoop hx hy hz cs _ h.1 h.2
theorem fr_closestFace (hx : Tame i x) (hy : Tame i y) (hz : Tame i z) : Fr i (closestFace f g x y z : Bld p _) fun r => Free i r.sqDist.sign ∧ Free i r.sqDist.isAbnormal :=
  fr_faceLoop hx hy hz _ _ free_lit free_lit
theorem fr_shiftedLng : Fr i (shiftedLng f g x : Bld p _) fun _ => True := by unfold shiftedLng; frame
theorem fr_leBits {v : Lin p} : ∀ (n j : ℕ) (acc : Lin p), Fr i (leBits v n j acc : Bld p _) fun _ => True
  | 0, j, acc => fr_assertEq
  | n + 1, j, acc => by
    have hn : ∀ t : Lin p, Nx (leBit j t : Bld p _) := fun t => by
      unfold leBit
      split
      · exact nx_assertBool
      · exact nx_constrain
    unfold leBits
    refine fr_bind fr_hint nx_hint (fun _ => nx_bind (hn _) fun _ => nx_leBits n _ _) fun t _ => fr_bind ?_ (hn t) (fun _ => nx_leBits n _ _) fun _ (_ : True) => fr_leBits n _ _
    unfold leBit
    split
    · exact fr_assertBool
    · exact fr_constrain
theorem fr_lessOrEqual15 {n : ℕ} {v : Lin p} : Fr i (lessOrEqual15 n v : Bld p _) fun _ => True := fr_leBits _ _ _
theorem fr_locInputs {n : ℕ} {a b c : Lin p} : Fr i (locInputs n f g a b c : Bld p _) fun _ => True := by unfold locInputs; frame

/-! ### The constraint comes with a product -/

/-- However the program goes, wire `i` is a bit in every assignment that satisfies the constraints. -/
def Fc (b i : ℕ) (m : Bld p α) : Prop := ∀ w σ a σ', m σ = some (a, σ') → i < σ.next → Inv i σ → σ'.Holds b w → isBool (w i) = true

variable {b : ℕ}

theorem fc_left {m : Bld p α} {k : α → Bld p γ} (h : Fc b i m) (hm : ∀ a, Mono b (k a)) : Fc b i (m >>= k) := fun w σ r σ'' he hi hv hh => by
  obtain ⟨⟨a, σ'⟩, h1, h2⟩ := Option.bind_eq_some_iff.1 he
  exact h w σ a σ' h1 hi hv (hm a w σ' r σ'' h2 hh)
theorem fc_right {m : Bld p α} {k : α → Bld p γ} {P : α → Prop} (h : Fr i m P) (hn : Nx m) (h' : ∀ a, P a → Fc b i (k a)) : Fc b i (m >>= k) := fun w σ r σ'' he hi hv hh => by
  obtain ⟨⟨a, σ'⟩, h1, h2⟩ := Option.bind_eq_some_iff.1 he
  obtain ⟨h3, h4⟩ := h σ a σ' h1 (.inl hi) hv
  exact h' a h3 w σ' r σ'' h2 (hi.trans_le (hn σ a σ' h1)) h4 hh

theorem fc_assertBool [Fact p.Prime] : Fc b i (bAssertBool (.wire i) : Bld p Unit) := fun w σ a σ' he hi hv hh => by
  have := hh.1 _ ((assertBool_forced he hv).2 rfl)
  simp only [Lin.eval_sub, Lin.eval_wire, Lin.eval_lit] at this
  exact isBool_mul.2 this

theorem fc_fMul [Fact p.Prime] {x y : FV (Lin p)} (h : y.sign = .wire i) : Fc b i (fMul f x y : Bld p _) := by
  unfold fMul
  refine fc_left ?_ fun _ => by dsimp only; mono
  show Fc b i (bXor x.sign y.sign)
  rw [h]
  exact fc_right fr_assertBool nx_assertBool fun _ _ => fc_left fc_assertBool fun _ => mono_wireTo

end ZkLoc.R1cs
