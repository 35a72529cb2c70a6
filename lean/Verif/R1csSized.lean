import Verif.R1csLookup
import Verif.R1csPre
import Verif.R1csMath
import Verif.R1csAgain

/-!
# The compiled programs query one table only

All queries of a circuit to the powers-of-two table are made for the one table of its context (`Context.Gadget`), whose size is that of the format.
-/

namespace ZkLoc.R1cs

variable {p : ℕ} {α γ : Type} {n : ℕ}

/-- The queries made by the program are to a table of size `n`, and no more than its range checks. -/
def Sized (n : ℕ) (m : Bld p α) : Prop := ∀ σ a σ', m σ = some (a, σ') →
  ((∀ q ∈ σ.queries, q.1 = n) → ∀ q ∈ σ'.queries, q.1 = n) ∧ σ'.queries.length + σ.checks.length ≤ σ.queries.length + σ'.checks.length

/-- The calls other than `QueryPowerOf2` make no query. -/
def Mute (m : Bld p α) : Prop := ∀ σ a σ', m σ = some (a, σ') → σ'.queries = σ.queries ∧ σ.checks.length ≤ σ'.checks.length

theorem Mute.sized {m : Bld p α} (h : Mute m) : Sized n m := fun σ a σ' he => by
  obtain ⟨h1, h2⟩ := h σ a σ' he
  rw [h1]
  exact ⟨id, by omega⟩

theorem mute_pure (a : α) : Mute (pure a : Bld p α) := fun σ r σ' h => by
  simp only [show (pure a : Bld p α) σ = some (a, σ) from rfl, Option.some.injEq, Prod.mk.injEq] at h
  rw [← h.2]; exact ⟨rfl, le_rfl⟩
theorem mute_bind {m : Bld p α} {k : α → Bld p γ} (h : Mute m) (h' : ∀ a, Mute (k a)) : Mute (m >>= k) := fun σ r σ'' he => by
  obtain ⟨⟨a, σ'⟩, h1, h2⟩ := Option.bind_eq_some_iff.1 he
  obtain ⟨e1, l1⟩ := h σ a σ' h1
  obtain ⟨e2, l2⟩ := h' a σ' r σ'' h2
  exact ⟨e2.trans e1, l1.trans l2⟩
theorem mute_wire : Mute (newWire : Bld p (Lin p)) := fun σ r σ' h => by
  simp only [newWire, Option.some.injEq, Prod.mk.injEq] at h
  rw [← h.2]; exact ⟨rfl, le_rfl⟩
theorem mute_constrain (x y z : Lin p) : Mute (constrain x y z) := fun σ r σ' h => by
  simp only [constrain, Option.some.injEq, Prod.mk.injEq] at h
  rw [← h.2]; exact ⟨rfl, le_rfl⟩
theorem mute_mark (x : Lin p) : Mute (bMark x) := fun σ r σ' h => by
  unfold bMark at h
  repeat' split at h
  all_goals simp only [Option.some.injEq, Prod.mk.injEq, reduceCtorEq] at h
  all_goals rw [← h.2]; exact ⟨rfl, le_rfl⟩
theorem mute_assertBool (x : Lin p) : Mute (bAssertBool x) := fun σ r σ' h => by
  unfold bAssertBool at h
  repeat' split at h
  all_goals simp only [Option.some.injEq, Prod.mk.injEq, reduceCtorEq] at h
  all_goals rw [← h.2]; exact ⟨rfl, le_rfl⟩
theorem mute_mul (x y : Lin p) : Mute (bMul x y) := by
  unfold bMul
  split
  · exact mute_pure _
  · exact mute_pure _
  · exact mute_bind mute_wire fun _ => mute_bind (mute_constrain _ _ _) fun _ => mute_pure _
theorem mute_assertEq (x y : Lin p) : Mute (bAssertEq x y) := fun σ r σ' h => ⟨(assertEq_checks h).2, (congrArg List.length (assertEq_checks h).1).ge⟩
theorem mute_select (c x y : Lin p) : Mute (bSelect c x y) := by
  unfold bSelect
  refine mute_bind (mute_assertBool _) fun _ => ?_
  split
  · exact mute_pure _
  · exact mute_bind (mute_mul _ _) fun _ => mute_pure _
theorem mute_and (x y : Lin p) : Mute (bAnd x y) := mute_bind (mute_assertBool _) fun _ => mute_bind (mute_assertBool _) fun _ => mute_bind (mute_mul _ _) fun _ => mute_bind (mute_mark _) fun _ => mute_pure _
theorem mute_or (x y : Lin p) : Mute (bOr x y) :=
  mute_bind (mute_assertBool _) fun _ => mute_bind (mute_assertBool _) fun _ => mute_bind mute_wire fun _ => mute_bind (mute_mark _) fun _ => mute_bind (mute_constrain _ _ _) fun _ => mute_pure _
theorem mute_xor (x y : Lin p) : Mute (bXor x y) :=
  mute_bind (mute_assertBool _) fun _ => mute_bind (mute_assertBool _) fun _ => mute_bind mute_wire fun _ => mute_bind (mute_mark _) fun _ => mute_bind (mute_constrain _ _ _) fun _ => mute_pure _
theorem mute_isZero (x : Lin p) : Mute (bIsZero x) := by
  unfold bIsZero
  split
  · exact mute_pure _
  · exact mute_bind mute_wire fun _ => mute_bind mute_wire fun _ => mute_bind (mute_constrain _ _ _) fun _ => mute_bind (mute_constrain _ _ _) fun _ => mute_bind (mute_mark _) fun _ => mute_pure _
theorem mute_inverse (x : Lin p) : Mute (bInverse x) := fun σ r σ' h => by
  unfold bInverse at h
  split at h
  · split at h
    · simp at h
    · simp only [Option.some.injEq, Prod.mk.injEq] at h; rw [← h.2]; exact ⟨rfl, le_rfl⟩
  · exact mute_bind mute_wire (fun _ => mute_bind (mute_constrain _ _ _) fun _ => mute_pure _) σ r σ' h
theorem mute_check (x : Lin p) (n : ℕ) (md : Mode) : Mute (bCheck x n md) := fun σ r σ' h => by
  simp only [bCheck, Option.some.injEq, Prod.mk.injEq] at h
  rw [← h.2]; exact ⟨rfl, by simp⟩

theorem sz_pure {a : α} : Sized n (pure a : Bld p α) := (mute_pure a).sized
theorem sz_bind {m : Bld p α} {k : α → Bld p γ} (h : Sized n m) (h' : ∀ a, Sized n (k a)) : Sized n (m >>= k) := fun σ r σ'' he => by
  obtain ⟨⟨a, σ'⟩, h1, h2⟩ := Option.bind_eq_some_iff.1 he
  obtain ⟨e1, l1⟩ := h σ a σ' h1
  obtain ⟨e2, l2⟩ := h' a σ' r σ'' h2
  exact ⟨e2 ∘ e1, by omega⟩
theorem sz_mul {x y : Lin p} : Sized n (Api.mul x y : Bld p _) := (mute_mul x y).sized
theorem sz_isZero {x : Lin p} : Sized n (Api.isZero x : Bld p _) := (mute_isZero x).sized
theorem sz_mark {x : Lin p} : Sized n (Api.mark x : Bld p _) := (mute_mark x).sized
theorem sz_assertBool {x : Lin p} : Sized n (Api.assertBool x : Bld p _) := (mute_assertBool x).sized
theorem sz_assertEq {x y : Lin p} : Sized n (Api.assertEq x y : Bld p _) := (mute_assertEq x y).sized
theorem sz_select {c x y : Lin p} : Sized n (Api.select c x y : Bld p _) := (mute_select c x y).sized
theorem sz_and {x y : Lin p} : Sized n (Api.and x y : Bld p _) := (mute_and x y).sized
theorem sz_or {x y : Lin p} : Sized n (Api.or x y : Bld p _) := (mute_or x y).sized
theorem sz_xor {x y : Lin p} : Sized n (Api.xor x y : Bld p _) := (mute_xor x y).sized
theorem sz_inverse {x : Lin p} : Sized n (Api.inverse x : Bld p _) := (mute_inverse x).sized
theorem sz_hint {xs : List (Lin p)} {h : List (ZMod p) → Option (ZMod p)} : Sized n (Api.hint xs h : Bld p _) := mute_wire.sized
theorem sz_check {x : Lin p} {k : ℕ} {md : Mode} : Sized n (Api.check x k md : Bld p _) := (mute_check x k md).sized
theorem sz_zeroBit {x : Lin p} : Sized n (ApiZero.zeroBit x : Bld p Unit) := (mute_constrain _ _ _).sized
theorem sz_freeBit {x y : Lin p} : Sized n (ApiFree.freeBit x y : Bld p Unit) := (mute_constrain _ _ _).sized

open Lean Meta Elab Tactic in
/-- Applies the lemma `sz_…` of the program, and so on. -/
partial def solveSz (g0 : MVarId) : TacticM Unit := do
  let (_, g) ← g0.intros
  g.withContext do
  let t := (← instantiateMVars (← g.getType)).consumeMData
  if t.isAppOf ``Sized then
    let args := t.getAppArgs
    match (args[args.size - 1]!).headBeta.getAppFn.constName? with
    | some c =>
      let g ← g.change (mkAppN t.getAppFn (args.set! (args.size - 1) (args[args.size - 1]!).headBeta))
      let gs ← withReducible (g.applyConst (`ZkLoc.R1cs ++ Name.mkSimple ("sz_" ++ c.getString!)))
      for g' in gs do
        unless ← g'.isAssigned do
          let ty ← instantiateMVars (← g'.getType)
          if ← isProp ty then solveSz g'
    | none =>
      setGoals [g]
      evalTactic (← `(tactic| solve_by_elim))
  else
    setGoals [g]
    evalTactic (← `(tactic| assumption))

open Lean Meta Elab Tactic in
/-- The queries of a program, from those of its parts. -/
elab "sizes" : tactic => do
  let g ← getMainGoal
  let rest := (← getGoals).tail!
  solveSz g
  setGoals rest

variable {f : Fmt} {g : GeoConsts} {x y z u v w r i j k : Lin p} {X Y Z W : FV (Lin p)} {L N : ℕ}

theorem sz_gAbs : Sized n (gAbs x L : Bld p _) := by unfold gAbs; sizes
theorem sz_gIsPositive : Sized n (gIsPositive x L : Bld p _) := by unfold gIsPositive; sizes
theorem sz_gMax : Sized n (gMax x y L : Bld p _) := by unfold gMax; sizes
theorem sz_gMin : Sized n (gMin x y L : Bld p _) := by unfold gMin; sizes
theorem sz_gIsEq : Sized n (gIsEq x y : Bld p _) := by unfold gIsEq; sizes
theorem sz_queryPowerOf2 : Sized n (queryPowerOf2 n x : Bld p _) := fun σ a σ' h => by
  have h : some ((Lin.wire σ.next : Lin p), (⟨σ.next + 1, σ.r1cs, σ.bools, (.wire σ.next, n, .loose) :: σ.checks, (n, _) :: σ.queries⟩ : Cs p)) = some (a, σ') := h
  simp only [Option.some.injEq, Prod.mk.injEq] at h
  rw [← h.2]
  refine ⟨fun hq q hm => ?_, by simp only [List.length_cons]; omega⟩
  rcases List.mem_cons.1 hm with rfl | hm
  · rfl
  · exact hq q hm
theorem sz_newFloat : Sized f.pow2Size (newFloat f x : Bld p _) := by unfold newFloat; dsimp only; sizes
theorem sz_round : Sized f.pow2Size (round f x L y N z : Bld p _) := by unfold round; dsimp only; sizes
theorem sz_fixOverflow : Sized n (fixOverflow f x y z w : Bld p _) := by unfold fixOverflow; dsimp only; sizes
theorem sz_eitherNaN : Sized n (eitherNaN X Y : Bld p _) := by unfold eitherNaN; sizes
theorem sz_assertSameSign : Sized n (assertSameSign X Y : Bld p _) := by unfold assertSameSign; sizes
theorem sz_fAssertIsEqual : Sized n (fAssertIsEqual X Y : Bld p _) := by unfold fAssertIsEqual; sizes
theorem sz_sameData : Sized n (sameData X Y : Bld p _) := by unfold sameData; sizes
theorem sz_fAssertIsEqualOrULP : Sized n (fAssertIsEqualOrULP f X Y : Bld p _) := by unfold fAssertIsEqualOrULP; sizes
theorem sz_fAdd : Sized f.pow2Size (fAdd f X Y : Bld p _) := by unfold fAdd; dsimp only; sizes
theorem sz_fNeg : Sized n (fNeg X : Bld p _) := by unfold fNeg; dsimp only; sizes
theorem sz_fSub : Sized f.pow2Size (fSub f X Y : Bld p _) := by unfold fSub; sizes
theorem sz_subnormalShift : Sized n (subnormalShift f x L : Bld p _) := by unfold subnormalShift; sizes
theorem sz_fMul : Sized f.pow2Size (fMul f X Y : Bld p _) := by unfold fMul; dsimp only; sizes
theorem sz_fDiv : Sized f.pow2Size (fDiv f X Y : Bld p _) := by unfold fDiv; dsimp only; sizes
theorem sz_fSqrt : Sized f.pow2Size (fSqrt f X : Bld p _) := by unfold fSqrt; dsimp only; sizes
theorem sz_fLess : Sized n (fLess f X Y L : Bld p _) := by unfold fLess; sizes
theorem sz_fIsLt : Sized n (fIsLt f X Y : Bld p _) := by unfold fIsLt; sizes
theorem sz_fIsLe : Sized n (fIsLe f X Y : Bld p _) := by unfold fIsLe; sizes
theorem sz_fIsGt : Sized n (fIsGt f X Y : Bld p _) := by unfold fIsGt; sizes
theorem sz_fIsGe : Sized n (fIsGe f X Y : Bld p _) := by unfold fIsGe; sizes
theorem sz_fAssertIsEqualOrCustomULP : Sized f.pow2Size (fAssertIsEqualOrCustomULP f X Y L : Bld p _) := by unfold fAssertIsEqualOrCustomULP; sizes
theorem sz_fTrunc : Sized f.pow2Size (fTrunc f X : Bld p _) := by unfold fTrunc; dsimp only; sizes
theorem sz_fFloor : Sized f.pow2Size (fFloor f X : Bld p _) := by unfold fFloor; dsimp only; sizes
theorem sz_fCeil : Sized f.pow2Size (fCeil f X : Bld p _) := by unfold fCeil; sizes
theorem sz_fToInt : Sized f.pow2Size (fToInt f X : Bld p _) := by unfold fToInt; sizes
theorem sz_fSelect : Sized n (fSelect x X Y : Bld p _) := by unfold fSelect; sizes

/-! ### The circuits of the float tests -/

theorem sz_unaryCircuit {op : FV (Lin p) → Bld p (FV (Lin p))} (h : ∀ X, Sized f.pow2Size (op X)) : Sized f.pow2Size (unaryCircuit f op x y : Bld p _) := by
  unfold unaryCircuit
  exact sz_bind sz_newFloat fun _ => sz_bind sz_newFloat fun _ => sz_bind (h _) fun _ => sz_fAssertIsEqual
theorem sz_binaryCircuit {op : FV (Lin p) → FV (Lin p) → Bld p (FV (Lin p))} (h : ∀ X Y, Sized f.pow2Size (op X Y)) : Sized f.pow2Size (binaryCircuit f op x y z : Bld p _) := by
  unfold binaryCircuit
  exact sz_bind sz_newFloat fun _ => sz_bind sz_newFloat fun _ => sz_bind sz_newFloat fun _ => sz_bind (h _ _) fun _ => sz_fAssertIsEqual
theorem sz_comparisonCircuit {op : FV (Lin p) → FV (Lin p) → Bld p (Lin p)} (h : ∀ X Y, Sized f.pow2Size (op X Y)) : Sized f.pow2Size (comparisonCircuit f op x y z : Bld p _) := by
  unfold comparisonCircuit
  exact sz_bind sz_newFloat fun _ => sz_bind sz_newFloat fun _ => sz_bind sz_assertBool fun _ => sz_bind (h _ _) fun _ => sz_assertEq
theorem sz_allocationCircuit : Sized f.pow2Size (allocationCircuit f L x : Bld p _) := by
  unfold allocationCircuit
  exact sz_bind sz_newFloat fun _ => sz_fAssertIsEqual
theorem sz_conversionCircuit {op : FV (Lin p) → Bld p (FV (Lin p))} (h : ∀ X, Sized f.pow2Size (op X)) : Sized f.pow2Size (conversionCircuit f op x y : Bld p _) := by
  unfold conversionCircuit
  exact sz_bind sz_newFloat fun _ => sz_bind (h _) fun _ => sz_bind sz_fToInt fun _ => sz_assertEq

/-! ### The location circuits -/

theorem sz_bitWire : Sized n (bitWire x L : Bld p _) := by unfold bitWire; sizes
theorem sz_toBinary4 : Sized n (toBinary4 x : Bld p _) := by unfold toBinary4; sizes
theorem sz_leBit : Sized n (leBit L x : Bld p _) := by
  unfold leBit
  split
  · sizes
  · sizes
theorem sz_leBits : ∀ (N i : ℕ) (acc : Lin p), Sized n (leBits x N i acc : Bld p _)
  | 0, i, acc => sz_assertEq
  | N + 1, i, acc => sz_bind sz_hint fun _ => sz_bind sz_leBit fun _ => sz_leBits N (i + 1) _
theorem sz_lessOrEqual15 : Sized n (lessOrEqual15 N x : Bld p _) := sz_leBits _ _ _
theorem sz_sinTerm {e : Bool} : Sized f.pow2Size (sinTerm f e X Y : Bld p _) := by
  unfold sinTerm
  split
  · sizes
  · sizes
theorem sz_sinLoop : ∀ (ds : List ℕ) (e : Bool) (Y Z : FV (Lin p)), Sized f.pow2Size (sinLoop f X ds e Y Z : Bld p _)
  | [], e, Y, Z => sz_pure
  | d :: ds, e, Y, Z => sz_bind sz_sinTerm fun _ => sz_bind sz_fMul fun _ => sz_bind sz_fDiv fun _ => sz_sinLoop ds _ _ _
theorem sz_sinMag {ds : List ℕ} : Sized f.pow2Size (sinMag f ds x y : Bld p _) := by unfold sinMag; exact sz_bind sz_fMul fun _ => sz_sinLoop _ _ _ _
theorem sz_sinTaylor {c : TrigConsts} {ds : List ℕ} : Sized f.pow2Size (sinTaylor f c ds X : Bld p _) := by unfold sinTaylor; sizes
theorem sz_scaleLoop : ∀ (bits : List (Lin p)) (ps : List ℕ) (X : FV (Lin p)), Sized f.pow2Size (scaleLoop f bits ps X : Bld p _)
  | [], _, X => by unfold scaleLoop; exact sz_pure
  | _ :: _, [], X => by unfold scaleLoop; exact sz_pure
  | _ :: bits, _ :: ps, X => by
    unfold scaleLoop
    exact sz_bind sz_fMul fun _ => sz_bind sz_select fun _ => sz_bind sz_select fun _ => sz_scaleLoop bits ps _
theorem sz_scaleR : Sized f.pow2Size (scaleR f g X x : Bld p _) := by unfold scaleR; exact sz_bind sz_toBinary4 fun _ => sz_bind (sz_scaleLoop _ _ _) fun _ => sz_fMul
theorem sz_calculateR : Sized f.pow2Size (calculateR f g X x : Bld p _) := by unfold calculateR; sizes
theorem sz_faceDist {c : Face} : Sized f.pow2Size (faceDist f c X Y Z : Bld p _) := by unfold faceDist; sizes
theorem sz_faceStep {c : Face} {s : FD (Lin p)} : Sized f.pow2Size (faceStep f c X Y Z s : Bld p _) := by unfold faceStep; sizes
theorem sz_faceLoop : ∀ (cs : List Face) (s : FD (Lin p)), Sized f.pow2Size (faceLoop f X Y Z cs s : Bld p _)
  | [], s => sz_pure
  | c :: cs, s => sz_bind sz_faceStep fun _ => sz_faceLoop cs _
theorem sz_closestFace : Sized f.pow2Size (closestFace f g X Y Z : Bld p _) := sz_faceLoop _ _
theorem sz_calculateHex2d {A B C D : FV (Lin p)} {d : FD (Lin p)} : Sized f.pow2Size (calculateHex2d f A B C D d X x : Bld p _) := by unfold calculateHex2d; dsimp only; sizes
theorem sz_normalizeIJK {a : Lin p} : Sized n (normalizeIJK x i y j a k : Bld p _) := by unfold normalizeIJK; sizes
theorem sz_foldAxes : Sized n (foldAxes x y i j : Bld p _) := by unfold foldAxes; sizes
theorem sz_quadrantIJ : Sized f.pow2Size (quadrantIJ f g X Y : Bld p _) := by unfold quadrantIJ; dsimp only; sizes
theorem sz_hex2dToCoordIJK : Sized f.pow2Size (hex2dToCoordIJK f g X Y : Bld p _) := by unfold hex2dToCoordIJK; sizes
theorem sz_locCell : Sized f.pow2Size (locCell f g X Y Z W x : Bld p _) := by unfold locCell; sizes
theorem sz_assertCell {t : Lin p × Lin p × Lin p} : Sized n (assertCell t i j k : Bld p _) := by unfold assertCell; sizes
theorem sz_locInputs : Sized f.pow2Size (locInputs N f g x y z : Bld p _) := by unfold locInputs; sizes
theorem sz_shiftedLng : Sized f.pow2Size (shiftedLng f g X : Bld p _) := by unfold shiftedLng; sizes
theorem sz_wrapperTrig {c : TrigConsts} {ds : List ℕ} : Sized f.pow2Size (wrapperTrig f c ds g X Y : Bld p _) := by unfold wrapperTrig; sizes
theorem sz_wrapperCircuit {c : TrigConsts} {ds : List ℕ} : Sized f.pow2Size (wrapperCircuit N f c ds g x y z i j k : Bld p _) := by unfold wrapperCircuit; sizes

theorem sz_hintFloat {h : FloatVar p} : Sized n (hintFloat h : Bld p (FV (Lin p))) := by unfold hintFloat; sizes
theorem sz_precompute {h : Pre p} : Sized f.pow2Size (precompute f h : Bld p (FV (Lin p) × FV (Lin p) × FV (Lin p) × FV (Lin p))) := by unfold precompute; sizes
section
variable {a c : FV (Lin p) × FV (Lin p) × FV (Lin p) × FV (Lin p)} {o c1 c2 c2' c3 : Option ℕ} {t : Bool} {hLat hLng : Pre p}
theorem sz_preIdentity : Sized f.pow2Size (preIdentity f a : Bld p _) := by unfold preIdentity; sizes
theorem sz_compare : Sized f.pow2Size (compare f o X Y : Bld p _) := by
  unfold compare
  split
  · sizes
  · sizes
theorem sz_preCheck2 : Sized f.pow2Size (preCheck2 f o a : Bld p _) := by unfold preCheck2; sizes
theorem sz_preCheck3 : Sized f.pow2Size (preCheck3 f g o a : Bld p _) := by unfold preCheck3; sizes
theorem sz_preCos : Sized f.pow2Size (preCos f a : Bld p _) := by unfold preCos; sizes
theorem sz_preBody : Sized f.pow2Size (preBody f g c1 c2 c2' c3 x i j k a c : Bld p _) := by unfold preBody; sizes
theorem sz_preUnused : Sized f.pow2Size (preUnused f g t X Y : Bld p _) := by
  unfold preUnused
  split
  · sizes
  · sizes
theorem sz_preHead : Sized f.pow2Size (preHead N f g t hLat hLng x y z : Bld p _) := by unfold preHead; sizes
theorem sz_precomputeCircuit : Sized f.pow2Size (precomputeCircuit N f g t c1 c2 c2' c3 hLat hLng x y z i j k : Bld p _) := by unfold precomputeCircuit; sizes
end

/-! ### The circuits of the math tests -/

theorem sz_horner : ∀ (cs : List ℕ) (Y : FV (Lin p)), Sized f.pow2Size (horner f X cs Y : Bld p _)
  | [], Y => sz_pure
  | c :: cs, Y => sz_bind sz_fMul fun _ => sz_bind sz_fAdd fun _ => sz_horner cs _
theorem sz_polyEval {cs : List ℕ} : Sized f.pow2Size (polyEval f cs X : Bld p _) := sz_horner _ _
theorem sz_evalK1 {cs : List ℕ} : Sized f.pow2Size (evalK1 f cs X : Bld p _) := sz_horner _ _
theorem sz_atanMag {c : TrigConsts} : Sized f.pow2Size (atanMag f c X : Bld p _) := by unfold atanMag; sizes
theorem sz_atanRemez {c : TrigConsts} : Sized f.pow2Size (atanRemez f c X : Bld p _) := by unfold atanRemez; sizes
theorem sz_funcCircuit {op : FV (Lin p) → Bld p (FV (Lin p))} (h : ∀ X, Sized f.pow2Size (op X)) : Sized f.pow2Size (funcCircuit f op x y : Bld p _) := by
  unfold funcCircuit
  exact sz_bind sz_newFloat fun _ => sz_bind sz_newFloat fun _ => sz_bind (h _) fun _ => sz_bind sz_assertEq fun _ => sz_assertEq
theorem sz_canonStep : Sized n (canonStep L x y : Bld p _) := by
  unfold canonStep
  split
  · sizes
  · sizes
theorem sz_leStep : Sized n (leStep x y z : Bld p _) := by unfold leStep; sizes
theorem sz_leVarBits : ∀ (N : ℕ) (t q u v : Lin p), Sized n (leVarBits x y N t q u v : Bld p _)
  | 0, t, q, u, v => sz_bind sz_assertEq fun _ => sz_assertEq
  | N + 1, t, q, u, v => sz_bind sz_hint fun _ => sz_bind sz_bitWire fun _ => sz_bind sz_canonStep fun _ => sz_bind sz_leStep fun _ => sz_leVarBits N _ _ _ _
theorem sz_lessOrEqualVar : Sized n (lessOrEqualVar N x y : Bld p _) := sz_leVarBits _ _ _ _ _
theorem sz_ulpCircuit {op : FV (Lin p) → Bld p (FV (Lin p))} (h : ∀ X, Sized f.pow2Size (op X)) : Sized f.pow2Size (ulpCircuit N f op x y z w : Bld p _) := by
  unfold ulpCircuit
  exact sz_bind sz_newFloat fun _ => sz_bind sz_newFloat fun _ => sz_bind sz_newFloat fun _ => sz_bind sz_newFloat fun _ => sz_bind (h _) fun _ => sz_bind sz_assertEq fun _ =>
    sz_bind sz_lessOrEqualVar fun _ => sz_lessOrEqualVar

end ZkLoc.R1cs
