import Verif.R1csLocCirc
import Verif.LocShape

/-!
# The range checks that the compiled programs record

The compiled program records the same range checks as the program of the model, so the table width that `CommitChecker.commit` selects for the compiled circuit is the one computed for the model.
-/

namespace ZkLoc.R1cs

set_option maxRecDepth 8000

variable {p : ℕ} {α β γ δ : Type}

/-- The compiled program records range checks of the widths that the circuit meets. -/
def Wid (m : Bld p α) (c : Circ p β) : Prop := ∀ σ a σ', m σ = some (a, σ') → (σ'.checks.map fun c => c.2.1) = c.widths.reverse ++ σ.checks.map fun c => c.2.1

theorem widths_bind (c : Circ p α) (d : α → Circ p β) : ∃ y, (c >>= d).widths = c.widths ++ (d y).widths := by
  show ∃ y, (c.bind d).widths = _
  induction c with
  | pure a => exact ⟨a, rfl⟩
  | hint h k ih => exact ih _
  | assert c k ih => exact ih
  | soft c k ih => exact ih
  | check v n m k ih =>
    obtain ⟨y, h⟩ := ih
    exact ⟨y, by simp [Circ.bind, Circ.widths, h]⟩
  | query s v k ih => exact ih

theorem wid_bind {m : Bld p α} {c : Circ p β} {k : α → Bld p γ} {d : β → Circ p δ} (h : Wid m c) (h' : ∀ a y, Wid (k a) (d y)) : Wid (m >>= k) (c >>= d) := fun σ r σ'' he => by
  obtain ⟨⟨a, σ'⟩, h1, h2⟩ := Option.bind_eq_some_iff.1 he
  obtain ⟨y, hy⟩ := widths_bind c d
  rw [h' a y σ' r σ'' h2, h σ a σ' h1, hy, List.reverse_append, List.append_assoc]

theorem wid_map {m : Bld p α} {c : Circ p β} {c' : Circ p γ} {g : β → γ} (h : Wid m c) (hc : Map g c c') : Wid m c' := fun σ a σ' he => by
  obtain ⟨y, hy⟩ := widths_bind c fun b => (pure (g b) : Circ p γ)
  rw [← hc, hy, h σ a σ' he]
  rw [show (pure (g y) : Circ p γ).widths = [] from rfl, List.append_nil]

/-- The calls other than `AssertBitLength` record nothing. -/
def Quiet (m : Bld p α) : Prop := ∀ σ a σ', m σ = some (a, σ') → σ'.checks = σ.checks

theorem quiet_pure (a : α) : Quiet (pure a : Bld p α) := fun σ r σ' h => by
  simp only [show (pure a : Bld p α) σ = some (a, σ) from rfl, Option.some.injEq, Prod.mk.injEq] at h
  rw [← h.2]
theorem quiet_bind {m : Bld p α} {k : α → Bld p γ} (h : Quiet m) (h' : ∀ a, Quiet (k a)) : Quiet (m >>= k) := fun σ r σ'' he => by
  obtain ⟨⟨a, σ'⟩, h1, h2⟩ := Option.bind_eq_some_iff.1 he
  rw [h' a σ' r σ'' h2, h σ a σ' h1]
theorem quiet_wire : Quiet (newWire : Bld p (Lin p)) := fun σ r σ' h => by
  simp only [newWire, Option.some.injEq, Prod.mk.injEq] at h
  rw [← h.2]
theorem quiet_constrain (x y z : Lin p) : Quiet (constrain x y z) := fun σ r σ' h => by
  simp only [constrain, Option.some.injEq, Prod.mk.injEq] at h
  rw [← h.2]
theorem quiet_mark (x : Lin p) : Quiet (bMark x) := fun σ r σ' h => by
  unfold bMark at h
  repeat' split at h
  all_goals simp only [Option.some.injEq, Prod.mk.injEq, reduceCtorEq] at h
  all_goals rw [← h.2]
theorem quiet_assertBool (x : Lin p) : Quiet (bAssertBool x) := fun σ r σ' h => by
  unfold bAssertBool at h
  repeat' split at h
  all_goals simp only [Option.some.injEq, Prod.mk.injEq, reduceCtorEq] at h
  all_goals rw [← h.2]
theorem quiet_mul (x y : Lin p) : Quiet (bMul x y) := by
  unfold bMul
  split
  · exact quiet_pure _
  · exact quiet_pure _
  · exact quiet_bind quiet_wire fun _ => quiet_bind (quiet_constrain _ _ _) fun _ => quiet_pure _
theorem quiet_assertEq (x y : Lin p) : Quiet (bAssertEq x y) := fun σ r σ' h => (assertEq_checks h).1
theorem quiet_select (c x y : Lin p) : Quiet (bSelect c x y) := by
  unfold bSelect
  refine quiet_bind (quiet_assertBool _) fun _ => ?_
  split
  · exact quiet_pure _
  · exact quiet_bind (quiet_mul _ _) fun _ => quiet_pure _
theorem quiet_and (x y : Lin p) : Quiet (bAnd x y) := quiet_bind (quiet_assertBool _) fun _ => quiet_bind (quiet_assertBool _) fun _ => quiet_bind (quiet_mul _ _) fun _ => quiet_bind (quiet_mark _) fun _ => quiet_pure _
theorem quiet_or (x y : Lin p) : Quiet (bOr x y) :=
  quiet_bind (quiet_assertBool _) fun _ => quiet_bind (quiet_assertBool _) fun _ => quiet_bind quiet_wire fun _ => quiet_bind (quiet_mark _) fun _ => quiet_bind (quiet_constrain _ _ _) fun _ => quiet_pure _
theorem quiet_xor (x y : Lin p) : Quiet (bXor x y) :=
  quiet_bind (quiet_assertBool _) fun _ => quiet_bind (quiet_assertBool _) fun _ => quiet_bind quiet_wire fun _ => quiet_bind (quiet_mark _) fun _ => quiet_bind (quiet_constrain _ _ _) fun _ => quiet_pure _
theorem quiet_isZero (x : Lin p) : Quiet (bIsZero x) := by
  unfold bIsZero
  split
  · exact quiet_pure _
  · exact quiet_bind quiet_wire fun _ => quiet_bind quiet_wire fun _ => quiet_bind (quiet_constrain _ _ _) fun _ => quiet_bind (quiet_constrain _ _ _) fun _ => quiet_bind (quiet_mark _) fun _ => quiet_pure _
theorem quiet_inverse (x : Lin p) : Quiet (bInverse x) := fun σ r σ' h => by
  unfold bInverse at h
  split at h
  · split at h
    · simp at h
    · simp only [Option.some.injEq, Prod.mk.injEq] at h; rw [← h.2]
  · exact quiet_bind quiet_wire (fun _ => quiet_bind (quiet_constrain _ _ _) fun _ => quiet_pure _) σ r σ' h
theorem quiet_query (n : ℕ) (x : Lin p) : Quiet (bQuery n x) := fun σ r σ' h => by
  simp only [bQuery, Option.some.injEq, Prod.mk.injEq] at h
  rw [← h.2]

theorem Quiet.wid {m : Bld p α} {c : Circ p β} (h : Quiet m) (hc : c.widths = []) : Wid m c := fun σ a σ' he => by rw [h σ a σ' he, hc]; rfl

theorem wid_pure {a : α} {y : β} : Wid (pure a : Bld p α) (pure y : Circ p β) := (quiet_pure a).wid rfl
theorem wid_mul {x y : Lin p} {u v : ZMod p} : Wid (Api.mul x y : Bld p _) (Api.mul u v : Circ p _) := (quiet_mul x y).wid rfl
theorem wid_isZero {x : Lin p} {u : ZMod p} : Wid (Api.isZero x : Bld p _) (Api.isZero u : Circ p _) := (quiet_isZero x).wid rfl
theorem wid_mark {x : Lin p} {u : ZMod p} : Wid (Api.mark x : Bld p _) (Api.mark u : Circ p _) := (quiet_mark x).wid rfl
theorem wid_assertBool {x : Lin p} {u : ZMod p} : Wid (Api.assertBool x : Bld p _) (Api.assertBool u : Circ p _) := (quiet_assertBool x).wid rfl
theorem wid_assertEq {x y : Lin p} {u v : ZMod p} : Wid (Api.assertEq x y : Bld p _) (Api.assertEq u v : Circ p _) := (quiet_assertEq x y).wid rfl
theorem wid_select {c x y : Lin p} {d u v : ZMod p} : Wid (Api.select c x y : Bld p _) (Api.select d u v : Circ p _) := (quiet_select c x y).wid rfl
theorem wid_and {x y : Lin p} {u v : ZMod p} : Wid (Api.and x y : Bld p _) (Api.and u v : Circ p _) := (quiet_and x y).wid rfl
theorem wid_or {x y : Lin p} {u v : ZMod p} : Wid (Api.or x y : Bld p _) (Api.or u v : Circ p _) := (quiet_or x y).wid rfl
theorem wid_xor {x y : Lin p} {u v : ZMod p} : Wid (Api.xor x y : Bld p _) (Api.xor u v : Circ p _) := (quiet_xor x y).wid rfl
theorem wid_inverse {x : Lin p} {u : ZMod p} : Wid (Api.inverse x : Bld p _) (Api.inverse u : Circ p _) := (quiet_inverse x).wid rfl
theorem wid_hint {xs : List (Lin p)} {us : List (ZMod p)} {h h' : List (ZMod p) → Option (ZMod p)} : Wid (Api.hint xs h : Bld p _) (Api.hint us h' : Circ p _) := quiet_wire.wid rfl
theorem wid_query {n : ℕ} {x : Lin p} {u : ZMod p} : Wid (Api.query n x : Bld p _) (Api.query n u : Circ p _) := (quiet_query n x).wid rfl
theorem wid_check {x : Lin p} {u : ZMod p} {n : ℕ} {md : Mode} : Wid (Api.check x n md : Bld p _) (Api.check u n md : Circ p _) := fun σ a σ' h => by
  simp only [Api.check, bCheck, Option.some.injEq, Prod.mk.injEq] at h
  rw [← h.2]
  rfl

open Lean Meta Elab Tactic in
/-- As `compiled`, for `Wid`. -/
def solveW : ℕ → MVarId → MetaM Unit
  | 0, _ => throwError "too deep"
  | fuel + 1, g0 => do
    let (_, g) ← g0.intros
    g.withContext do
    let t := (← instantiateMVars (← g.getType)).consumeMData
    unless t.isAppOf ``Wid do throwError "not a program: {t}"
    let args := t.getAppArgs
    match (args[args.size - 2]!).getAppFn.constName? with
    | some n =>
      let gs ← withReducible (g.applyConst (`ZkLoc.R1cs ++ Name.mkSimple ("wid_" ++ n.getString!)))
      for g' in gs do
        unless ← g'.isAssigned do
          let ty ← instantiateMVars (← g'.getType)
          if ← isProp ty then solveW fuel g'
    | none => throwError "no program"

open Lean Meta Elab Tactic in
/-- The two programs record the same range checks. -/
elab "wids" : tactic => do
  solveW 4000 (← getMainGoal)
  replaceMainGoal []

theorem wid_gAbs {x : Lin p} {u : ZMod p} {n : ℕ} : Wid (gAbs x n : Bld p _) (gAbs u n : Circ p _) := by unfold gAbs; wids
theorem wid_gIsPositive {x : Lin p} {u : ZMod p} {n : ℕ} : Wid (gIsPositive x n : Bld p _) (gIsPositive u n : Circ p _) := by unfold gIsPositive; wids
theorem wid_gMax {x y : Lin p} {u v : ZMod p} {n : ℕ} : Wid (gMax x y n : Bld p _) (gMax u v n : Circ p _) := by unfold gMax; wids
theorem wid_gMin {x y : Lin p} {u v : ZMod p} {n : ℕ} : Wid (gMin x y n : Bld p _) (gMin u v n : Circ p _) := by unfold gMin; wids
theorem wid_gIsEq {x y : Lin p} {u v : ZMod p} : Wid (gIsEq x y : Bld p _) (gIsEq u v : Circ p _) := by unfold gIsEq; wids
theorem wid_queryPowerOf2 {x : Lin p} {u : ZMod p} {n : ℕ} : Wid (queryPowerOf2 n x : Bld p _) (queryPowerOf2 n u : Circ p _) := by unfold queryPowerOf2; wids

variable {f : Fmt} {x y : FV (Lin p)} {u v : FV (ZMod p)}

theorem wid_newFloat {x : Lin p} {u : ZMod p} : Wid (newFloat f x : Bld p _) (newFloat f u : Circ p _) := by unfold newFloat; dsimp only; wids
theorem wid_round {x y z : Lin p} {u v w : ZMod p} {n k : ℕ} : Wid (round f x n y k z : Bld p _) (round f u n v k w : Circ p _) := by unfold round; dsimp only; wids
theorem wid_fixOverflow {x y z t : Lin p} {x' y' z' t' : ZMod p} : Wid (fixOverflow f x y z t : Bld p _) (fixOverflow f x' y' z' t' : Circ p _) := by unfold fixOverflow; dsimp only; wids
theorem wid_eitherNaN : Wid (eitherNaN x y : Bld p _) (eitherNaN u v : Circ p _) := by unfold eitherNaN; wids
theorem wid_assertSameSign : Wid (assertSameSign x y : Bld p _) (assertSameSign u v : Circ p _) := by unfold assertSameSign; wids
theorem wid_fAssertIsEqual : Wid (fAssertIsEqual x y : Bld p _) (fAssertIsEqual u v : Circ p _) := by unfold fAssertIsEqual; wids
theorem wid_sameData : Wid (sameData x y : Bld p _) (sameData u v : Circ p _) := by unfold sameData; wids
theorem wid_fAssertIsEqualOrULP : Wid (fAssertIsEqualOrULP f x y : Bld p _) (fAssertIsEqualOrULP f u v : Circ p _) := by unfold fAssertIsEqualOrULP; wids
theorem wid_fAdd : Wid (fAdd f x y : Bld p _) (fAdd f u v : Circ p _) := by unfold fAdd; dsimp only; wids
theorem wid_fNeg : Wid (fNeg x : Bld p _) (fNeg u : Circ p _) := by unfold fNeg; dsimp only; wids
theorem wid_fSub : Wid (fSub f x y : Bld p _) (fSub f u v : Circ p _) := by unfold fSub; wids
theorem wid_subnormalShift {x : Lin p} {u : ZMod p} {n : ℕ} : Wid (subnormalShift f x n : Bld p _) (subnormalShift f u n : Circ p _) := by unfold subnormalShift; wids
theorem wid_fMul : Wid (fMul f x y : Bld p _) (fMul f u v : Circ p _) := by unfold fMul; dsimp only; wids
theorem wid_fDiv : Wid (fDiv f x y : Bld p _) (fDiv f u v : Circ p _) := by unfold fDiv; dsimp only; wids
theorem wid_fSqrt : Wid (fSqrt f x : Bld p _) (fSqrt f u : Circ p _) := by unfold fSqrt; dsimp only; wids
theorem wid_fLess {n : ℕ} : Wid (fLess f x y n : Bld p _) (fLess f u v n : Circ p _) := by unfold fLess; wids
theorem wid_fIsLt : Wid (fIsLt f x y : Bld p _) (fIsLt f u v : Circ p _) := wid_fLess
theorem wid_fIsLe : Wid (fIsLe f x y : Bld p _) (fIsLe f u v : Circ p _) := wid_fLess
theorem wid_fIsGt : Wid (fIsGt f x y : Bld p _) (fIsGt f u v : Circ p _) := wid_fLess
theorem wid_fAssertIsEqualOrCustomULP {n : ℕ} : Wid (fAssertIsEqualOrCustomULP f x y n : Bld p _) (fAssertIsEqualOrCustomULP f u v n : Circ p _) := by unfold fAssertIsEqualOrCustomULP; wids
theorem wid_fTrunc : Wid (fTrunc f x : Bld p _) (fTrunc f u : Circ p _) := by unfold fTrunc; dsimp only; wids
theorem wid_fFloor : Wid (fFloor f x : Bld p _) (fFloor f u : Circ p _) := by unfold fFloor; dsimp only; wids
theorem wid_fToInt : Wid (fToInt f x : Bld p _) (fToInt f u : Circ p _) := by unfold fToInt; wids
theorem wid_fSelect {c : Lin p} {d : ZMod p} : Wid (fSelect c x y : Bld p _) (fSelect d u v : Circ p _) := by unfold fSelect; wids

theorem wid_sinTerm {even : Bool} : Wid (sinTerm f even x y : Bld p _) (sinTerm f even u v : Circ p _) := by
  cases even
  · exact wid_fAdd
  · exact wid_fSub
theorem wid_sinLoop {xs : FV (Lin p)} {xs' : FV (ZMod p)} : ∀ (ds : List ℕ) (even : Bool) (r t : FV (Lin p)) (r' t' : FV (ZMod p)), Wid (sinLoop f xs ds even r t : Bld p _) (sinLoop f xs' ds even r' t' : Circ p _)
  | [], _, _, _, _, _ => wid_pure
  | _ :: ds, _, _, _, _, _ => by unfold sinLoop; exact wid_bind wid_sinTerm fun _ _ => wid_bind wid_fMul fun _ _ => wid_bind wid_fDiv fun _ _ => wid_sinLoop ds _ _ _ _ _
theorem wid_sinMag {ds : List ℕ} {e m : Lin p} {e' m' : ZMod p} : Wid (sinMag f ds e m : Bld p _) (sinMag f ds e' m' : Circ p _) := by
  unfold sinMag
  exact wid_bind wid_fMul fun _ _ => wid_sinLoop _ _ _ _ _ _
theorem wid_sinTaylor {k : TrigConsts} {ds : List ℕ} : Wid (sinTaylor f k ds x : Bld p _) (sinTaylor f k ds u : Circ p _) := by unfold sinTaylor; wids
theorem wid_bitWire {v : Lin p} {u : ZMod p} {i : ℕ} : Wid (bitWire v i : Bld p _) (bitWire u i : Circ p _) := by unfold bitWire; wids
theorem wid_toBinary4 {v : Lin p} {u : ZMod p} : Wid (toBinary4 v : Bld p _) (toBinary4 u : Circ p _) := by unfold toBinary4; wids
theorem wid_scaleLoop : ∀ (bits : List (Lin p)) (bits' : List (ZMod p)) (ps : List ℕ) (x : FV (Lin p)) (x' : FV (ZMod p)), bits.length = bits'.length →
    Wid (scaleLoop f bits ps x : Bld p _) (scaleLoop f bits' ps x' : Circ p _)
  | [], [], _, x, x', _ => by unfold scaleLoop; exact wid_pure
  | _ :: _, _ :: _, [], x, x', _ => by unfold scaleLoop; exact wid_pure
  | t :: bits, t' :: bits', q :: ps, x, x', h => by
    unfold scaleLoop
    exact wid_bind wid_fMul fun _ _ => wid_bind wid_select fun _ _ => wid_bind wid_select fun _ _ => wid_scaleLoop bits bits' ps _ _ (by simpa using h)
theorem wid_scaleR {g : GeoConsts} {r : Lin p} {r' : ZMod p} : Wid (scaleR f g x r : Bld p _) (scaleR f g u r' : Circ p _) := by
  unfold scaleR
  exact wid_bind wid_toBinary4 fun _ _ => wid_bind (wid_scaleLoop _ _ _ _ _ rfl) fun _ _ => wid_fMul
theorem wid_calculateR {g : GeoConsts} {r : Lin p} {r' : ZMod p} : Wid (calculateR f g x r : Bld p _) (calculateR f g u r' : Circ p _) := by unfold calculateR; wids

variable {z : FV (Lin p)} {w : FV (ZMod p)} {d : FD (Lin p)} {d' : FD (ZMod p)} {g : GeoConsts}
theorem wid_faceDist {c : Face} : Wid (faceDist f c x y z : Bld p _) (faceDist f c u v w : Circ p _) := by unfold faceDist; wids
theorem wid_faceStep {c : Face} : Wid (faceStep f c x y z d : Bld p _) (faceStep f c u v w d' : Circ p _) := by unfold faceStep; wids
theorem wid_faceLoop : ∀ (cs : List Face) (s : FD (Lin p)) (s' : FD (ZMod p)), Wid (faceLoop f x y z cs s : Bld p _) (faceLoop f u v w cs s' : Circ p _)
  | [], _, _ => wid_pure
  | _ :: cs, _, _ => by unfold faceLoop; exact wid_bind wid_faceStep fun _ _ => wid_faceLoop cs _ _
theorem wid_closestFace : Wid (closestFace f g x y z : Bld p _) (closestFace f g u v w : Circ p _) := wid_faceLoop _ _ _
theorem wid_calculateHex2d {a1 a2 a3 a4 r : FV (Lin p)} {q : Lin p} {a1' a2' a3' a4' r' : FV (ZMod p)} {q' : ZMod p} :
    Wid (calculateHex2d f a1 a2 a3 a4 d r q : Bld p _) (calculateHex2d f a1' a2' a3' a4' d' r' q' : Circ p _) := by unfold calculateHex2d; dsimp only; wids
theorem wid_normalizeIJK {a i c j e k : Lin p} {a' i' c' j' e' k' : ZMod p} : Wid (normalizeIJK a i c j e k : Bld p _) (normalizeIJK a' i' c' j' e' k' : Circ p _) := by unfold normalizeIJK; wids
theorem wid_foldAxes {a i c j : Lin p} {a' i' c' j' : ZMod p} : Wid (foldAxes a i c j : Bld p _) (foldAxes a' i' c' j' : Circ p _) := by unfold foldAxes; wids
theorem wid_quadrantIJ : Wid (quadrantIJ f g x y : Bld p _) (quadrantIJ f g u v : Circ p _) := by unfold quadrantIJ; dsimp only; wids
theorem wid_hex2dToCoordIJK : Wid (hex2dToCoordIJK f g x y : Bld p _) (hex2dToCoordIJK f g u v : Circ p _) := by unfold hex2dToCoordIJK; wids
theorem wid_locCell {a1 a2 a3 a4 : FV (Lin p)} {q : Lin p} {a1' a2' a3' a4' : FV (ZMod p)} {q' : ZMod p} :
    Wid (locCell f g a1 a2 a3 a4 q : Bld p _) (locCell f g a1' a2' a3' a4' q' : Circ p _) := by unfold locCell; wids
theorem wid_assertCell {t : Lin p × Lin p × Lin p} {t' : ZMod p × ZMod p × ZMod p} {i j k : Lin p} {i' j' k' : ZMod p} :
    Wid (assertCell t i j k : Bld p _) (assertCell t' i' j' k' : Circ p _) := by unfold assertCell; wids
theorem wid_shiftedLng : Wid (shiftedLng f g x : Bld p _) (shiftedLng f g u : Circ p _) := by unfold shiftedLng; wids
theorem wid_wrapperTrig {k : TrigConsts} {ds : List ℕ} : Wid (wrapperTrig f k ds g x y : Bld p _) (wrapperTrig f k ds g u v : Circ p _) := by unfold wrapperTrig; wids

theorem quiet_leBits {v : Lin p} : ∀ (n i : ℕ) (acc : Lin p), Quiet (leBits v n i acc : Bld p _)
  | 0, i, acc => quiet_assertEq _ _
  | n + 1, i, acc => by
    unfold leBits
    refine quiet_bind quiet_wire fun _ => quiet_bind ?_ fun _ => quiet_leBits n _ _
    unfold leBit
    split
    · exact quiet_assertBool _
    · exact quiet_constrain _ _ _

theorem wid_locInputs {n : ℕ} {a c r : Lin p} {a' c' r' : ZMod p} : Wid (locInputs n f g a c r : Bld p _) (ZkLoc.locInputs f g a' c' r') := by
  unfold locInputs ZkLoc.locInputs
  refine wid_bind (wid_map wid_newFloat (eq_newFloat f a')) fun _ lat => wid_bind (wid_map wid_newFloat (eq_newFloat f c')) fun _ lng => ?_
  refine wid_bind (wid_map (g := id) wid_fIsGt (map_id (eq_fIsGt f ⟨lat.1, lat.2, lat.3, lat.4⟩ (newConstant f g.halfPi)))) fun _ _ => wid_bind wid_assertEq fun _ _ => ?_
  refine wid_bind (wid_map (g := id) wid_fIsGt (map_id (eq_fIsGt f ⟨lng.1, lng.2, lng.3, lng.4⟩ (newConstant f g.pi)))) fun _ _ => wid_bind wid_assertEq fun _ _ => ?_
  exact wid_bind ((quiet_leBits _ _ _).wid rfl) fun _ _ => wid_pure

/-- The range checks of the compiled location circuit. -/
theorem wid_wrapperCircuit {n : ℕ} {k : TrigConsts} {ds : List ℕ} {a c r i j l : Lin p} {a' c' r' i' j' l' : ZMod p} :
    Wid (wrapperCircuit n f k ds g a c r i j l : Bld p _) (ZkLoc.wrapperCircuit f k ds g a' c' r' i' j' l') := by
  unfold wrapperCircuit ZkLoc.wrapperCircuit
  refine wid_bind wid_locInputs fun _ t => ?_
  obtain ⟨t1, t2⟩ := t
  refine wid_bind (wid_map wid_wrapperTrig (eq_wrapperTrig k ds g ⟨t1.1, t1.2, t1.3, t1.4⟩ ⟨t2.1, t2.2, t2.3, t2.4⟩)) fun _ s => ?_
  refine wid_bind (wid_map (g := id) wid_locCell (map_id (eq_locCell g ⟨s.1.1, s.1.2, s.1.3, s.1.4⟩ ⟨s.2.1.1, s.2.1.2, s.2.1.3, s.2.1.4⟩ ⟨s.2.2.1.1, s.2.2.1.2, s.2.2.1.3, s.2.2.1.4⟩
    ⟨s.2.2.2.1, s.2.2.2.2, s.2.2.2.3, s.2.2.2.4⟩ r'))) fun _ _ => ?_
  exact wid_bind wid_assertEq fun _ _ => wid_bind wid_assertEq fun _ _ => wid_assertEq

end ZkLoc.R1cs
