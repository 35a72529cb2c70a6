import Verif.R1csSpec
import Lean.Elab.Tactic.ElabTerm

/-!
# The compiled gadgets and floating-point operations
-/

namespace ZkLoc.R1cs

variable {p : ℕ} {α β γ δ : Type} {b : ℕ}

set_option maxRecDepth 8000

/-! ### Steps of the proofs -/

theorem der_head {Γ : Env p} {a : Lin p} {y : ZMod p} : Der (Out.pairs a y ++ Γ) a y := der_var (by simp [Out.pairs])
theorem derO_head [Out p α β] {Γ : Env p} {a : α} {y : β} : DerO (Out.pairs a y ++ Γ) a y := fun q hq => der_var (List.mem_append_left _ hq)
theorem DerO.tail [Out p α β] {Γ Δ : Env p} {a : α} {y : β} (h : DerO Γ a y) : DerO (Δ ++ Γ) a y := fun q hq => (h q hq).tail
theorem DerO.lin {Γ : Env p} {a : Lin p} {y : ZMod p} (h : DerO Γ a y) : Der Γ a y := h (a, y) (by simp [Out.pairs])
theorem DerO.fst [Out p α β] [Out p γ δ] {Γ : Env p} {a : α × γ} {y : β × δ} (h : DerO Γ a y) : DerO Γ a.1 y.1 := fun q hq => h q (List.mem_append_left _ hq)
theorem DerO.snd [Out p α β] [Out p γ δ] {Γ : Env p} {a : α × γ} {y : β × δ} (h : DerO Γ a y) : DerO Γ a.2 y.2 := fun q hq => h q (List.mem_append_right _ hq)
theorem DerO.sign {Γ : Env p} {a : FV (Lin p)} {y : FV (ZMod p)} (h : DerO Γ a y) : Der Γ a.sign y.sign := h (_, _) (by simp [Out.pairs])
theorem DerO.exponent {Γ : Env p} {a : FV (Lin p)} {y : FV (ZMod p)} (h : DerO Γ a y) : Der Γ a.exponent y.exponent := h (_, _) (by simp [Out.pairs])
theorem DerO.mantissa {Γ : Env p} {a : FV (Lin p)} {y : FV (ZMod p)} (h : DerO Γ a y) : Der Γ a.mantissa y.mantissa := h (_, _) (by simp [Out.pairs])
theorem DerO.isAbnormal {Γ : Env p} {a : FV (Lin p)} {y : FV (ZMod p)} (h : DerO Γ a y) : Der Γ a.isAbnormal y.isAbnormal := h (_, _) (by simp [Out.pairs])

open Lean Meta Elab Tactic in
/-- One goal of the proofs below, by the form of its program or expression: `Mono`, `Ref`, `Der` and `DerO` are proved by the lemma for the outermost call, whose name is `mono_`, `ref_` or `der_`
followed by the name of the function; other goals are returned. -/
def solve : ℕ → MVarId → MetaM (List MVarId)
  | 0, _ => throwError "too deep"
  | fuel + 1, g0 => do
    let (_, g) ← g0.intros
    g.withContext do
    let t ← instantiateMVars (← g.getType)
    let t := t.consumeMData
    let some hd := t.getAppFn.constName? | return [g]
    let args := t.getAppArgs
    let by' (n : Name) : MetaM (List MVarId) := do
      let gs ← withReducible (g.applyConst n)
      let mut out := []
      for g' in gs do
        unless ← g'.isAssigned do
          let ty ← instantiateMVars (← g'.getType)
          if ← isProp ty then out := out ++ (← solve fuel g')
      return out
    let pre (s : String) (e : Expr) : MetaM (List MVarId) := do
      match e.getAppFn.constName? with
      | some n => by' (`ZkLoc.R1cs ++ Name.mkSimple (s ++ n.getString!))
      | none => throwError "no program: {e}"
    let env (e : Expr) (head tail : Name) : MetaM (List MVarId) := do
      let Γ := args[args.size - 3]!
      if Γ.isAppOf ``HAppend.hAppend then
        let pr := Γ.appFn!.appArg!
        if pr.isAppOf ``Out.pairs && pr.appFn!.appArg! == e then by' head else by' tail
      else
        g.assumption
        return []
    if hd == ``Mono then pre "mono_" args.back!
    else if hd == ``Ref then pre "ref_" args[args.size - 2]!
    else if hd == ``Der then
      let e := args[args.size - 2]!
      match e.getAppFn.constName? with
      | some ``Ops.lit => by' ``der_lit
      | some ``Ops.add => by' ``der_add
      | some ``Ops.sub => by' ``der_sub
      | some ``Ops.neg => by' ``der_neg
      | some ``Ops.scale => by' ``der_scale
      | some ``FV.sign => by' ``DerO.sign
      | some ``FV.exponent => by' ``DerO.exponent
      | some ``FV.mantissa => by' ``DerO.mantissa
      | some ``FV.isAbnormal => by' ``DerO.isAbnormal
      | some ``Prod.fst => by' ``DerO.lin
      | some ``Prod.snd => by' ``DerO.lin
      | some n => throwError "no rule for {n}"
      | none => env e ``der_head ``Der.tail
    else if hd == ``DerO then
      let e := args[args.size - 2]!
      let lin := (← inferType e).isAppOf ``Lin
      match e.getAppFn.constName? with
      | some ``Unit.unit => by' ``derO_unit
      | some ``PUnit.unit => by' ``derO_unit
      | some ``Prod.mk => by' ``derO_prod
      | some ``FV.mk => by' ``derO_fv
      | some ``Prod.fst => by' ``DerO.fst
      | some ``Prod.snd => by' ``DerO.snd
      | some n => if lin then by' ``derO_lin else by' (`ZkLoc.R1cs ++ Name.mkSimple ("derO_" ++ n.getString!))
      | none => if lin then by' ``derO_lin else env e ``derO_head ``DerO.tail
    else return [g]

open Lean Meta Elab Tactic in
/-- Prove that a program adds constraints only, or that it is compiled to its meaning; what is marked as boolean remains to be shown to be so. -/
elab "compiled" : tactic => do
  let gs ← solve 4000 (← getMainGoal)
  replaceMainGoal gs

theorem isBool_not {u : ZMod p} (h : isBool u = true) : isBool (Ops.sub (Ops.lit 1) u) = true := by
  rcases isBool_iff.1 h with rfl | rfl <;> simp [isBool, Ops.sub, Ops.lit]
theorem isBool_of_isZero {u y : ZMod p} (h : (Api.isZero u : Circ p (ZMod p)).Sat b true y) : isBool y = true := by
  obtain rfl : y = ZkLoc.isZero u := h
  exact isBool_isZero
theorem isBool_of_assert {u : ZMod p} {r : Unit} (h : (Api.assertBool u : Circ p Unit).Sat b true r) : isBool u = true := h.1
theorem isBool_of_or_left {u v r : ZMod p} (h : (Api.or u v : Circ p (ZMod p)).Sat b true r) : isBool u = true := h.1 rfl
theorem isBool_of_or_right {u v r : ZMod p} (h : (Api.or u v : Circ p (ZMod p)).Sat b true r) : isBool v = true := h.2.1 rfl
theorem isBool_of_select_cond {c u v r : ZMod p} (h : (Api.select c u v : Circ p (ZMod p)).Sat b true r) : isBool c = true := h.1 rfl
theorem isBool_of_select {c u v r : ZMod p} (h : (Api.select c u v : Circ p (ZMod p)).Sat b true r) (hu : isBool u = true) (hv : isBool v = true) : isBool r = true := by
  have hc : isBool c = true := h.1 rfl
  obtain rfl : r = sel c u v := h.2
  rcases isBool_iff.1 hc with rfl | rfl <;> simpa [sel]
theorem isBool_lit {k : ZMod p} (h : isBool k = true) : isBool (Ops.lit k : ZMod p) = true := h

theorem isBool_of_and {u v r : ZMod p} (h : (Api.and u v : Circ p (ZMod p)).Sat b true r) : isBool r = true := by
  obtain rfl : r = u * v := h.2.2
  exact isBool_prod (h.1 rfl) (h.2.1 rfl)
theorem isBool_of_or {u v r : ZMod p} (h : (Api.or u v : Circ p (ZMod p)).Sat b true r) : isBool r = true := by
  obtain rfl : r = u + v - u * v := h.2.2
  exact isBool_or (h.1 rfl) (h.2.1 rfl)
theorem isBool_of_xor {u v r : ZMod p} (h : (Api.xor u v : Circ p (ZMod p)).Sat b true r) : isBool r = true := by
  obtain rfl : r = u + v - 2 * u * v := h.2.2
  rw [mul_comm 2 u]
  exact isBool_xor (h.1 rfl) (h.2.1 rfl)

theorem isBool_nat0 : isBool ((0 : ℕ) : ZMod p) = true := by simp [isBool]
theorem isBool_nat1 : isBool ((1 : ℕ) : ZMod p) = true := by simp [isBool]

/-- All results have a property. -/
def Post (b : ℕ) (c : Circ p β) (P : β → Prop) : Prop := ∀ y, c.Sat b true y → P y
theorem post_pure {y : β} {P : β → Prop} (h : P y) : Post b (pure y : Circ p β) P := fun r hr => by
  obtain rfl : r = y := hr
  exact h
theorem post_bind {c : Circ p β} {d : β → Circ p δ} {P : δ → Prop} (h : ∀ y, c.Sat b true y → Post b (d y) P) : Post b (c >>= d) P := fun r hr => by
  obtain ⟨y, h1, h2⟩ := (Circ.sat_bind c d r).1 hr
  exact h y h1 r h2

/-- Values that are boolean because of constraints already made. -/
syntax "boolean" : tactic
macro_rules | `(tactic| boolean) => `(tactic| first
  | with_reducible assumption
  | (with_reducible refine isBool_not ?_; boolean)
  | with_reducible exact isBool_of_isZero (by assumption)
  | with_reducible exact isBool_of_assert (by assumption)
  | with_reducible exact isBool_of_and (by assumption)
  | with_reducible exact isBool_of_or (by assumption)
  | with_reducible exact isBool_of_xor (by assumption)
  | with_reducible exact isBool_of_select_cond (by assumption)
  | with_reducible exact isBool_of_or_left (by assumption)
  | with_reducible exact isBool_of_or_right (by assumption)
  | (with_reducible exact isBool_lit (by first | assumption | (simp [isBool]; done)))
  | (with_reducible refine isBool_of_select (by assumption) ?_ ?_ <;> boolean))

/-- A program is compiled to its meaning. -/
macro "ref" : tactic => `(tactic| (compiled <;> boolean))
/-- A program adds constraints only. -/
macro "mono" : tactic => `(tactic| compiled)

variable [Fact p.Prime] {Γ : Env p}

/-! ### Gadgets -/

theorem mono_gAbs {x : Lin p} {n : ℕ} : Mono b (gAbs x n : Bld p (Lin p × Lin p)) := by unfold gAbs; mono
theorem ref_gAbs {x : Lin p} {u : ZMod p} (hx : Der Γ x u) (n : ℕ) : Ref b Γ (gAbs x n : Bld p _) (gAbs u n : Circ p _) := by unfold gAbs; ref

theorem mono_gIsPositive {x : Lin p} {n : ℕ} : Mono b (gIsPositive x n : Bld p (Lin p)) := by unfold gIsPositive; mono
theorem ref_gIsPositive {x : Lin p} {u : ZMod p} (hx : Der Γ x u) (n : ℕ) : Ref b Γ (gIsPositive x n : Bld p _) (gIsPositive u n : Circ p _) := by unfold gIsPositive; ref

theorem mono_gMax {x y : Lin p} {n : ℕ} : Mono b (gMax x y n : Bld p (Lin p)) := by
  unfold gMax; try dsimp only
  mono
theorem ref_gMax {x y : Lin p} {x' y' : ZMod p} {n : ℕ} (hx : Der Γ x x') (hy : Der Γ y y') : Ref b Γ (gMax x y n : Bld p _) (gMax x' y' n : Circ p _) := by
  unfold gMax; try dsimp only
  ref

theorem mono_gMin {x y : Lin p} {n : ℕ} : Mono b (gMin x y n : Bld p (Lin p)) := by
  unfold gMin; try dsimp only
  mono
theorem ref_gMin {x y : Lin p} {x' y' : ZMod p} {n : ℕ} (hx : Der Γ x x') (hy : Der Γ y y') : Ref b Γ (gMin x y n : Bld p _) (gMin x' y' n : Circ p _) := by
  unfold gMin; try dsimp only
  ref

theorem mono_gIsEq {x y : Lin p} : Mono b (gIsEq x y : Bld p (Lin p)) := by
  unfold gIsEq; try dsimp only
  mono
theorem ref_gIsEq {x y : Lin p} {x' y' : ZMod p} (hx : Der Γ x x') (hy : Der Γ y y') : Ref b Γ (gIsEq x y : Bld p _) (gIsEq x' y' : Circ p _) := by
  unfold gIsEq; try dsimp only
  ref

theorem isBool_of_gIsEq {u v y : ZMod p} (h : (gIsEq u v : Circ p (ZMod p)).Sat b true y) : isBool y = true := isBool_of_isZero h
macro_rules | `(tactic| boolean) => `(tactic| with_reducible exact isBool_of_gIsEq (by assumption))
theorem isBool_of_gAbs {u : ZMod p} {n : ℕ} {y : ZMod p × ZMod p} (h : (gAbs u n : Circ p (ZMod p × ZMod p)).Sat b true y) : isBool y.2 = true := by
  obtain ⟨s, t, h1, -, -, h2⟩ := h
  obtain rfl : y = _ := h2
  exact h1
theorem isBool_of_gIsPositive {u y : ZMod p} {n : ℕ} (h : (gIsPositive u n : Circ p (ZMod p)).Sat b true y) : isBool y = true := by
  obtain ⟨r, h1, h2⟩ := (Circ.sat_bind _ _ _).1 h
  obtain rfl : y = _ := h2
  exact isBool_of_gAbs h1
macro_rules | `(tactic| boolean) => `(tactic| with_reducible exact isBool_of_gIsPositive (by assumption))

theorem mono_queryPowerOf2 {x : Lin p} {n : ℕ} : Mono b (queryPowerOf2 n x : Bld p (Lin p)) := by
  unfold queryPowerOf2; try dsimp only
  mono
theorem ref_queryPowerOf2 {x : Lin p} {x' : ZMod p} {n : ℕ} (hx : Der Γ x x') : Ref b Γ (queryPowerOf2 n x : Bld p _) (queryPowerOf2 n x' : Circ p _) := by
  unfold queryPowerOf2; try dsimp only
  ref

/-! ### Floating-point operations -/

theorem mono_newFloat {x : Lin p} {f : Fmt} : Mono b (newFloat f x : Bld p (FV (Lin p))) := by
  unfold newFloat; try dsimp only
  mono
theorem ref_newFloat {x : Lin p} {x' : ZMod p} {f : Fmt} (hx : Der Γ x x') : Ref b Γ (newFloat f x : Bld p _) (newFloat f x' : Circ p _) := by
  unfold newFloat; try dsimp only
  ref

theorem derO_newConstant {f : Fmt} {v : ℕ} : DerO Γ (newConstant f v : FV (Lin p)) (newConstant f v) := derO_fv (der_lit _) (der_lit _) (der_lit _) (der_lit _)

theorem mono_round {x y z : Lin p} {f : Fmt} {n k : ℕ} : Mono b (round f x n y k z : Bld p (Lin p)) := by
  unfold round; try dsimp only
  mono
theorem ref_round {x y z : Lin p} {x' y' z' : ZMod p} {f : Fmt} {n k : ℕ} (hx : Der Γ x x') (hy : Der Γ y y') (hz : Der Γ z z') : Ref b Γ (round f x n y k z : Bld p _) (round f x' n y' k z' : Circ p _) := by
  unfold round; try dsimp only
  ref

theorem mono_fixOverflow {x y z t : Lin p} {f : Fmt} : Mono b (fixOverflow f x y z t : Bld p (Lin p × Lin p × Lin p)) := by
  unfold fixOverflow; try dsimp only
  mono
theorem ref_fixOverflow {x y z t : Lin p} {x' y' z' t' : ZMod p} {f : Fmt} (hx : Der Γ x x') (hy : Der Γ y y') (hz : Der Γ z z') (ht : Der Γ t t') : Ref b Γ (fixOverflow f x y z t : Bld p _) (fixOverflow f x' y' z' t' : Circ p _) := by
  unfold fixOverflow; try dsimp only
  ref

theorem mono_eitherNaN {x y : FV (Lin p)} : Mono b (eitherNaN x y : Bld p (Lin p)) := by
  unfold eitherNaN; try dsimp only
  mono
theorem ref_eitherNaN {x y : FV (Lin p)} {x' y' : FV (ZMod p)} (hx : DerO Γ x x') (hy : DerO Γ y y') : Ref b Γ (eitherNaN x y : Bld p _) (eitherNaN x' y' : Circ p _) := by
  unfold eitherNaN; try dsimp only
  ref

theorem mono_assertSameSign {x y : FV (Lin p)} : Mono b (assertSameSign x y : Bld p (Unit)) := by
  unfold assertSameSign; try dsimp only
  mono
theorem ref_assertSameSign {x y : FV (Lin p)} {x' y' : FV (ZMod p)} (hx : DerO Γ x x') (hy : DerO Γ y y') : Ref b Γ (assertSameSign x y : Bld p _) (assertSameSign x' y' : Circ p _) := by
  unfold assertSameSign; try dsimp only
  ref

theorem mono_fAssertIsEqual {x y : FV (Lin p)} : Mono b (fAssertIsEqual x y : Bld p (Unit)) := by
  unfold fAssertIsEqual; try dsimp only
  mono
theorem ref_fAssertIsEqual {x y : FV (Lin p)} {x' y' : FV (ZMod p)} (hx : DerO Γ x x') (hy : DerO Γ y y') : Ref b Γ (fAssertIsEqual x y : Bld p _) (fAssertIsEqual x' y' : Circ p _) := by
  unfold fAssertIsEqual; try dsimp only
  ref

theorem mono_sameData {x y : FV (Lin p)} : Mono b (sameData x y : Bld p (Lin p)) := by
  unfold sameData; try dsimp only
  mono
theorem ref_sameData {x y : FV (Lin p)} {x' y' : FV (ZMod p)} (hx : DerO Γ x x') (hy : DerO Γ y y') : Ref b Γ (sameData x y : Bld p _) (sameData x' y' : Circ p _) := by
  unfold sameData; try dsimp only
  ref

theorem mono_fAssertIsEqualOrULP {x y : FV (Lin p)} {f : Fmt} : Mono b (fAssertIsEqualOrULP f x y : Bld p (Unit)) := by
  unfold fAssertIsEqualOrULP; try dsimp only
  mono
theorem ref_fAssertIsEqualOrULP {x y : FV (Lin p)} {x' y' : FV (ZMod p)} {f : Fmt} (hx : DerO Γ x x') (hy : DerO Γ y y') : Ref b Γ (fAssertIsEqualOrULP f x y : Bld p _) (fAssertIsEqualOrULP f x' y' : Circ p _) := by
  unfold fAssertIsEqualOrULP; try dsimp only
  ref

theorem mono_fAdd {x y : FV (Lin p)} {f : Fmt} : Mono b (fAdd f x y : Bld p (FV (Lin p))) := by
  unfold fAdd; try dsimp only
  mono
theorem ref_fAdd {x y : FV (Lin p)} {x' y' : FV (ZMod p)} {f : Fmt} (hx : DerO Γ x x') (hy : DerO Γ y y') : Ref b Γ (fAdd f x y : Bld p _) (fAdd f x' y' : Circ p _) := by
  unfold fAdd; try dsimp only
  ref

theorem derO_fAbs {x : FV (Lin p)} {x' : FV (ZMod p)} (h : DerO Γ x x') : DerO Γ (fAbs x) (fAbs x') := derO_fv (der_lit _) h.exponent h.mantissa h.isAbnormal

theorem mono_fNeg {x : FV (Lin p)} : Mono b (fNeg x : Bld p (FV (Lin p))) := by
  unfold fNeg; try dsimp only
  mono
theorem ref_fNeg {x : FV (Lin p)} {x' : FV (ZMod p)} (hx : DerO Γ x x') (hs : isBool x'.sign = true) : Ref b Γ (fNeg x : Bld p _) (fNeg x' : Circ p _) := by
  unfold fNeg; try dsimp only
  ref

theorem mono_fSub {x y : FV (Lin p)} {f : Fmt} : Mono b (fSub f x y : Bld p (FV (Lin p))) := by
  unfold fSub; try dsimp only
  mono
theorem ref_fSub {x y : FV (Lin p)} {x' y' : FV (ZMod p)} {f : Fmt} (hx : DerO Γ x x') (hy : DerO Γ y y') (hs : isBool y'.sign = true) : Ref b Γ (fSub f x y : Bld p _) (fSub f x' y' : Circ p _) := by
  unfold fSub; try dsimp only
  ref

theorem mono_subnormalShift {x : Lin p} {f : Fmt} {n : ℕ} : Mono b (subnormalShift f x n : Bld p (Lin p)) := by
  unfold subnormalShift; try dsimp only
  mono
theorem ref_subnormalShift {x : Lin p} {x' : ZMod p} {f : Fmt} {n : ℕ} (hx : Der Γ x x') : Ref b Γ (subnormalShift f x n : Bld p _) (subnormalShift f x' n : Circ p _) := by
  unfold subnormalShift; try dsimp only
  ref

theorem mono_fMul {x y : FV (Lin p)} {f : Fmt} : Mono b (fMul f x y : Bld p (FV (Lin p))) := by
  unfold fMul; try dsimp only
  mono
theorem ref_fMul {x y : FV (Lin p)} {x' y' : FV (ZMod p)} {f : Fmt} (hx : DerO Γ x x') (hy : DerO Γ y y') : Ref b Γ (fMul f x y : Bld p _) (fMul f x' y' : Circ p _) := by
  unfold fMul; try dsimp only
  ref

theorem mono_fDiv {x y : FV (Lin p)} {f : Fmt} : Mono b (fDiv f x y : Bld p (FV (Lin p))) := by
  unfold fDiv; try dsimp only
  mono
theorem ref_fDiv {x y : FV (Lin p)} {x' y' : FV (ZMod p)} {f : Fmt} (hx : DerO Γ x x') (hy : DerO Γ y y') : Ref b Γ (fDiv f x y : Bld p _) (fDiv f x' y' : Circ p _) := by
  unfold fDiv; try dsimp only
  ref

theorem mono_fSqrt {x : FV (Lin p)} {f : Fmt} : Mono b (fSqrt f x : Bld p (FV (Lin p))) := by
  unfold fSqrt; try dsimp only
  mono
theorem ref_fSqrt {x : FV (Lin p)} {x' : FV (ZMod p)} {f : Fmt} (hx : DerO Γ x x') : Ref b Γ (fSqrt f x : Bld p _) (fSqrt f x' : Circ p _) := by
  unfold fSqrt; try dsimp only
  ref

theorem mono_fLess {x y : FV (Lin p)} {f : Fmt} {n : ℕ} : Mono b (fLess f x y n : Bld p (Lin p)) := by
  unfold fLess; try dsimp only
  mono
theorem ref_fLess {x y : FV (Lin p)} {x' y' : FV (ZMod p)} {f : Fmt} {n : ℕ} (hx : DerO Γ x x') (hy : DerO Γ y y') (hn : isBool (n : ZMod p) = true) : Ref b Γ (fLess f x y n : Bld p _) (fLess f x' y' n : Circ p _) := by
  unfold fLess; try dsimp only
  ref

theorem mono_fIsLt {x y : FV (Lin p)} {f : Fmt} : Mono b (fIsLt f x y : Bld p (Lin p)) := by
  unfold fIsLt; try dsimp only
  mono
theorem ref_fIsLt {x y : FV (Lin p)} {x' y' : FV (ZMod p)} {f : Fmt} (hx : DerO Γ x x') (hy : DerO Γ y y') : Ref b Γ (fIsLt f x y : Bld p _) (fIsLt f x' y' : Circ p _) := by
  exact ref_fLess hx hy isBool_nat0

theorem mono_fIsLe {x y : FV (Lin p)} {f : Fmt} : Mono b (fIsLe f x y : Bld p (Lin p)) := by
  unfold fIsLe; try dsimp only
  mono
theorem ref_fIsLe {x y : FV (Lin p)} {x' y' : FV (ZMod p)} {f : Fmt} (hx : DerO Γ x x') (hy : DerO Γ y y') : Ref b Γ (fIsLe f x y : Bld p _) (fIsLe f x' y' : Circ p _) := by
  exact ref_fLess hx hy isBool_nat1

theorem mono_fIsGt {x y : FV (Lin p)} {f : Fmt} : Mono b (fIsGt f x y : Bld p (Lin p)) := by
  unfold fIsGt; try dsimp only
  mono
theorem ref_fIsGt {x y : FV (Lin p)} {x' y' : FV (ZMod p)} {f : Fmt} (hx : DerO Γ x x') (hy : DerO Γ y y') : Ref b Γ (fIsGt f x y : Bld p _) (fIsGt f x' y' : Circ p _) := by
  exact ref_fLess hy hx isBool_nat0

theorem mono_fIsGe {x y : FV (Lin p)} {f : Fmt} : Mono b (fIsGe f x y : Bld p (Lin p)) := by
  unfold fIsGe; try dsimp only
  mono
theorem ref_fIsGe {x y : FV (Lin p)} {x' y' : FV (ZMod p)} {f : Fmt} (hx : DerO Γ x x') (hy : DerO Γ y y') : Ref b Γ (fIsGe f x y : Bld p _) (fIsGe f x' y' : Circ p _) := by
  exact ref_fLess hy hx isBool_nat1

theorem mono_fAssertIsEqualOrCustomULP {x y : FV (Lin p)} {f : Fmt} {n : ℕ} : Mono b (fAssertIsEqualOrCustomULP f x y n : Bld p (Unit)) := by
  unfold fAssertIsEqualOrCustomULP; try dsimp only
  mono
theorem ref_fAssertIsEqualOrCustomULP {x y : FV (Lin p)} {x' y' : FV (ZMod p)} {f : Fmt} {n : ℕ} (hx : DerO Γ x x') (hy : DerO Γ y y') (hs : isBool y'.sign = true) : Ref b Γ (fAssertIsEqualOrCustomULP f x y n : Bld p _) (fAssertIsEqualOrCustomULP f x' y' n : Circ p _) := by
  unfold fAssertIsEqualOrCustomULP; try dsimp only
  ref

theorem mono_fTrunc {x : FV (Lin p)} {f : Fmt} : Mono b (fTrunc f x : Bld p (FV (Lin p))) := by
  unfold fTrunc; try dsimp only
  mono
theorem ref_fTrunc {x : FV (Lin p)} {x' : FV (ZMod p)} {f : Fmt} (hx : DerO Γ x x') : Ref b Γ (fTrunc f x : Bld p _) (fTrunc f x' : Circ p _) := by
  unfold fTrunc; try dsimp only
  ref

theorem mono_fFloor {x : FV (Lin p)} {f : Fmt} : Mono b (fFloor f x : Bld p (FV (Lin p))) := by
  unfold fFloor; try dsimp only
  mono
theorem ref_fFloor {x : FV (Lin p)} {x' : FV (ZMod p)} {f : Fmt} (hx : DerO Γ x x') : Ref b Γ (fFloor f x : Bld p _) (fFloor f x' : Circ p _) := by
  unfold fFloor; try dsimp only
  ref

theorem fNeg_sign {u y : FV (ZMod p)} (h : (fNeg u : Circ p _).Sat b true y) (hu : isBool u.sign = true) : isBool y.sign = true := by
  obtain rfl : y = _ := h
  exact isBool_not hu
theorem fFloor_sign {f : Fmt} {u y : FV (ZMod p)} (h : (fFloor f u : Circ p _).Sat b true y) : isBool y.sign = true := by
  revert h y
  change Post b (fFloor f u : Circ p _) fun y => isBool y.sign = true
  unfold fFloor; dsimp only
  repeat' (with_reducible refine post_bind fun _ _ => ?_)
  refine post_pure ?_
  boolean
macro_rules | `(tactic| boolean) => `(tactic| (with_reducible refine fNeg_sign (by assumption) ?_; boolean))
macro_rules | `(tactic| boolean) => `(tactic| with_reducible exact fFloor_sign (by assumption))

theorem mono_fCeil {x : FV (Lin p)} {f : Fmt} : Mono b (fCeil f x : Bld p (FV (Lin p))) := by
  unfold fCeil; try dsimp only
  mono
theorem ref_fCeil {x : FV (Lin p)} {x' : FV (ZMod p)} {f : Fmt} (hx : DerO Γ x x') (hs : isBool x'.sign = true) : Ref b Γ (fCeil f x : Bld p _) (fCeil f x' : Circ p _) := by
  unfold fCeil; try dsimp only
  ref

theorem mono_fToInt {x : FV (Lin p)} {f : Fmt} : Mono b (fToInt f x : Bld p (Lin p)) := by
  unfold fToInt; try dsimp only
  mono
theorem ref_fToInt {x : FV (Lin p)} {x' : FV (ZMod p)} {f : Fmt} (hx : DerO Γ x x') : Ref b Γ (fToInt f x : Bld p _) (fToInt f x' : Circ p _) := by
  unfold fToInt; try dsimp only
  ref

theorem mono_fSelect {c : Lin p} {x y : FV (Lin p)} : Mono b (fSelect c x y : Bld p (FV (Lin p))) := by
  unfold fSelect; try dsimp only
  mono
theorem ref_fSelect {c : Lin p} {c' : ZMod p} {x y : FV (Lin p)} {x' y' : FV (ZMod p)} (hc : Der Γ c c') (hx : DerO Γ x x') (hy : DerO Γ y y') : Ref b Γ (fSelect c x y : Bld p _) (fSelect c' x' y' : Circ p _) := by
  unfold fSelect; try dsimp only
  ref

theorem newFloat_sign {f : Fmt} {u : ZMod p} {y : FV (ZMod p)} (h : (newFloat f u : Circ p _).Sat b true y) : isBool y.sign = true := by
  revert h y
  change Post b (newFloat f u : Circ p _) fun y => isBool y.sign = true
  unfold newFloat; dsimp only
  repeat' (with_reducible refine post_bind fun _ _ => ?_)
  refine post_pure ?_
  boolean
macro_rules | `(tactic| boolean) => `(tactic| with_reducible exact newFloat_sign (by assumption))

theorem fAdd_sign {f : Fmt} {u v : FV (ZMod p)} {y : FV (ZMod p)} (h : (fAdd f u v : Circ p _).Sat b true y) : isBool y.sign = true := by
  revert h y
  change Post b (fAdd f u v : Circ p _) fun y => isBool y.sign = true
  unfold fAdd; dsimp only
  repeat' (with_reducible refine post_bind fun _ _ => ?_)
  refine post_pure ?_
  boolean
macro_rules | `(tactic| boolean) => `(tactic| with_reducible exact fAdd_sign (by assumption))

theorem fMul_sign {f : Fmt} {u v : FV (ZMod p)} {y : FV (ZMod p)} (h : (fMul f u v : Circ p _).Sat b true y) : isBool y.sign = true := by
  revert h y
  change Post b (fMul f u v : Circ p _) fun y => isBool y.sign = true
  unfold fMul; dsimp only
  repeat' (with_reducible refine post_bind fun _ _ => ?_)
  refine post_pure ?_
  boolean
macro_rules | `(tactic| boolean) => `(tactic| with_reducible exact fMul_sign (by assumption))

theorem fDiv_sign {f : Fmt} {u v : FV (ZMod p)} {y : FV (ZMod p)} (h : (fDiv f u v : Circ p _).Sat b true y) : isBool y.sign = true := by
  revert h y
  change Post b (fDiv f u v : Circ p _) fun y => isBool y.sign = true
  unfold fDiv; dsimp only
  repeat' (with_reducible refine post_bind fun _ _ => ?_)
  refine post_pure ?_
  boolean
macro_rules | `(tactic| boolean) => `(tactic| with_reducible exact fDiv_sign (by assumption))

theorem fSqrt_sign {f : Fmt} {u : FV (ZMod p)} {y : FV (ZMod p)} (h : (fSqrt f u : Circ p _).Sat b true y) : isBool y.sign = true := by
  revert h y
  change Post b (fSqrt f u : Circ p _) fun y => isBool y.sign = true
  unfold fSqrt; dsimp only
  repeat' (with_reducible refine post_bind fun _ _ => ?_)
  refine post_pure ?_
  boolean
macro_rules | `(tactic| boolean) => `(tactic| with_reducible exact fSqrt_sign (by assumption))

end ZkLoc.R1cs
