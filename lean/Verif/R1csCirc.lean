import Verif.R1csRef
import Verif.Circuits

/-!
# The circuits of the tests as programs against `frontend.API`
-/

namespace ZkLoc.R1cs

open Ops

section
variable {p : ℕ} {V : Type} {m : Type → Type} [Ops p V] [Api p V m]

/-- `F32UnaryCircuit` / `F64UnaryCircuit`, /repo/float/float_test.go:20-32, 91-103. -/
def unaryCircuit (f : Fmt) (op : FV V → m (FV V)) (X Y : V) : m Unit := do
  let x ← newFloat f X
  let y ← newFloat f Y
  let r ← op x
  fAssertIsEqual r y

/-- `F32BinaryCircuit` / `F64BinaryCircuit`, /repo/float/float_test.go:34-48, 105-119. -/
def binaryCircuit (f : Fmt) (op : FV V → FV V → m (FV V)) (X Y Z : V) : m Unit := do
  let x ← newFloat f X
  let y ← newFloat f Y
  let z ← newFloat f Z
  let r ← op x y
  fAssertIsEqual r z

/-- `F32ComparisonCircuit` / `F64ComparisonCircuit`, /repo/float/float_test.go:50-65, 121-136. -/
def comparisonCircuit (f : Fmt) (op : FV V → FV V → m V) (X Y Z : V) : m Unit := do
  let x ← newFloat f X
  let y ← newFloat f Y
  Api.assertBool Z
  let r ← op x y
  Api.assertEq r Z

/-- `F32AllocationCircuit` / `F64AllocationCircuit`, /repo/float/float_test.go:67-77, 138-148. -/
def allocationCircuit (f : Fmt) (y : ℕ) (X : V) : m Unit := do
  let x ← newFloat f X
  fAssertIsEqual x (newConstant f y)

/-- `F32ConversionCircuit` / `F64ConversionCircuit`, /repo/float/float_test.go:79-89, 150-160. -/
def conversionCircuit (f : Fmt) (op : FV V → m (FV V)) (X Y : V) : m Unit := do
  let x ← newFloat f X
  let x' ← op x
  let r ← fToInt f x'
  Api.assertEq r Y

end

/-! ## The programs are the model -/

section
variable {p : ℕ} {α β γ : Type}

/-- The variable of the model. -/
def FV.var (x : FV (ZMod p)) : FloatVar p := ⟨x.sign, x.exponent, x.mantissa, x.isAbnormal⟩

/-- The program `c` is the program `c'`, up to the representation of the result. -/
def Map (g : α → β) (c : Circ p α) (c' : Circ p β) : Prop := (c >>= fun a => pure (g a)) = c'

theorem map_id {c c' : Circ p α} (h : c = c') : Map id c c' := h ▸ Circ.bind_pure c
theorem Map.eq {c c' : Circ p α} (h : Map id c c') : c = c' := (Circ.bind_pure c).symm.trans h
theorem map_pure {g : α → β} {a : α} {y : β} (h : g a = y) : Map g (pure a : Circ p α) (pure y) := h ▸ rfl
theorem map_bind {δ : Type} {g : α → β} {h : γ → δ} {c : Circ p α} {c' : Circ p β} {d : α → Circ p γ} {d' : β → Circ p δ} (hc : Map g c c') (hd : ∀ a, Map h (d a) (d' (g a))) :
    Map h (c >>= d) (c' >>= d') := by
  subst hc
  unfold Map
  have : ∀ a, (d a >>= fun r => pure (h r)) = d' (g a) := hd
  simp only [Circ.bind_eq, Circ.pure_eq, Circ.bind_assoc] at *
  congr 1
  funext a
  exact this a
theorem map_bind_id {δ : Type} {h : γ → δ} {c c' : Circ p α} {d : α → Circ p γ} {d' : α → Circ p δ} (hc : c = c') (hd : ∀ a, Map h (d a) (d' a)) : Map h (c >>= d) (c' >>= d') :=
  map_bind (map_id hc) hd

theorem cm_pure (x : β) (k : β → Circ p α) : ((pure x : Circ p β) >>= k) = k x := rfl

theorem eq_gAbs (v : ZMod p) (n : ℕ) : gAbs v n = ZkLoc.gAbs v n := rfl
theorem eq_gIsPositive (v : ZMod p) (n : ℕ) : gIsPositive v n = ZkLoc.gIsPositive v n := rfl
theorem eq_gMax (v u : ZMod p) (n : ℕ) : gMax v u n = ZkLoc.gMax v u n := rfl
theorem eq_gMin (v u : ZMod p) (n : ℕ) : gMin v u n = ZkLoc.gMin v u n := rfl
theorem eq_queryPowerOf2 (n : ℕ) (v : ZMod p) : queryPowerOf2 n v = ZkLoc.queryPowerOf2 n v := rfl

theorem op_lit (x : ZMod p) : (Ops.lit x : ZMod p) = x := rfl
theorem op_add (x y : ZMod p) : Ops.add x y = x + y := rfl
theorem op_sub (x y : ZMod p) : Ops.sub x y = x - y := rfl
theorem op_neg (x : ZMod p) : Ops.neg x = -x := rfl
theorem op_scale (x y : ZMod p) : Ops.scale x y = x * y := rfl
theorem ap_mul (x y : ZMod p) : (Api.mul x y : Circ p _) = pure (x * y) := rfl
theorem ap_isZero (x : ZMod p) : (Api.isZero x : Circ p _) = pure (ZkLoc.isZero x) := rfl
theorem ap_gIsEq (x y : ZMod p) : (gIsEq x y : Circ p _) = pure (ZkLoc.gIsEq x y) := rfl
theorem ap_mark (x : ZMod p) : (Api.mark x : Circ p _) = pure () := rfl
theorem ap_assertBool (x : ZMod p) : (Api.assertBool x : Circ p _) = assertIsBoolean x := rfl
theorem ap_assertEq (x y : ZMod p) : (Api.assertEq x y : Circ p _) = assertIsEqual x y := rfl
theorem ap_select (c x y : ZMod p) : (Api.select c x y : Circ p _) = ZkLoc.select c x y := rfl
theorem ap_and (x y : ZMod p) : (Api.and x y : Circ p _) = and' x y := rfl
theorem ap_or (x y : ZMod p) : (Api.or x y : Circ p _) = or' x y := rfl
theorem ap_xor (x y : ZMod p) : (Api.xor x y : Circ p _) = xor' x y := rfl
theorem ap_inverse (x : ZMod p) : (Api.inverse x : Circ p _) = ZkLoc.inverse x := rfl
theorem ap_hint (xs : List (ZMod p)) (h : List (ZMod p) → Option (ZMod p)) : (Api.hint xs h : Circ p _) = newHint (h xs) := rfl
theorem ap_check (x : ZMod p) (n : ℕ) (md : Mode) : (Api.check x n md : Circ p _) = assertBitLength x n md := rfl
theorem var_sign (x : FV (ZMod p)) : x.var.sign = x.sign := rfl
theorem var_exponent (x : FV (ZMod p)) : x.var.exponent = x.exponent := rfl
theorem var_mantissa (x : FV (ZMod p)) : x.var.mantissa = x.mantissa := rfl
theorem var_isAbnormal (x : FV (ZMod p)) : x.var.isAbnormal = x.isAbnormal := rfl

/-- A call of a program that the model has under the same name. -/
syntax "same" : tactic
macro_rules | `(tactic| same) => `(tactic| first
  | with_reducible rfl
  | with_reducible exact eq_gAbs _ _
  | with_reducible exact eq_gIsPositive _ _
  | with_reducible exact eq_gMax _ _ _
  | with_reducible exact eq_gMin _ _ _
  | with_reducible exact eq_queryPowerOf2 _ _)
/-- The same for calls with a result in several parts. -/
syntax "sameV" : tactic
macro_rules | `(tactic| sameV) => `(tactic| fail)

/-- Go through two programs step by step. -/
macro "align" : tactic => `(tactic| (
  try dsimp only
  simp only [cm_pure, op_lit, op_add, op_sub, op_neg, op_scale, ap_mul, ap_isZero, ap_gIsEq, ap_mark, ap_assertBool, ap_assertEq, ap_select, ap_and, ap_or, ap_xor, ap_inverse, ap_hint, ap_check,
    var_sign, var_exponent, var_mantissa, var_isAbnormal, List.getD_cons_zero, List.getD_cons_succ]
  repeat' first
    | ((with_reducible refine map_bind_id ?_ fun _ => ?_); same)
    | ((with_reducible refine map_bind (g := FV.var) ?_ fun _ => ?_); sameV)
  first | (refine map_pure ?_; rfl) | ((with_reducible refine map_id ?_); same) | exact map_id (Circ.bind_pure _) | sameV))

theorem eq_round (f : Fmt) (x y z : ZMod p) (n k : ℕ) : round f x n y k z = ZkLoc.round f x n y k z := by
  refine Map.eq ?_
  unfold round ZkLoc.round
  align

macro_rules | `(tactic| same) => `(tactic| with_reducible exact eq_round _ _ _ _ _ _)

theorem eq_fixOverflow (f : Fmt) (x y z t : ZMod p) : (fixOverflow f x y z t : Circ p _) = ZkLoc.fixOverflow f x y z t := by
  refine Map.eq ?_
  unfold fixOverflow ZkLoc.fixOverflow
  align
macro_rules | `(tactic| same) => `(tactic| with_reducible exact eq_fixOverflow _ _ _ _ _)

theorem eq_eitherNaN (x y : FV (ZMod p)) : (eitherNaN x y : Circ p _) = ZkLoc.eitherNaN x.var y.var := by
  refine Map.eq ?_
  unfold eitherNaN ZkLoc.eitherNaN
  align
macro_rules | `(tactic| same) => `(tactic| with_reducible exact eq_eitherNaN _ _)

theorem eq_assertSameSign (x y : FV (ZMod p)) : (assertSameSign x y : Circ p _) = ZkLoc.assertSameSign x.var y.var := by
  refine Map.eq ?_
  unfold assertSameSign ZkLoc.assertSameSign
  align
macro_rules | `(tactic| same) => `(tactic| with_reducible exact eq_assertSameSign _ _)

theorem eq_fAssertIsEqual (x y : FV (ZMod p)) : (fAssertIsEqual x y : Circ p _) = ZkLoc.fAssertIsEqual x.var y.var := by
  refine Map.eq ?_
  unfold fAssertIsEqual ZkLoc.fAssertIsEqual
  align
macro_rules | `(tactic| same) => `(tactic| with_reducible exact eq_fAssertIsEqual _ _)

theorem eq_sameData (x y : FV (ZMod p)) : (sameData x y : Circ p _) = ZkLoc.sameData x.var y.var := by
  refine Map.eq ?_
  unfold sameData ZkLoc.sameData
  align
macro_rules | `(tactic| same) => `(tactic| with_reducible exact eq_sameData _ _)

theorem eq_fAssertIsEqualOrULP (f : Fmt) (x y : FV (ZMod p)) : (fAssertIsEqualOrULP f x y : Circ p _) = ZkLoc.fAssertIsEqualOrULP f x.var y.var := by
  refine Map.eq ?_
  unfold fAssertIsEqualOrULP ZkLoc.fAssertIsEqualOrULP
  align
macro_rules | `(tactic| same) => `(tactic| with_reducible exact eq_fAssertIsEqualOrULP _ _ _)

theorem eq_subnormalShift (f : Fmt) (x : ZMod p) (n : ℕ) : (subnormalShift f x n : Circ p _) = ZkLoc.subnormalShift f x n := by
  refine Map.eq ?_
  unfold subnormalShift ZkLoc.subnormalShift
  align
macro_rules | `(tactic| same) => `(tactic| with_reducible exact eq_subnormalShift _ _ _)

theorem eq_fLess (f : Fmt) (x y : FV (ZMod p)) (n : ℕ) : (fLess f x y n : Circ p _) = ZkLoc.fLess f x.var y.var n := by
  refine Map.eq ?_
  unfold fLess ZkLoc.fLess
  align
macro_rules | `(tactic| same) => `(tactic| with_reducible exact eq_fLess _ _ _ _)

theorem eq_fToInt (f : Fmt) (x : FV (ZMod p)) : (fToInt f x : Circ p _) = ZkLoc.fToInt f x.var := by
  refine Map.eq ?_
  unfold fToInt ZkLoc.fToInt
  align
macro_rules | `(tactic| same) => `(tactic| with_reducible exact eq_fToInt _ _)

theorem eq_newFloat (f : Fmt) (v : ZMod p) : Map FV.var (newFloat f v : Circ p _) (ZkLoc.newFloat f v) := by
  unfold newFloat ZkLoc.newFloat
  align
macro_rules | `(tactic| sameV) => `(tactic| with_reducible exact eq_newFloat _ _)

theorem eq_fAdd (f : Fmt) (x y : FV (ZMod p)) : Map FV.var (fAdd f x y : Circ p _) (ZkLoc.fAdd f x.var y.var) := by
  unfold fAdd ZkLoc.fAdd
  align
macro_rules | `(tactic| sameV) => `(tactic| with_reducible exact eq_fAdd _ _ _)

theorem eq_fMul (f : Fmt) (x y : FV (ZMod p)) : Map FV.var (fMul f x y : Circ p _) (ZkLoc.fMul f x.var y.var) := by
  unfold fMul ZkLoc.fMul
  align
macro_rules | `(tactic| sameV) => `(tactic| with_reducible exact eq_fMul _ _ _)

theorem eq_fDiv (f : Fmt) (x y : FV (ZMod p)) : Map FV.var (fDiv f x y : Circ p _) (ZkLoc.fDiv f x.var y.var) := by
  unfold fDiv ZkLoc.fDiv
  align
macro_rules | `(tactic| sameV) => `(tactic| with_reducible exact eq_fDiv _ _ _)

theorem eq_fSqrt (f : Fmt) (x : FV (ZMod p)) : Map FV.var (fSqrt f x : Circ p _) (ZkLoc.fSqrt f x.var) := by
  unfold fSqrt ZkLoc.fSqrt
  align
macro_rules | `(tactic| sameV) => `(tactic| with_reducible exact eq_fSqrt _ _)

theorem eq_fTrunc (f : Fmt) (x : FV (ZMod p)) : Map FV.var (fTrunc f x : Circ p _) (ZkLoc.fTrunc f x.var) := by
  unfold fTrunc ZkLoc.fTrunc
  align
macro_rules | `(tactic| sameV) => `(tactic| with_reducible exact eq_fTrunc _ _)

theorem eq_fFloor (f : Fmt) (x : FV (ZMod p)) : Map FV.var (fFloor f x : Circ p _) (ZkLoc.fFloor f x.var) := by
  unfold fFloor ZkLoc.fFloor
  align
macro_rules | `(tactic| sameV) => `(tactic| with_reducible exact eq_fFloor _ _)

theorem eq_fSelect (c : ZMod p) (x y : FV (ZMod p)) : Map FV.var (fSelect c x y : Circ p _) (ZkLoc.fSelect c x.var y.var) := by
  unfold fSelect ZkLoc.fSelect
  align
macro_rules | `(tactic| sameV) => `(tactic| with_reducible exact eq_fSelect _ _ _)

theorem eq_fSub (f : Fmt) (x y : FV (ZMod p)) : Map FV.var (fSub f x y : Circ p _) (ZkLoc.fSub f x.var y.var) := eq_fAdd f x ⟨1 - y.sign, y.exponent, y.mantissa, y.isAbnormal⟩
theorem eq_fCeil (f : Fmt) (x : FV (ZMod p)) : Map FV.var (fCeil f x : Circ p _) (ZkLoc.fCeil f x.var) := by
  have h : Map FV.var ((fFloor f ⟨1 - x.sign, x.exponent, x.mantissa, x.isAbnormal⟩ : Circ p _) >>= fNeg) (ZkLoc.fCeil f x.var) :=
    map_bind (eq_fFloor f ⟨1 - x.sign, x.exponent, x.mantissa, x.isAbnormal⟩) fun _ => rfl
  exact h
theorem eq_newConstant (f : Fmt) (v : ℕ) : (newConstant f v : FV (ZMod p)).var = ZkLoc.newConstant f v := rfl
theorem eq_fIsLt (f : Fmt) (x y : FV (ZMod p)) : (fIsLt f x y : Circ p _) = ZkLoc.fIsLt f x.var y.var := eq_fLess f x y 0
theorem eq_fIsLe (f : Fmt) (x y : FV (ZMod p)) : (fIsLe f x y : Circ p _) = ZkLoc.fIsLe f x.var y.var := eq_fLess f x y 1
theorem eq_fIsGt (f : Fmt) (x y : FV (ZMod p)) : (fIsGt f x y : Circ p _) = ZkLoc.fIsGt f x.var y.var := eq_fLess f y x 0
theorem eq_fIsGe (f : Fmt) (x y : FV (ZMod p)) : (fIsGe f x y : Circ p _) = ZkLoc.fIsGe f x.var y.var := eq_fLess f y x 1
macro_rules | `(tactic| sameV) => `(tactic| with_reducible exact eq_fSub _ _ _)
macro_rules | `(tactic| same) => `(tactic| exact eq_fIsLe _ _ _)

theorem eq_fAssertIsEqualOrCustomULP (f : Fmt) (x y : FV (ZMod p)) (n : ℕ) : (fAssertIsEqualOrCustomULP f x y n : Circ p _) = ZkLoc.fAssertIsEqualOrCustomULP f x.var y.var n := by
  refine Map.eq ?_
  unfold fAssertIsEqualOrCustomULP ZkLoc.fAssertIsEqualOrCustomULP
  align
macro_rules | `(tactic| same) => `(tactic| with_reducible exact eq_fAssertIsEqualOrCustomULP _ _ _ _)

theorem eq_unaryCircuit (f : Fmt) {op : FV (ZMod p) → Circ p (FV (ZMod p))} {op' : FloatVar p → Circ p (FloatVar p)} (h : ∀ x, Map FV.var (op x) (op' x.var)) (X Y : ZMod p) :
    unaryCircuit f op X Y = ZkLoc.unaryCircuit f op' X Y :=
  Map.eq (map_bind (eq_newFloat f X) fun x => map_bind (eq_newFloat f Y) fun y => map_bind (h x) fun r => map_id (eq_fAssertIsEqual r y))
theorem eq_binaryCircuit (f : Fmt) {op : FV (ZMod p) → FV (ZMod p) → Circ p (FV (ZMod p))} {op' : FloatVar p → FloatVar p → Circ p (FloatVar p)}
    (h : ∀ x y, Map FV.var (op x y) (op' x.var y.var)) (X Y Z : ZMod p) : binaryCircuit f op X Y Z = ZkLoc.binaryCircuit f op' X Y Z :=
  Map.eq (map_bind (eq_newFloat f X) fun x => map_bind (eq_newFloat f Y) fun y => map_bind (eq_newFloat f Z) fun z => map_bind (h x y) fun r => map_id (eq_fAssertIsEqual r z))
theorem eq_comparisonCircuit (f : Fmt) {op : FV (ZMod p) → FV (ZMod p) → Circ p (ZMod p)} {op' : FloatVar p → FloatVar p → Circ p (ZMod p)}
    (h : ∀ x y, op x y = op' x.var y.var) (X Y Z : ZMod p) : comparisonCircuit f op X Y Z = ZkLoc.comparisonCircuit f op' X Y Z :=
  Map.eq (map_bind (eq_newFloat f X) fun x => map_bind (eq_newFloat f Y) fun y => map_bind_id rfl fun _ => map_bind_id (h x y) fun r => map_id rfl)
theorem eq_allocationCircuit (f : Fmt) (y : ℕ) (X : ZMod p) : allocationCircuit f y X = ZkLoc.allocationCircuit f X y :=
  Map.eq (map_bind (eq_newFloat f X) fun x => map_id (eq_fAssertIsEqual x (newConstant f y)))
theorem eq_conversionCircuit (f : Fmt) {op : FV (ZMod p) → Circ p (FV (ZMod p))} {op' : FloatVar p → Circ p (FloatVar p)} (h : ∀ x, Map FV.var (op x) (op' x.var)) (X Y : ZMod p) :
    conversionCircuit f op X Y = ZkLoc.conversionCircuit f op' X Y :=
  Map.eq (map_bind (eq_newFloat f X) fun x => map_bind (h x) fun y => map_bind_id (eq_fToInt f y) fun r => map_id rfl)

end

end ZkLoc.R1cs
