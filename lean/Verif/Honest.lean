import Verif.Props.Arith
import Verif.Props.Integer
import Verif.Props.Compare

/-!
# Helper lemmas: what the honest prover computes, at the integer level

Each operation of the library as a function on integer-level floats, with: valid operands give valid results, and the honest
prover of the circuit computes that function, in every large enough field and at every table width.
-/

namespace ZkLoc

open Ieee (Datum)

namespace Flt
/-- Integer-level operations (honest hints). -/
def add (f : Fmt) (x y : Flt) : Flt := addZ f x y true true
def sub (f : Fmt) (x y : Flt) : Flt := addZ f x y.neg true true
def mul (f : Fmt) (x y : Flt) : Flt := mulZ f x y true
def div (f : Fmt) (x y : Flt) : Flt := divZ f x y true
def sqrt (f : Fmt) (x : Flt) : Flt := sqrtZ f x
def trunc (f : Fmt) (x : Flt) : Flt := truncZ f x (decide (0 ≤ x.exp))
def floor (f : Fmt) (x : Flt) : Flt := floorZ f x (decide (0 ≤ x.exp))
def ceil (f : Fmt) (x : Flt) : Flt := (floorZ f x.neg (decide (0 ≤ x.exp))).neg
end Flt

variable {p : ℕ} [Fact p.Prime] {b : ℕ} {f : Fmt}

theorem Flt.Valid.add (G : Good p b f) {x y : Flt} (hx : x.Valid f) (hy : y.Valid f) : (Flt.add f x y).Valid f := by
  unfold Flt.add
  rcases add_outcomes G hx hy true true with ⟨h1, h2⟩ | ⟨h, _⟩ | ⟨_, _, h⟩ | ⟨h, _⟩
  · exact h1
  · cases h
  · rw [h]; exact .inf _
  · cases h

theorem Flt.Valid.sub (G : Good p b f) {x y : Flt} (hx : x.Valid f) (hy : y.Valid f) : (Flt.sub f x y).Valid f := hx.add G hy.neg
theorem Flt.Valid.mul (G : Good p b f) {x y : Flt} (hx : x.Valid f) (hy : y.Valid f) : (Flt.mul f x y).Valid f := (mulZ_correct G hx hy).1
theorem Flt.Valid.div (G : Good p b f) {x y : Flt} (hx : x.Valid f) (hy : y.Valid f) : (Flt.div f x y).Valid f := (divZ_correct G hx hy).1
theorem Flt.Valid.sqrt (G : Good p b f) {x : Flt} (hx : x.Valid f) : (Flt.sqrt f x).Valid f := (sqrtZ_correct G hx).1
theorem Flt.Valid.trunc (G : Good p b f) {x : Flt} (hx : x.Valid f) : (Flt.trunc f x).Valid f := (truncZ_honest G hx).1
theorem Flt.Valid.floor (G : Good p b f) {x : Flt} (hx : x.Valid f) : (Flt.floor f x).Valid f := (floorZ_honest G hx).1
theorem Flt.Valid.ceil (G : Good p b f) {x : Flt} (hx : x.Valid f) : (Flt.ceil f x).Valid f := (floorZ_honest G hx.neg).1.neg

theorem run_add (G : Good p b f) {x y : Flt} (hx : x.Valid f) (hy : y.Valid f) :
    (fAdd f (x.toVar : FloatVar p) y.toVar).run b = some (Flt.add f x y).toVar :=
  (fAdd_spec (H := False) G (hx.bdd G) (hy.bdd G) hx.man_cases hy.man_cases (abn_of_eMax G hx hy) (by simp)).run

theorem run_sub (G : Good p b f) {x y : Flt} (hx : x.Valid f) (hy : y.Valid f) :
    (fSub f (x.toVar : FloatVar p) y.toVar).run b = some (Flt.sub f x y).toVar := by
  unfold fSub; rw [fNeg_toVar]; exact run_add G hx hy.neg

theorem run_mul (G : Good p b f) {x y : Flt} (hx : x.Valid f) (hy : y.Valid f) :
    (fMul f (x.toVar : FloatVar p) y.toVar).run b = some (Flt.mul f x y).toVar :=
  (fMul_spec (H := False) G (hx.bdd G) (hy.bdd G) (by simp)).run

theorem run_div (G : Good p b f) {x y : Flt} (hx : x.Valid f) (hy : y.Valid f) :
    (fDiv f (x.toVar : FloatVar p) y.toVar).run b = some (Flt.div f x y).toVar :=
  (fDiv_spec (H := False) G (hx.bdd G) (hy.bdd G) hy.man_cases (by simp)).run

theorem run_sqrt (G : Good p b f) {x : Flt} (hx : x.Valid f) :
    (fSqrt f (x.toVar : FloatVar p)).run b = some (Flt.sqrt f x).toVar :=
  (fSqrt_spec (H := False) G (hx.bdd G) (by simp)).run

theorem run_trunc (G : Good p b f) {x : Flt} (hx : x.Valid f) :
    (fTrunc f (x.toVar : FloatVar p)).run b = some (Flt.trunc f x).toVar :=
  (fTrunc_spec (H := False) G (hx.bdd G) (by simp)).run

theorem run_floor (G : Good p b f) {x : Flt} (hx : x.Valid f) :
    (fFloor f (x.toVar : FloatVar p)).run b = some (Flt.floor f x).toVar :=
  (fFloor_spec (H := False) G (hx.bdd G) (by simp)).run

theorem run_ceil (G : Good p b f) {x : Flt} (hx : x.Valid f) :
    (fCeil f (x.toVar : FloatVar p)).run b = some (Flt.ceil f x).toVar := by
  unfold fCeil
  rw [Circ.bind_eq, Circ.run_bind, fNeg_toVar, run_floor G hx.neg]
  simp only [Option.bind_some, Circ.pure_eq, Circ.run, fNeg_toVar]
  rfl

theorem run_less (G : Good p b f) {x y : Flt} (hx : x.Valid f) (hy : y.Valid f) (a : Bool) :
    (fLess f (x.toVar : FloatVar p) y.toVar (if a then 1 else 0)).run b = some (B (lessZ x y a)) :=
  (fLess_spec (H := False) G (hx.bdd G) (hy.bdd G) a).run

theorem run_isLt (G : Good p b f) {x y : Flt} (hx : x.Valid f) (hy : y.Valid f) :
    (fIsLt f (x.toVar : FloatVar p) y.toVar).run b = some (B (lessZ x y false)) := run_less G hx hy false
theorem run_isLe (G : Good p b f) {x y : Flt} (hx : x.Valid f) (hy : y.Valid f) :
    (fIsLe f (x.toVar : FloatVar p) y.toVar).run b = some (B (lessZ x y true)) := run_less G hx hy true
theorem run_isGt (G : Good p b f) {x y : Flt} (hx : x.Valid f) (hy : y.Valid f) :
    (fIsGt f (x.toVar : FloatVar p) y.toVar).run b = some (B (lessZ y x false)) := run_less G hy hx false
theorem run_isGe (G : Good p b f) {x y : Flt} (hx : x.Valid f) (hy : y.Valid f) :
    (fIsGe f (x.toVar : FloatVar p) y.toVar).run b = some (B (lessZ y x true)) := run_less G hy hx true

omit [Fact p.Prime] in
theorem run_select (c : Bool) (x y : ZMod p) : (select (B c) x y).run b = some (if c then x else y) := by
  unfold select softBool
  cases c <;> simp [Circ.run, Circ.bind, B, sel, isBool]

omit [Fact p.Prime] in
theorem run_fSelect (c : Bool) (x y : FloatVar p) : (fSelect (B c) x y).run b = some (if c then x else y) := by
  unfold fSelect
  simp only [Circ.bind_eq, Circ.run_bind, run_select, Option.bind_some, Circ.pure_eq, Circ.run]
  cases c <;> rfl

end ZkLoc
