import Verif.Spec.Encodes

/-!
# Specification: arithmetic expressions and their IEEE-754 value
-/

namespace ZkLoc

open Ieee (Datum)

/-- The four comparisons of the library. -/
inductive Rel
  | lt
  | le
  | gt
  | ge

/-- Expressions over the operations of the library; `const` carries a bit pattern, `ite` is `Select` on a comparison. -/
inductive Expr
  | var (i : ℕ)
  | const (v : ℕ)
  | add (a b : Expr)
  | sub (a b : Expr)
  | mul (a b : Expr)
  | div (a b : Expr)
  | sqrt (a : Expr)
  | neg (a : Expr)
  | abs (a : Expr)
  | trunc (a : Expr)
  | floor (a : Expr)
  | ceil (a : Expr)
  | ite (r : Rel) (a b t e : Expr)

/-- The comparison holds of two data. -/
def Rel.Holds : Rel → Datum → Datum → Prop
  | .lt, x, y => Ieee.Lt x y
  | .le, x, y => Ieee.Le x y
  | .gt, x, y => Ieee.Lt y x
  | .ge, x, y => Ieee.Le y x

/-- All constants are bit patterns of the format. -/
def Expr.WF (f : Fmt) : Expr → Prop
  | .var _ => True
  | .const v => v < 2 ^ (1 + f.E + f.M)
  | .add a b | .sub a b | .mul a b | .div a b => a.WF f ∧ b.WF f
  | .sqrt a | .neg a | .abs a | .trunc a | .floor a | .ceil a => a.WF f
  | .ite _ a b t e => a.WF f ∧ b.WF f ∧ t.WF f ∧ e.WF f

/-- The expression has the value `d` for the given values of the variables; `A` and `S` say what sums and differences are. -/
def Expr.Eval (f : Fmt) (A S : Datum → Datum → Datum → Prop) (env : ℕ → Datum) : Expr → Datum → Prop
  | .var i, d => d = env i
  | .const v, d => d = Ieee.decodeBits ⟨f.E, f.M⟩ v
  | .add a b, d => ∃ x y, a.Eval f A S env x ∧ b.Eval f A S env y ∧ A x y d
  | .sub a b, d => ∃ x y, a.Eval f A S env x ∧ b.Eval f A S env y ∧ S x y d
  | .mul a b, d => ∃ x y, a.Eval f A S env x ∧ b.Eval f A S env y ∧ Ieee.Mul ⟨f.E, f.M⟩ x y d
  | .div a b, d => ∃ x y, a.Eval f A S env x ∧ b.Eval f A S env y ∧ Ieee.Div ⟨f.E, f.M⟩ x y d
  | .sqrt a, d => ∃ x, a.Eval f A S env x ∧ Ieee.Sqrt ⟨f.E, f.M⟩ x d
  | .neg a, d => ∃ x, a.Eval f A S env x ∧ d = x.neg
  | .abs a, d => ∃ x, a.Eval f A S env x ∧ d = x.abs
  | .trunc a, d => ∃ x, a.Eval f A S env x ∧ Ieee.Integral Ieee.truncZ x d
  | .floor a, d => ∃ x, a.Eval f A S env x ∧ Ieee.Integral (fun v => ⌊v⌋) x d
  | .ceil a, d => ∃ x, a.Eval f A S env x ∧ Ieee.Integral (fun v => ⌈v⌉) x d
  | .ite r a b t e, d => ∃ x y u v, a.Eval f A S env x ∧ b.Eval f A S env y ∧ t.Eval f A S env u ∧ e.Eval f A S env v ∧
      (r.Holds x y → d = u) ∧ (¬ r.Holds x y → d = v)

/-- The value of an expression under IEEE-754. -/
abbrev Expr.IeeeEval (f : Fmt) (env : ℕ → Datum) (e : Expr) (d : Datum) : Prop :=
  e.Eval f (Ieee.Add ⟨f.E, f.M⟩) (Ieee.Sub ⟨f.E, f.M⟩) env d

/-- The sum as the honest prover of the library gets it: IEEE, but for operands of the top binade that cancel. -/
def CodeAdd (f : Fmt) (x y d : Datum) : Prop :=
  (¬ TopCancel f x y → Ieee.Add ⟨f.E, f.M⟩ x y d) ∧ (TopCancel f x y → d = .inf false)

/-- The difference as the honest prover of the library gets it. -/
def CodeSub (f : Fmt) (x y d : Datum) : Prop :=
  (¬ TopCancel f x y.neg → Ieee.Sub ⟨f.E, f.M⟩ x y d) ∧ (TopCancel f x y.neg → d = .inf false)

/-- In the evaluation of the expression no operands of the top binade cancel. -/
def Expr.NoTopCancel (f : Fmt) (env : ℕ → Datum) : Expr → Prop
  | .var _ => True
  | .const _ => True
  | .add a b => a.NoTopCancel f env ∧ b.NoTopCancel f env ∧ ∀ x y, a.IeeeEval f env x → b.IeeeEval f env y → ¬ TopCancel f x y
  | .sub a b => a.NoTopCancel f env ∧ b.NoTopCancel f env ∧ ∀ x y, a.IeeeEval f env x → b.IeeeEval f env y → ¬ TopCancel f x y.neg
  | .mul a b | .div a b => a.NoTopCancel f env ∧ b.NoTopCancel f env
  | .sqrt a | .neg a | .abs a | .trunc a | .floor a | .ceil a => a.NoTopCancel f env
  | .ite _ a b t e => a.NoTopCancel f env ∧ b.NoTopCancel f env ∧ t.NoTopCancel f env ∧ e.NoTopCancel f env

/-- The two summands are numbers that cancel exactly. -/
def Cancel (x y : Datum) : Prop := ∃ s t a, x = .fin s a ∧ y = .fin t a ∧ s ≠ t

/-- A result `d` of the operands `x`, `y` is an overflow: infinite although both are numbers. -/
def Overflow (x y d : Datum) : Prop := ∃ s a t c u, x = .fin s a ∧ y = .fin t c ∧ d = .inf u

/-- The evaluation stays clear of the exceptional cases in which the prover has a choice: no exact cancellation, no overflow, no
rounding to an integer of a number in `[1, 2)`. -/
def Expr.Tame (f : Fmt) (env : ℕ → Datum) : Expr → Prop
  | .var _ => True
  | .const _ => True
  | .add a b => a.Tame f env ∧ b.Tame f env ∧ ∀ x y d, a.IeeeEval f env x → b.IeeeEval f env y → Ieee.Add ⟨f.E, f.M⟩ x y d →
      ¬ Cancel x y ∧ ¬ Overflow x y d
  | .sub a b => a.Tame f env ∧ b.Tame f env ∧ ∀ x y d, a.IeeeEval f env x → b.IeeeEval f env y → Ieee.Sub ⟨f.E, f.M⟩ x y d →
      ¬ Cancel x y.neg ∧ ¬ Overflow x y d
  | .mul a b => a.Tame f env ∧ b.Tame f env ∧ ∀ x y d, a.IeeeEval f env x → b.IeeeEval f env y → Ieee.Mul ⟨f.E, f.M⟩ x y d →
      ¬ Overflow x y d
  | .div a b => a.Tame f env ∧ b.Tame f env ∧ ∀ x y d, a.IeeeEval f env x → b.IeeeEval f env y → Ieee.Div ⟨f.E, f.M⟩ x y d →
      ¬ (Overflow x y d ∧ ∀ s, y ≠ .fin s 0)
  | .trunc a | .floor a | .ceil a => a.Tame f env ∧ ∀ s v, a.IeeeEval f env (.fin s v) → ¬ (1 ≤ v ∧ v < 2)
  | .sqrt a | .neg a | .abs a => a.Tame f env
  | .ite _ a b t e => a.Tame f env ∧ b.Tame f env ∧ t.Tame f env ∧ e.Tame f env

end ZkLoc
