import Verif.TableGen

/-!
# Model of the table generator /repo/data/generate_test_polynomial.py

As in `TableGen.lean`, Python's floating-point numbers are identified with the reals they denote and the random generator is a parameter. `x**n` (the library's `pow`) is a
parameter `pw`: `pw x n q` says that it may return `q`. Overflow is not modelled: the numbers here are below 10^22.
-/

namespace ZkLoc.TableGen
open Ieee

/-- The assumption on the library that the theorems about the tables make: its power is accurate to a unit in the last place. -/
def PowAccurate (pw : ℝ → ℕ → ℝ → Prop) : Prop := ∀ x n q, pw x n q → |q - x ^ n| ≤ 2 ^ (-52 : ℤ) * |x ^ n| + 2 ^ (-1074 : ℤ)

/-- A term of the Python expressions, /repo/data/generate_test_polynomial.py:4-10: `c*x**n`, with `x**n` for the coefficient one, `x` for the exponent one and the coefficient for the exponent zero. -/
def Term (pw : ℝ → ℕ → ℝ → Prop) (x : ℝ) (c n : ℕ) (v : ℝ) : Prop :=
  match n with
  | 0 => v = c
  | 1 => v = x
  | n + 2 => ∃ q, pw x (n + 2) q ∧ if c = 1 then v = q else Rounds double (c * q) v

/-- The sum of terms, added from left to right in double arithmetic. -/
def AddTerms (pw : ℝ → ℕ → ℝ → Prop) (x : ℝ) : List (ℕ × ℕ) → ℝ → ℝ → Prop
  | [], s, r => r = s
  | t :: ts, s, r => ∃ v s', Term pw x t.1 t.2 v ∧ Rounds double (s + v) s' ∧ AddTerms pw x ts s' r

/-- `cubic_polynomial`, lines 4-6: `3*x**3 + 2*x**2 + x + 5`. -/
def CubicPolynomial (pw : ℝ → ℕ → ℝ → Prop) (x r : ℝ) : Prop := ∃ v, Term pw x 3 3 v ∧ AddTerms pw x [(2, 2), (1, 1), (5, 0)] v r

/-- `degree_10_polynomial`, lines 8-10. -/
def Degree10Polynomial (pw : ℝ → ℕ → ℝ → Prop) (x r : ℝ) : Prop :=
  ∃ v, Term pw x 1 10 v ∧ AddTerms pw x [(9, 9), (8, 8), (7, 7), (6, 6), (5, 5), (4, 4), (3, 3), (2, 2), (1, 1), (1, 0)] v r

/-- One row of `generate_test_values`, lines 12-30: a number drawn from -100 to 100, the function evaluated there in double arithmetic, and both numbers packed in the format. -/
structure PolyRow (F : Format) (function : ℝ → ℝ → Prop) (x a y : ℝ) : Prop where
  drawn : ∃ k, Uniform (-100) 100 k x
  input : Rounds F x a
  output : ∃ r, function x r ∧ Rounds F r y

end ZkLoc.TableGen
