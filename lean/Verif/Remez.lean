import Mathlib.RingTheory.Polynomial.Chebyshev
import Mathlib.Analysis.SpecialFunctions.Trigonometric.Basic

/-!
# /repo/scripts/generate_remez_coefficients.py

The script that computes the coefficients of `AtanRemez`. Numbers are real numbers: the rounding of `mpmath` to 50 digits, and of the printed coefficients to
doubles, is left out. `lu_solve`, `chebvander`, `chebval` and `cheb2poly` are modelled by what their documentation says: the solution of the system, the
Chebyshev polynomials, and the conversion to monomials.
-/

namespace ZkLoc.Remez
open Polynomial

/-- The loop of `bisection_search`, lines 12-21. `mid` is the middle of `low` and `high` whenever the loop is entered. `none`: the fuel is used up. -/
noncomputable def bisectLoop (f : ℝ → ℝ) (eps : ℝ) : ℕ → ℝ → ℝ → Option ℝ
  | 0, _, _ => none
  | k + 1, low, high =>
    let mid := 1 / 2 * (low + high)
    let low' := if f mid < 0 then mid else low
    let high' := if f mid < 0 then high else mid
    if |high' - low'| < eps then some (1 / 2 * (high' + low')) else bisectLoop f eps k low' high'

/-- `10 ** (-(mp.dps / 2))`, line 20, with `mp.dps = 50`. -/
noncomputable def eps : ℝ := 1 / 10 ^ 25

/-- `bisection_search`, lines 8-23. -/
noncomputable def bisectionSearch (f : ℝ → ℝ) (fuel : ℕ) (low high : ℝ) : Option ℝ :=
  if f high < f low then bisectLoop f eps fuel high low else bisectLoop f eps fuel low high

/-- The step `h` of `concave_max`, line 28: `int(50 / 1.5) = 33` zeros and a one after the point. -/
noncomputable def stepOf (low high : ℝ) : ℝ := 1 / 10 ^ 34 * (high - low)

/-- `concave_max`, lines 26-31. -/
noncomputable def concaveMax (f : ℝ → ℝ) (fuel : ℕ) (low high : ℝ) : Option ℝ :=
  bisectionSearch (fun x => (f (x + stepOf low high) - f (x - stepOf low high)) / (2 * stepOf low high)) fuel low high

/-- `chev_points(n, lower, upper)`, lines 34-37; the index starts at zero here. -/
noncomputable def chevPoints (n : ℕ) (lower upper : ℝ) (i : ℕ) : ℝ :=
  (1 / 2 * (Real.cos ((2 * ((i : ℝ) + 1) - 1) / (2 * n) * Real.pi) + 1)) * |upper - lower| + lower

/-- The polynomial with the given coefficients in the Chebyshev basis. -/
noncomputable def chebPoly {n : ℕ} (c : Fin (n + 1) → ℝ) : ℝ[X] := ∑ j, C (c j) * Chebyshev.T ℝ (j : ℤ)

/-- `numpy.polynomial.chebyshev.chebval(x, coeffs)` -/
noncomputable def chebval {n : ℕ} (c : Fin (n + 1) → ℝ) (x : ℝ) : ℝ := ∑ j, c j * (Chebyshev.T ℝ (j : ℤ)).eval x

/-- `numpy.polynomial.chebyshev.cheb2poly(coeffs)` -/
noncomputable def cheb2poly {n : ℕ} (c : Fin (n + 1) → ℝ) (i : ℕ) : ℝ := (chebPoly c).coeff i

/-- The matrix `A`, lines 43-53: the values of the Chebyshev polynomials and a column of alternating signs. -/
noncomputable def matrixA (n : ℕ) (x : Fin (n + 2) → ℝ) : Matrix (Fin (n + 2)) (Fin (n + 2)) ℝ :=
  fun i j => if (j : ℕ) < n + 1 then (Chebyshev.T ℝ (j : ℤ)).eval (x i) else (-1) ^ ((i : ℕ) + 1)

/-- `l = mp.lu_solve(A, b)`, lines 55-56. -/
def Solves (n : ℕ) (f : ℝ → ℝ) (x l : Fin (n + 2) → ℝ) : Prop := (matrixA n x).mulVec l = fun i => f (x i)

/-- `coeffs = l[:-1]`, line 58. -/
def coeffs {n : ℕ} (l : Fin (n + 2) → ℝ) : Fin (n + 1) → ℝ := fun j => l j.castSucc

/-- `r_i`, line 59. -/
noncomputable def residual {n : ℕ} (f : ℝ → ℝ) (l : Fin (n + 2) → ℝ) (x : ℝ) : ℝ := f x - chebval (coeffs l) x

/-- `intervals`, lines 61-64: `upper`, the results of the bisections between neighbouring points, `lower`. -/
def Intervals (n : ℕ) (r : ℝ → ℝ) (lower upper : ℝ) (x : Fin (n + 2) → ℝ) (t : Fin (n + 3) → ℝ) : Prop :=
  t 0 = upper ∧ t (Fin.last _) = lower ∧ ∀ i : Fin (n + 1), ∃ fuel, bisectionSearch r fuel (x i.castSucc) (x i.succ) = some (t i.succ.castSucc)

/-- `extremums`, lines 66-70. -/
def Extremums (n : ℕ) (r : ℝ → ℝ) (lower upper : ℝ) (t : Fin (n + 3) → ℝ) (e : Fin (n + 2) → ℝ) : Prop :=
  e 0 = upper ∧ e (Fin.last _) = lower ∧ ∀ i : Fin (n + 2), i ≠ 0 → i ≠ Fin.last _ → ∃ fuel, concaveMax r fuel (t i.castSucc) (t i.succ) = some (e i)

/-- `mean_error`, lines 72-73. -/
noncomputable def meanError {n : ℕ} (r : ℝ → ℝ) (e : Fin (n + 2) → ℝ) : ℝ := (∑ i, |r (e i)|) / ((n + 2 : ℕ) : ℝ)

/-- The test of line 75. -/
def Levelled {n : ℕ} (r : ℝ → ℝ) (e : Fin (n + 2) → ℝ) : Prop := ∀ i, |(|r (e i)| - meanError r e)| < 1 / 10 ^ 6 * meanError r e

/-- One round of the loop, lines 48-73. -/
structure Round (f : ℝ → ℝ) (n : ℕ) (lower upper : ℝ) (x l e : Fin (n + 2) → ℝ) : Prop where
  solves : Solves n f x l
  extremums : ∃ t, Intervals n (residual f l) lower upper x t ∧ Extremums n (residual f l) lower upper t e

/-- The loop from line 47 on, with `k` rounds left and the points `x`: the last coefficients and mean error, and the points and extremums they came from. -/
inductive Loop (f : ℝ → ℝ) (n : ℕ) (lower upper : ℝ) : ℕ → (Fin (n + 2) → ℝ) → (Fin (n + 2) → ℝ) × (Fin (n + 2) → ℝ) × (Fin (n + 2) → ℝ) → Prop
  | stop {k x l e} : Round f n lower upper x l e → Levelled (residual f l) e → Loop f n lower upper (k + 1) x (x, l, e)
  | last {x l e} : Round f n lower upper x l e → ¬ Levelled (residual f l) e → Loop f n lower upper 1 x (x, l, e)
  | next {k x l e out} : Round f n lower upper x l e → ¬ Levelled (residual f l) e → Loop f n lower upper (k + 1) e out →
      Loop f n lower upper (k + 2) x out

/-- `remez`, lines 40-80: what it returns. -/
def Remez (f : ℝ → ℝ) (n : ℕ) (lower upper : ℝ) (maxIter : ℕ) (out : (ℕ → ℝ) × ℝ) : Prop :=
  ∃ x l e, Loop f n lower upper maxIter (fun i => chevPoints (n + 2) lower upper i) (x, l, e) ∧ out = (cheb2poly (coeffs l), meanError (residual f l) e)

end ZkLoc.Remez
