import Mathlib.Data.Real.Basic

/-!
# Specification: polynomials over the reals
-/

namespace Poly

/-- The value at `x` of the polynomial with the given coefficients, highest degree first. -/
def value : List ℝ → ℝ → ℝ
  | [], _ => 0
  | c :: cs, x => c * x ^ cs.length + value cs x

/-- The sum of the sizes of the terms: the yardstick for errors of the evaluation. -/
def size (cs : List ℝ) (x : ℝ) : ℝ := value (cs.map (fun c => |c|)) |x|

/-- `3x³ + 2x² + x + 5` -/
def cubic : List ℝ := [3, 2, 1, 5]

/-- `x¹⁰ + 9x⁹ + 8x⁸ + 7x⁷ + 6x⁶ + 5x⁵ + 4x⁴ + 3x³ + 2x² + x + 1` -/
def degTen : List ℝ := [1, 9, 8, 7, 6, 5, 4, 3, 2, 1, 1]

end Poly
