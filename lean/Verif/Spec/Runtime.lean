import Mathlib.Data.List.Sort
import Mathlib.Algebra.Order.Field.Rat
import Mathlib.Algebra.BigOperators.Group.List.Basic

/-!
# Specification: descriptive statistics

Independent of the model.
-/

namespace Stat

/-- The average. -/
def IsMean (xs : List ℚ) (m : ℚ) : Prop := xs.length * m = xs.sum

/-- The variance of a sample: half the average of the squared differences of two different entries. -/
def IsVariance (xs : List ℚ) (v : ℚ) : Prop :=
  2 * xs.length * (xs.length - 1) * v = (xs.map (fun x => (xs.map (fun y => (x - y) ^ 2)).sum)).sum

/-- The quantile `q`: the entries in order are the values at `0, 1, …, n - 1`, with straight lines between them; the quantile is the value at `q (n - 1)`. -/
def IsQuantile (xs : List ℚ) (q v : ℚ) : Prop :=
  ∃ s : List ℚ, s.Perm xs ∧ s.Pairwise (· ≤ ·) ∧ ∃ (i : ℕ) (a : ℚ), s[i]? = some a ∧ i ≤ q * (xs.length - 1) ∧
    (v = a ∧ (i : ℚ) = q * (xs.length - 1) ∨ ∃ b, s[i + 1]? = some b ∧ q * (xs.length - 1) ≤ i + 1 ∧ v = a + (q * (xs.length - 1) - i) * (b - a))

/-- The smallest entry. -/
def IsLeast (xs : List ℚ) (m : ℚ) : Prop := m ∈ xs ∧ ∀ x ∈ xs, m ≤ x

/-- The largest entry. -/
def IsGreatest (xs : List ℚ) (m : ℚ) : Prop := m ∈ xs ∧ ∀ x ∈ xs, x ≤ m

end Stat
