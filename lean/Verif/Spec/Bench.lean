import Mathlib.Data.Nat.Notation
import Mathlib.Algebra.Order.Ring.Int

/-!
# Specification: result tables, test logs

Independent of the model.
-/

namespace Report

/-- Comma-separated values. -/
def csv (columns : List (List Char)) : List Char := [',', ' '].intercalate columns

/-- An integer in decimal notation, as the library prints it. -/
def decimalInt (n : ℤ) : List Char := (toString n).toList

/-- How a test reports its outcome: a pass with the lines of its two subtests, a failure with one line. -/
inductive Reports (pass fail : List Char) : Bool → List (List Char) → Prop
  | pass {l a b} : pass <:+: l → Reports pass fail true [l, a, b]
  | fail {l} : fail <:+: l → ¬ pass <:+: l → Reports pass fail false [l]

/-- A log that reports the outcomes in order, with other lines before, between and after the reports. -/
inductive Log (pass fail : List Char) : List Bool → List (List Char) → Prop
  | nil : Log pass fail [] []
  | other {os ls l} : ¬ pass <:+: l → ¬ fail <:+: l → Log pass fail os ls → Log pass fail os (l :: ls)
  | report {o os r ls} : Reports pass fail o r → Log pass fail os ls → Log pass fail (o :: os) (r ++ ls)

end Report
