import Verif.Spec.Ieee

/-!
# Specification: agreement of two data within an absolute tolerance
-/

namespace Ieee

/-- Neither datum is NaN and the sign bits agree, or one is NaN. -/
def Datum.SameSign : Datum → Datum → Prop
  | .nan, _ => True
  | _, .nan => True
  | .inf s, .inf t => s = t
  | .inf s, .fin t _ => s = t
  | .fin s _, .inf t => s = t
  | .fin s _, .fin t _ => s = t

/-- The rounded difference of the two data is at most `tol` in absolute value. -/
def Within (F : Format) (tol x y : Datum) : Prop := ∃ d, Sub F x y d ∧ Le d.abs tol

end Ieee
