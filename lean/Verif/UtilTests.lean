import Verif.Convert
import Verif.Text

/-!
# Model of the tests in /repo/util/util_test.go
-/

namespace ZkLoc.UtilTests
open Ieee ZkLoc.Convert

/-- One test case of /repo/util/util_test.go:25-40 or 55-70: `ExecuteLatLngToIJK` (/repo/util/util.go:412-446) succeeds and returns the expected numbers. The external program is a parameter;
it gets the resolution and the location in degrees, and delivers its output unless it fails. (The location is handed over as text with 30 decimal places, from which the program reads back the
same doubles; the model passes the number itself.) -/
def ijkCase (run : ℕ → ℝ → ℝ → Option (List Char)) (resolution : ℕ) (lat lng : ℝ) (expected : ℕ × ℕ × ℕ) : Prop :=
  ∃ output, run resolution lat lng = some output ∧ Text.parseIJK output = some expected

/-- `TestExecuteLatLngToIJK`, /repo/util/util_test.go:43-70; decimal literals become the nearest doubles. -/
def testDegrees (run : ℕ → ℝ → ℝ → Option (List Char)) : Prop :=
  ∃ lat lng, Rounds double 40.689167 lat ∧ Rounds double (-74.044444) lng ∧ ijkCase run 10 lat lng (0, 2620, 17023)

/-- `TestExecuteLatLngToIJKWithRadians`, /repo/util/util_test.go:11-40 -/
def testRadians (run : ℕ → ℝ → ℝ → Option (List Char)) : Prop :=
  ∃ a c lat lng, Rounds double (-1.5) a ∧ Rounds double (-3.1) c ∧ RadiansToDegrees a lat ∧ RadiansToDegrees c lng ∧ ijkCase run 0 lat lng (1, 0, 0)

end ZkLoc.UtilTests
