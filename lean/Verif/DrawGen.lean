import Verif.TableGen

/-!
# Model of the choice of inputs in /repo/data/generate_test_math.py
-/

namespace ZkLoc.TableGen
open Ieee

/-- `ranges_float64`, /repo/data/generate_test_math.py:24-35 -/
noncomputable def rangesDouble : List (ℝ × ℝ) :=
  [(1, 100), (-1, -100), (1 / 10 ^ 2, 1), (-(1 / 10 ^ 2), -1), (100, 10 ^ 10), (-100, -10 ^ 10), (10 ^ 10, 10 ^ 100), (-10 ^ 10, -10 ^ 100),
    (1 / 10 ^ 100, 1 / 10 ^ 10), (-(1 / 10 ^ 100), -(1 / 10 ^ 10))]

/-- `ranges_float32`, /repo/data/generate_test_math.py:39-50 -/
noncomputable def rangesSingle : List (ℝ × ℝ) :=
  [(1, 100), (-1, -100), (1 / 10 ^ 2, 1), (-(1 / 10 ^ 2), -1), (100, 10 ^ 10), (-100, -10 ^ 10), (10 ^ 10, 34 * 10 ^ 37), (-10 ^ 10, -(34 * 10 ^ 37)),
    (1 / 10 ^ 38, 1 / 10 ^ 10), (0, -(1 / 10 ^ 38))]

/-- `ranges`, /repo/data/generate_test_math.py:52 -/
noncomputable def ranges (is32 : Bool) : List (ℝ × ℝ) := if is32 then rangesSingle else rangesDouble

/-- `generate_random_float(i, float_type)`, /repo/data/generate_test_math.py:22-59, for `random.random() = k / 2^53`: the bounds are the doubles next to the decimal literals of
range number `i // 100`. There is no result when the list has no such entry (`IndexError`). -/
def RandomFloat (is32 : Bool) (i k : ℕ) (x : ℝ) : Prop :=
  ∃ r lo hi, (ranges is32)[i / 100]? = some r ∧ Rounds double r.1 lo ∧ Rounds double r.2 hi ∧ Uniform lo hi k x

end ZkLoc.TableGen
