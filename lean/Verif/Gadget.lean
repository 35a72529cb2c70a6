import Verif.Hint

/-!
# Integer gadgets, /repo/gadget/gadget.go
-/

namespace ZkLoc

variable {p : ℕ}

/-- `IntGadget.Abs`, /repo/gadget/gadget.go:81-95. Returns `(abs, is_positive)`. -/
def gAbs (v : ZMod p) (length : ℕ) : Circ p (ZMod p × ZMod p) := do
  let isPositive ← newHint (absHintSign v)
  let _ ← newHint (absHintAbs v)
  assertIsBoolean isPositive
  let abs ← select isPositive v (-v)
  assertBitLength abs length .loose
  pure (abs, isPositive)

/-- `IntGadget.IsPositive`, /repo/gadget/gadget.go:97-100. -/
def gIsPositive (v : ZMod p) (length : ℕ) : Circ p (ZMod p) := do
  let r ← gAbs v length
  pure r.2

/-- `IntGadget.Max`, /repo/gadget/gadget.go:102-108. -/
def gMax (a b : ZMod p) (diffLength : ℕ) : Circ p (ZMod p) := do
  let c ← gIsPositive (a - b) diffLength
  select c a b

/-- `IntGadget.Min`, /repo/gadget/gadget.go:110-116. -/
def gMin (a b : ZMod p) (diffLength : ℕ) : Circ p (ZMod p) := do
  let c ← gIsPositive (a - b) diffLength
  select c b a

/-- `IntGadget.IsEq`, /repo/gadget/gadget.go:118-120. -/
def gIsEq (a b : ZMod p) : ZMod p := isZero (a - b)

/-- `IntGadget.QueryPowerOf2`, /repo/gadget/gadget.go:122-137; `size = len(pow2.entries)`. -/
def queryPowerOf2 (size : ℕ) (exponent : ZMod p) : Circ p (ZMod p) := do
  let result ← newHint (powerOfTwoHint exponent)
  assertBitLength result size .loose
  .query size (exponent * 2 ^ size + result) (.pure ())
  pure result

end ZkLoc
