import Verif.Text

/-!
# Model of the report of `TestFloatCircuitConstraints`

The text written by /repo/float/float_constraints_test.go:81-137. What the circuits measure is the input here; it is modelled in Counts.lean and R1csCommit.lean. Go computes on `uint`; the numbers stay below `2 ^ 64` by far, so natural
numbers are the same.
-/

namespace ZkLoc.CountsText
open ZkLoc.Text

/-- `Constraints`, /repo/float/float_constraints_test.go:27-31. -/
structure Measured where
  native : ℕ
  query : ℕ
  once : ℕ
deriving DecidableEq, Repr

/-- One turn of the loops over `params` and over the table widths, /repo/float/float_constraints_test.go:22-25, 91-92. -/
structure Turn where
  name : List Char
  E : ℕ
  M : ℕ
  size : ℕ

/-- `ops`, /repo/float/float_constraints_test.go:82. -/
def ops : List (List Char) := ["Init".toList, "Add".toList, "Sub".toList, "Mul".toList, "Div".toList, "Sqrt".toList, "Cmp".toList]

/-- The turns in their order. -/
def turns : List Turn := [("F32".toList, 8, 23), ("F64".toList, 11, 52)].flatMap fun q => [8, 12, 16].map fun s => ⟨q.1, q.2.1, q.2.2, s⟩

/-- `n*(c.native+c.lookup_query)+c.lookup_global`, /repo/float/float_constraints_test.go:121. -/
def Measured.total (c : Measured) (n : ℕ) : ℕ := n * (c.native + c.query) + c.once

/-- /repo/float/float_constraints_test.go:122. -/
def Measured.amortized (c : Measured) (n : ℕ) : ℕ := c.total n / n

/-- The entry of the large table, /repo/float/float_constraints_test.go:105. -/
def cell (c : Measured) : List Char := formatUint 10 c.native ++ " + ".toList ++ formatUint 10 c.query ++ " + ".toList ++ formatUint 10 c.once ++ "/n".toList

/-- The entries of a row with what follows each of them, /repo/float/float_constraints_test.go:103-110. -/
def cells : List Measured → List Char
  | [] => []
  | [c] => cell c ++ "\n".toList
  | c :: l => cell c ++ ", ".toList ++ cells l

/-- A row of the large table, /repo/float/float_constraints_test.go:94-110. -/
def row (t : Turn) (res : List Measured) : List Char := t.name ++ ", ".toList ++ formatUint 10 t.size ++ ", ".toList ++ cells res

/-- The first line of the large table, /repo/float/float_constraints_test.go:84-89. -/
def heading : List Char := "Type, T_RC".toList ++ ops.flatMap (fun o => ", ".toList ++ o) ++ "\n".toList

/-- The table of one operation, /repo/float/float_constraints_test.go:116-123. -/
def opTable (c : Measured) : List Char := "#Operations, #Constraints (Total), #Constraints (Amortized)\n".toList ++ (List.range 16).flatMap fun j =>
  formatUint 10 (2 ^ j) ++ ", ".toList ++ formatUint 10 (c.total (2 ^ j)) ++ ", ".toList ++ formatUint 10 (c.amortized (2 ^ j)) ++ "\n".toList

/-- The name of its file below /repo/benchmarks/float, /repo/float/float_constraints_test.go:124. -/
def opName (t : Turn) (op : List Char) : List Char :=
  t.name.map Char.toLower ++ "/constraints_".toList ++ op.map Char.toLower ++ " (T_RC = ".toList ++ formatUint 10 t.size ++ ").csv".toList

/-- All files in the order in which they are written: names below /repo/benchmarks/float and contents. -/
def files (res : List (Turn × List Measured)) : List (List Char × List Char) :=
  (res.flatMap fun r => (ops.zip r.2).map fun oc => (opName r.1 oc.1, opTable oc.2)) ++ [("constraints.csv".toList, heading ++ res.flatMap fun r => row r.1 r.2)]

end ZkLoc.CountsText
