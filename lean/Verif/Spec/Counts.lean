import Mathlib.Data.Nat.Notation

/-!
# The published constraint table, /repo/benchmarks/float/constraints.csv

Per row: exponent and mantissa width of the format, table width `T_RC`, the middle numbers (lookup queries)
of the columns Init, Add, Sub, Mul, Div, Sqrt, Cmp, and the one-time cost (the number before `/n`).
-/

namespace ZkLoc.Published

structure Row where
  E : ℕ
  M : ℕ
  size : ℕ
  queries : List ℕ
  oneTime : ℕ

def table : List Row :=
  [⟨8, 23, 8, [17, 43, 43, 33, 38, 22, 7], 291⟩,
   ⟨8, 23, 12, [15, 32, 32, 21, 26, 18, 4], 4131⟩,
   ⟨8, 23, 16, [14, 27, 27, 18, 23, 15, 4], 65571⟩,
   ⟨11, 52, 8, [32, 71, 71, 57, 60, 38, 11], 323⟩,
   ⟨11, 52, 12, [24, 50, 50, 37, 42, 28, 7], 4163⟩,
   ⟨11, 52, 16, [20, 40, 40, 30, 35, 23, 6], 65603⟩]

end ZkLoc.Published
