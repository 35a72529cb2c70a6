import Verif.Loc2Index
import Verif.Spec.Real
import Mathlib.Analysis.SpecialFunctions.Trigonometric.Basic

/-!
# The hint functions `PrecomputeHint32` and `PrecomputeHint64`

The trigonometric functions are those of Go's library, which is not part of the repository: they are a parameter, and what the theorems
assume about them is `Libm.Accurate` or `Libm.CorrectlyRounded` below.
-/

namespace ZkLoc.Hints

open Ieee

/-- Double precision. -/
abbrev F64 : Format := ⟨11, 52⟩
/-- Single precision. -/
abbrev F32 : Format := ⟨8, 23⟩

/-- The data that a `float64` can hold. -/
def IsDouble (d : Datum) : Prop := ∃ n < 2 ^ 64, decodeBits F64 n = d

/-- `math.Sin`, `math.Cos` and `math.Tan` of the Go library, as functions on `float64` data. -/
structure Libm where
  sin : Datum → Datum
  cos : Datum → Datum
  tan : Datum → Datum
  sin_double : ∀ x, IsDouble (sin x)
  cos_double : ∀ x, IsDouble (cos x)
  tan_double : ∀ x, IsDouble (tan x)

/-- The conversion `float32(x)` of a `float64`, /repo/hint/hint.go:82-85. -/
def Narrow : Datum → Datum → Prop
  | .nan, y => y = .nan
  | .inf s, y => y = .inf s
  | .fin s a, y => RoundsTo F32 s a y

/-- `F32ToComponents`, `F64ToComponents` (/repo/util/util.go:362-368) put into four wires: the components of a bit pattern of the datum (only a NaN
has more than one). -/
def Wires {p : ℕ} (f : Fmt) (d : Datum) (x : FloatVar p) : Prop :=
  ∃ n < 2 ^ (1 + f.E + f.M), decodeBits ⟨f.E, f.M⟩ n = d ∧ x = (componentsOf n f.E f.M).toVar

/-- `ComponentsOf` followed by `ComponentsToF64` or `ComponentsToF32`, /repo/hint/hint.go:27-33 and 68-74: the number a hint function works with. `Uint64` takes
the low 64 bits of the field element; the conversion to `uint32` in `ComponentsToF32` (/repo/util/util.go:371) the low `1 + E + M` bits. -/
noncomputable def hintArg {p : ℕ} (f : Fmt) (V : ZMod p) : Option Datum :=
  (valueOf (componentsOf (V.val % 2 ^ 64) f.E f.M) f.E f.M).map fun n => decodeBits ⟨f.E, f.M⟩ (n % 2 ^ (1 + f.E + f.M))

/-- The four intermediate `float64` numbers, /repo/hint/hint.go:35-38 and 76-79: `math.Tan(value*0.5)`, `2*gamma*delta`, `math.Sin(value*0.5)`,
`math.Cos(value*0.5)`. A `float32` is converted to `float64` without loss. -/
def Quad (L : Libm) (x alpha beta gamma delta : Datum) : Prop :=
  ∃ half twice, Ieee.Mul F64 x (.fin false (1 / 2)) half ∧ alpha = L.tan half ∧ gamma = L.sin half ∧ delta = L.cos half ∧
    Ieee.Mul F64 (.fin false 2) gamma twice ∧ Ieee.Mul F64 twice delta beta

/-- `PrecomputeHint64`, /repo/hint/hint.go:26-65: `h` are the values given to the sixteen wires for the input `V`. -/
def PrecomputeHint64 {p : ℕ} (L : Libm) (V : ZMod p) (h : Pre p) : Prop :=
  ∃ x a b c d, hintArg f64 V = some x ∧ Quad L x a b c d ∧ Wires f64 a h.alpha ∧ Wires f64 b h.beta ∧ Wires f64 c h.gamma ∧ Wires f64 d h.delta

/-- `PrecomputeHint32`, /repo/hint/hint.go:67-106. -/
def PrecomputeHint32 {p : ℕ} (L : Libm) (V : ZMod p) (h : Pre p) : Prop :=
  ∃ x a b c d a' b' c' d', hintArg f32 V = some x ∧ Quad L x a b c d ∧ Narrow a a' ∧ Narrow b b' ∧ Narrow c c' ∧ Narrow d d' ∧
    Wires f32 a' h.alpha ∧ Wires f32 b' h.beta ∧ Wires f32 c' h.gamma ∧ Wires f32 d' h.delta

/-! ### What is assumed of the library -/

/-- On the doubles of absolute value at most 2, `g` computes the real function `r` with relative error `ε`, up to the smallest double; the result has the sign of the exact
value, and where the exact value is zero it is the zero with
the sign of the argument. -/
def Computes (ε : ℝ) (g : Datum → Datum) (r : ℝ → ℝ) : Prop :=
  ∀ s a, Representable F64 a → a ≤ 2 → ∃ t c, g (.fin s a) = .fin t c ∧ |signed t c - r (signed s a)| ≤ ε * |r (signed s a)| + 1 / 2 ^ 1074 ∧
    (r (signed s a) < 0 → t = true) ∧ (0 < r (signed s a) → t = false) ∧ (r (signed s a) = 0 → t = s ∧ c = 0)

/-- The three functions have relative error at most `ε` on `[-2, 2]`. -/
structure Libm.Accurate (L : Libm) (ε : ℝ) : Prop where
  sin : Computes ε L.sin Real.sin
  cos : Computes ε L.cos Real.cos
  tan : Computes ε L.tan Real.tan

/-- On the doubles of absolute value at most 2, `g` is the correctly rounded real function `r`. -/
def Nearest (g : Datum → Datum) (r : ℝ → ℝ) : Prop :=
  ∀ s a, Representable F64 a → a ≤ 2 → (r (signed s a) = 0 → g (.fin s a) = .fin s 0) ∧
    (r (signed s a) ≠ 0 → RoundsTo F64 (decide (r (signed s a) < 0)) |r (signed s a)| (g (.fin s a)))

/-- Correctly rounded functions. -/
structure Libm.CorrectlyRounded (L : Libm) : Prop where
  sin : Nearest L.sin Real.sin
  cos : Nearest L.cos Real.cos
  tan : Nearest L.tan Real.tan

end ZkLoc.Hints
