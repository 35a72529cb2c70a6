import Verif.Float
import Verif.Spec.Ieee

/-!
# Specification vocabulary: what the wires of a `FloatVar` mean

Canonical component records (as documented at /repo/float/float.go:28-48), the IEEE-754 datum they denote,
and the relation `Encodes` between the four wires of a circuit float and a datum.
-/

namespace ZkLoc

/-- A component record in the canonical form documented at /repo/float/float.go:28-48. -/
def Canonical (E M : ℕ) (c : Components) : Prop :=
  (c.sign = 0 ∨ c.sign = 1) ∧
  ((c.abnormal = 1 ∧ c.exponent = 2 ^ (E - 1) ∧ (c.mantissa = 0 ∨ c.mantissa = 2 ^ M)) ∨
   (c.abnormal = 0 ∧ c.exponent = 1 - 2 ^ (E - 1) - M ∧ c.mantissa = 0) ∨
   (c.abnormal = 0 ∧ 2 ^ M ≤ c.mantissa ∧ c.mantissa < 2 ^ (M + 1) ∧
    1 - 2 ^ (E - 1) - M < c.exponent ∧ c.exponent < 2 ^ (E - 1) ∧
    ∀ k : ℕ, c.exponent + k ≤ 2 - 2 ^ (E - 1) → 2 ^ k ∣ c.mantissa))

/-- The IEEE datum denoted by a component record. -/
noncomputable def denotes (M : ℕ) (c : Components) : Ieee.Datum :=
  if c.abnormal = 1 then (if c.mantissa = 0 then .nan else .inf (decide (c.sign = 1)))
  else .fin (decide (c.sign = 1)) (c.mantissa * (2:ℝ) ^ (c.exponent - M))

/-- The wires `r` are the canonical encoding of the datum `d` (for NaN: with either sign). -/
def Encodes {p : ℕ} (f : Fmt) (r : FloatVar p) (d : Ieee.Datum) : Prop :=
  ∃ c : Components, Canonical f.E f.M c ∧ denotes f.M c = d ∧ r = c.toVar

/-- The wires `r` are the malformed record that an overflow can leave: not marked abnormal, exponent
`E_MAX = 2^(E-1)`, and a significand such that the "number" is the exact result `v` correctly rounded
without regard to the exponent range. -/
def Overflowed {p : ℕ} (f : Fmt) (neg : Bool) (v : ℝ) (r : FloatVar p) : Prop :=
  ∃ n : ℕ, 2 ^ f.M ≤ n ∧ n < 2 ^ (f.M + 1) ∧
    Ieee.IsRNE ⟨f.E, f.M⟩ v (n * (2:ℝ) ^ ((2:ℤ) ^ (f.E - 1) - f.M)) ∧
    r = ⟨if neg then 1 else 0, 2 ^ (f.E - 1), (n : ZMod p), 0⟩

/-- The wires `r` are a malformed record whose significand has vanished: not marked abnormal, significand 0, but an
exponent other than the one (`E_MIN - M`) that canonically goes with a zero. -/
def Vanished {p : ℕ} (f : Fmt) (r : FloatVar p) : Prop :=
  ∃ (s : Bool) (e : ℤ), 1 - 2 ^ (f.E - 1) - f.M < e ∧ e ≤ 2 ^ (f.E - 1) ∧ r = ⟨if s then 1 else 0, (e : ZMod p), 0, 0⟩

/-- The two summands cancel exactly and lie in the top binade of the format. -/
def TopCancel (f : Fmt) (dx dy : Ieee.Datum) : Prop :=
  ∃ s t a, dx = .fin s a ∧ dy = .fin t a ∧ s ≠ t ∧ (2:ℝ) ^ ((2:ℤ) ^ (f.E - 1) - 1) ≤ a

end ZkLoc
