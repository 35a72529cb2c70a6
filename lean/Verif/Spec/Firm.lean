import Verif.Spec.Expr

/-!
# Specification: evaluations that leave no room for dishonest answers of the power-of-two lookup

A range table of width `b` admits numbers of more than `size` bits when `b` does not divide `size`. A dishonest lookup answer
is then `2^(σ+t) + t 2^size` in place of `2^σ`; it can only be used when its odd part divides the significand at hand.
-/

namespace ZkLoc

open Ieee (Datum)

/-- What is missing from `size` to a multiple of `b`. -/
def spare (b size : ℕ) : ℕ := (b - size % b) % b

/-- The odd part of a dishonest answer to the lookup of `2^σ`. -/
def WeakDivisor (b size σ o : ℕ) : Prop := ∃ t, 0 < t ∧ t < 2 ^ spare b size ∧ σ + t < size ∧ o = 1 + t * 2 ^ (size - (σ + t))

/-- No such number divides the leading `w` binary digits of `v`. -/
def Resists (b size σ w : ℕ) (v : ℝ) : Prop :=
  ∀ (k : ℤ) (N : ℕ), 2 ^ w ≤ 2 * N → N < 2 ^ w → (N : ℝ) ≤ v * 2 ^ k → v * 2 ^ k < N + 1 → ∀ o, WeakDivisor b size σ o → ¬ o ∣ N

/-- The magnitude of a datum; an infinity counts as one, a NaN as zero. -/
noncomputable def magnitude : Datum → ℝ
  | .nan => 0
  | .inf _ => 1
  | .fin _ v => v

/-- The significand size of the lookup: sign, exponent and fraction bits. -/
def lookupSize (f : Fmt) : ℕ := 1 + f.E + f.M

/-- A product or quotient `v` rounded to `w` digits, the lookup being the shift of a subnormal result. -/
def FirmRound (b : ℕ) (f : Fmt) (w : ℕ) (v : ℝ) : Prop :=
  ∀ σ ≤ f.M + 2, (σ = 0 ∨ v < 2 ^ (Ieee.Format.emin ⟨f.E, f.M⟩)) → Resists b (lookupSize f) σ w v

/-- Product of two data. -/
def FirmMul (b : ℕ) (f : Fmt) (x y : Datum) : Prop := FirmRound b f (2 * f.M + 2) (magnitude x * magnitude y)

/-- Quotient of two data; a divisor without significand is replaced by one. -/
def FirmDiv (b : ℕ) (f : Fmt) (x y : Datum) : Prop :=
  ∀ m, (magnitude y = 0 → m = 1) → (magnitude y ≠ 0 → m = magnitude y) →
    FirmRound b f (f.M + 2) (magnitude x / m) ∧ FirmRound b f (f.M + 3) (magnitude x / m)

/-- Square root. -/
def FirmSqrt (b : ℕ) (f : Fmt) (x : Datum) : Prop := Resists b (lookupSize f) 0 (f.M + 3) (Real.sqrt (magnitude x))

/-- Sum of two numbers; the smaller one may be scaled up before it is added when it is far smaller. -/
def FirmAdd (b : ℕ) (f : Fmt) (x y : Datum) : Prop :=
  ∀ s u t v, x = .fin s u → y = .fin t v → ∀ j : ℕ,
    ((j = 0 ∨ u * 2 ^ j ≤ v) → Resists b (lookupSize f) 0 (2 * f.M + 5) |Ieee.signed s u * 2 ^ j + Ieee.signed t v|) ∧
    ((j = 0 ∨ v * 2 ^ j ≤ u) → Resists b (lookupSize f) 0 (2 * f.M + 5) |Ieee.signed s u + Ieee.signed t v * 2 ^ j|)

/-- Rounding to an integer; the lookup is that of the number of fractional digits. -/
def FirmInt (b : ℕ) (f : Fmt) (x : Datum) : Prop :=
  ∀ s v, x = .fin s v → ∀ σ ≤ f.M + 1, (σ = 0 → (2:ℝ) ^ f.M ≤ v) → (0 < σ → v < 2 ^ (f.M + 1 - σ)) → (σ ≤ f.M → (2:ℝ) ^ (f.M - σ) ≤ v) →
    Resists b (lookupSize f) σ (f.M + 1) v

/-- Every operation in the evaluation of the expression is such. -/
def Expr.Firm (b : ℕ) (f : Fmt) (env : ℕ → Datum) : Expr → Prop
  | .var _ => True
  | .const _ => True
  | .add a c => a.Firm b f env ∧ c.Firm b f env ∧ ∀ x y, a.IeeeEval f env x → c.IeeeEval f env y → FirmAdd b f x y
  | .sub a c => a.Firm b f env ∧ c.Firm b f env ∧ ∀ x y, a.IeeeEval f env x → c.IeeeEval f env y → FirmAdd b f x y.neg
  | .mul a c => a.Firm b f env ∧ c.Firm b f env ∧ ∀ x y, a.IeeeEval f env x → c.IeeeEval f env y → FirmMul b f x y
  | .div a c => a.Firm b f env ∧ c.Firm b f env ∧ ∀ x y, a.IeeeEval f env x → c.IeeeEval f env y → FirmDiv b f x y
  | .sqrt a => a.Firm b f env ∧ ∀ x, a.IeeeEval f env x → FirmSqrt b f x
  | .neg a | .abs a => a.Firm b f env
  | .trunc a | .floor a | .ceil a => a.Firm b f env ∧ ∀ x, a.IeeeEval f env x → FirmInt b f x
  | .ite _ a c t e => a.Firm b f env ∧ c.Firm b f env ∧ t.Firm b f env ∧ e.Firm b f env

end ZkLoc
