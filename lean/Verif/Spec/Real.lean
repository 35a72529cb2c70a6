import Verif.Spec.Encodes

/-!
# Specification vocabulary: floats as real numbers

For computations whose values stay within the range of the format: the real number a float stands for (the sign of a zero does not matter), and
rounding of a real number.
-/

namespace Ieee

/-- `w` is the real number `e` rounded to nearest, ties to even (no bound on the exponent). -/
structure Rounds (F : Format) (e w : ℝ) : Prop where
  rne : IsRNE F |e| |w|
  pos : 0 ≤ e → 0 ≤ w
  neg : e ≤ 0 → w ≤ 0

/-- The real number denoted by a bit pattern (zero for patterns that denote none). -/
noncomputable def patternVal (F : Format) (v : ℕ) : ℝ :=
  match decodeBits F v with
  | .fin s a => signed s a
  | _ => 0

end Ieee

namespace ZkLoc

/-- The wires encode a finite float of the real value `v`. -/
def Num {p : ℕ} (f : Fmt) (x : FloatVar p) (v : ℝ) : Prop := ∃ s a, Encodes f x (.fin s a) ∧ Ieee.signed s a = v

/-- Rounding in the format. -/
abbrev Rn (f : Fmt) (e w : ℝ) : Prop := Ieee.Rounds ⟨f.E, f.M⟩ e w

/-- `2^bias`, half the power of two above the largest number of the format: exact results up to this size do not overflow. -/
noncomputable def big (f : Fmt) : ℝ := 2 ^ (Ieee.Format.bias ⟨f.E, f.M⟩)

end ZkLoc
