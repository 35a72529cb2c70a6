import Verif.Forge
import Verif.Props.Circuits

/-!
# Property theorems C41: accepted wrong answers

Where the automatically chosen table width does not divide the size of the power-of-two lookup (C13), a dishonest prover can
answer the lookup of `2^k` with `2^(k+t) + t·2^size`. Here, for circuits of /repo/float/float_test.go over the BN254 scalar
field at the width the code itself selects, wrong results accepted with such an answer. In each case the wire
assignment is the honest one except for the one hint overridden, and everything follows from evaluating the circuit.
-/

namespace ZkLoc

open Ieee (Datum)

/-- Override the `i`-th hint wire by `v`. -/
def cheat (i : ℕ) (v : ZMod bn254) : List (Option (ZMod bn254)) := List.replicate i none ++ [some v]

/-- **C41** (violated) `F64BinaryCircuit` with `Mul`, every back-end: the product of two numbers near 1.2 and 1 may be claimed
to be zero. -/
theorem C41_f64_mul_forgeable (be : Backend) (st : Bool) : ∃ X Y Z : ZMod bn254,
    IsPattern f64 X ∧ IsPattern f64 Y ∧ IsPattern f64 Z ∧
    ¬ Ieee.Mul ⟨11, 52⟩ (datumOf f64 X) (datumOf f64 Y) (datumOf f64 Z) ∧
    Accepts be st 0 f64.pow2Size (binaryCircuit f64 (fMul f64) X Y Z) () := by
  refine ⟨0x3ff362623385a20a, 0x3ff0015797eab8bf, 0, by unfold IsPattern; decide +kernel, by unfold IsPattern; decide +kernel,
    by unfold IsPattern; decide +kernel, fun h => ?_, ?_⟩
  · have := ((C41_honest (b := 6) (goodField_bn254.2 6 ⟨by norm_num, by norm_num⟩) (by decide) _ _ _).1).2
      ⟨by unfold IsPattern; decide +kernel, by unfold IsPattern; decide +kernel, by unfold IsPattern; decide +kernel, h⟩
    revert this; decide +kernel
  · rw [accepts_iff (shape_binary shape_mul _ _ _)]
    have hw : baseLength be 0 ((newFloatShape f64 ++ newFloatShape f64 ++ newFloatShape f64 ++ mulShape f64).map Prod.fst) = 6 := by
      cases be <;> decide +kernel
    rw [hw]
    exact Circ.sat_of_forge (vs := cheat 17 (2 + 2 ^ 64)) (by decide +kernel)

/-- **C41** (violated) `F32BinaryCircuit` with `Mul` under PLONK. -/
theorem C41_f32_mul_forgeable (st : Bool) : ∃ X Y Z : ZMod bn254,
    IsPattern f32 X ∧ IsPattern f32 Y ∧ IsPattern f32 Z ∧
    ¬ Ieee.Mul ⟨8, 23⟩ (datumOf f32 X) (datumOf f32 Y) (datumOf f32 Z) ∧
    Accepts .scs st 0 f32.pow2Size (binaryCircuit f32 (fMul f32) X Y Z) () := by
  refine ⟨0x3f932524, 0x3f99cb36, 0, by unfold IsPattern; decide +kernel, by unfold IsPattern; decide +kernel,
    by unfold IsPattern; decide +kernel, fun h => ?_, ?_⟩
  · have := ((C41_honest (b := 5) (goodField_bn254.1 5 ⟨by norm_num, by norm_num⟩) (by decide) _ _ _).1).2
      ⟨by unfold IsPattern; decide +kernel, by unfold IsPattern; decide +kernel, by unfold IsPattern; decide +kernel, h⟩
    revert this; decide +kernel
  · rw [accepts_iff (shape_binary shape_mul _ _ _)]
    have hw : baseLength .scs 0 ((newFloatShape f32 ++ newFloatShape f32 ++ newFloatShape f32 ++ mulShape f32).map Prod.fst) = 5 := by
      decide +kernel
    rw [hw]
    exact Circ.sat_of_forge (vs := cheat 17 (16 + 2 ^ 34)) (by decide +kernel)

/-- **C41** (violated) `F32BinaryCircuit` with `Div`, every back-end. -/
theorem C41_f32_div_forgeable (be : Backend) (st : Bool) : ∃ X Y Z : ZMod bn254,
    IsPattern f32 X ∧ IsPattern f32 Y ∧ IsPattern f32 Z ∧
    ¬ Ieee.Div ⟨8, 23⟩ (datumOf f32 X) (datumOf f32 Y) (datumOf f32 Z) ∧
    Accepts be st 0 f32.pow2Size (binaryCircuit f32 (fDiv f32) X Y Z) () := by
  refine ⟨0x1fe006da, 0x5f8003ea, 0, by unfold IsPattern; decide +kernel, by unfold IsPattern; decide +kernel,
    by unfold IsPattern; decide +kernel, fun h => ?_, ?_⟩
  · have := ((C41_honest (b := 5) (goodField_bn254.1 5 ⟨by norm_num, by norm_num⟩) (by decide) _ _ _).2.1).2
      ⟨by unfold IsPattern; decide +kernel, by unfold IsPattern; decide +kernel, by unfold IsPattern; decide +kernel, h⟩
    revert this; decide +kernel
  · rw [accepts_iff (shape_binary shape_div _ _ _)]
    have hw : baseLength be 0 ((newFloatShape f32 ++ newFloatShape f32 ++ newFloatShape f32 ++ divShape f32).map Prod.fst) = 5 := by
      cases be <;> decide +kernel
    rw [hw]
    exact Circ.sat_of_forge (vs := cheat 18 (2 ^ 9 + 7 * 2 ^ 32)) (by decide +kernel)

/-- **C41** (violated) `F64BinaryCircuit` with `Div`, every back-end. -/
theorem C41_f64_div_forgeable (be : Backend) (st : Bool) : ∃ X Y Z : ZMod bn254,
    IsPattern f64 X ∧ IsPattern f64 Y ∧ IsPattern f64 Z ∧
    ¬ Ieee.Div ⟨11, 52⟩ (datumOf f64 X) (datumOf f64 Y) (datumOf f64 Z) ∧
    Accepts be st 0 f64.pow2Size (binaryCircuit f64 (fDiv f64) X Y Z) () := by
  refine ⟨0x1fbfffffffffcfc8, 0x603fffffffffcfc7, 0, by unfold IsPattern; decide +kernel, by unfold IsPattern; decide +kernel,
    by unfold IsPattern; decide +kernel, fun h => ?_, ?_⟩
  · have := ((C41_honest (b := 6) (goodField_bn254.2 6 ⟨by norm_num, by norm_num⟩) (by decide) _ _ _).2.1).2
      ⟨by unfold IsPattern; decide +kernel, by unfold IsPattern; decide +kernel, by unfold IsPattern; decide +kernel, h⟩
    revert this; decide +kernel
  · rw [accepts_iff (shape_binary shape_div _ _ _)]
    have hw : baseLength be 0 ((newFloatShape f64 ++ newFloatShape f64 ++ newFloatShape f64 ++ divShape f64).map Prod.fst) = 6 := by
      cases be <;> decide +kernel
    rw [hw]
    exact Circ.sat_of_forge (vs := cheat 18 (2 ^ 11 + 2 ^ 64)) (by decide +kernel)

/-- The double `0x4007ffffffffffe8` is `6755399441055720 / 2^51 = 2.99…`. -/
theorem datum_almost3 : datumOf f64 (0x4007ffffffffffe8 : ZMod bn254) = .fin false (6755399441055720 / 2 ^ 51) := by
  have hv : (0x4007ffffffffffe8 : ZMod bn254).val = 0x4007ffffffffffe8 := by decide +kernel
  have h1 : (0x4007ffffffffffe8).testBit (11 + 52) = false := by decide +kernel
  have h2 : 0x4007ffffffffffe8 / 2 ^ 52 % 2 ^ 11 = 1024 := by decide +kernel
  have h3 : 0x4007ffffffffffe8 % 2 ^ 52 = 2251799813685224 := by decide +kernel
  unfold datumOf Ieee.decodeBits
  rw [hv]
  simp only [f64, h1, h2, h3, Ieee.Format.bias]
  rw [if_neg (by norm_num), if_neg (by norm_num)]
  congr 1
  norm_num

/-- **C41** (violated) `F64UnaryCircuit` with `Floor`, every back-end: the floor of `2.99…` may be claimed to be zero. -/
theorem C41_f64_floor_forgeable (be : Backend) (st : Bool) : ∃ X Y : ZMod bn254, IsPattern f64 X ∧ IsPattern f64 Y ∧
    (∃ a, datumOf f64 X = .fin false a ∧ 2 ≤ a) ∧ ¬ Ieee.Integral (fun v => ⌊v⌋) (datumOf f64 X) (datumOf f64 Y) ∧
    Accepts be st 0 f64.pow2Size (unaryCircuit f64 (fFloor f64) X Y) () := by
  have hX : IsPattern f64 (0x4007ffffffffffe8 : ZMod bn254) := by unfold IsPattern; decide +kernel
  have hY : IsPattern f64 (0 : ZMod bn254) := by unfold IsPattern; decide +kernel
  refine ⟨0x4007ffffffffffe8, 0, hX, hY, ⟨_, datum_almost3, by norm_num⟩, fun h => ?_, ?_⟩
  · have := ((C41_honest (b := 6) (goodField_bn254.2 6 ⟨by norm_num, by norm_num⟩) (by decide) _ _ 0).2.2.2.2.1).2 ⟨hX, hY, h⟩
    revert this; decide +kernel
  · rw [accepts_iff (shape_unary shape_floor _ _)]
    cases be
    · rw [show baseLength .r1cs 0 ((newFloatShape f64 ++ newFloatShape f64 ++ truncShape f64).map Prod.fst) = 5 by decide +kernel]
      exact Circ.sat_of_forge (vs := cheat 12 (2 ^ 52 + 2 ^ 64)) (by decide +kernel)
    · rw [show baseLength .scs 0 ((newFloatShape f64 ++ newFloatShape f64 ++ truncShape f64).map Prod.fst) = 6 by decide +kernel]
      exact Circ.sat_of_forge (vs := cheat 12 (2 ^ 52 + 2 ^ 64)) (by decide +kernel)
    · rw [show baseLength .other 0 ((newFloatShape f64 ++ newFloatShape f64 ++ truncShape f64).map Prod.fst) = 5 by decide +kernel]
      exact Circ.sat_of_forge (vs := cheat 12 (2 ^ 52 + 2 ^ 64)) (by decide +kernel)

/-- **C41** (violated) `F64ConversionCircuit` with `Trunc` under PLONK: `2.99…` may be converted to the integer zero. -/
theorem C41_f64_conversion_forgeable (st : Bool) : ∃ X Y : ZMod bn254, IsPattern f64 X ∧
    (∃ a, datumOf f64 X = .fin false a ∧ 2 ≤ a) ∧
    (¬ ∃ (s : Bool) (n : ℕ), Ieee.Integral Ieee.truncZ (datumOf f64 X) (.fin s n) ∧ Y = signedNat s n) ∧
    Accepts .scs st 0 f64.pow2Size (conversionCircuit f64 (fTrunc f64) X Y) () := by
  have hX : IsPattern f64 (0x4007ffffffffffe8 : ZMod bn254) := by unfold IsPattern; decide +kernel
  refine ⟨0x4007ffffffffffe8, 0, hX, ⟨_, datum_almost3, by norm_num⟩, ?_, ?_⟩
  · rw [datum_almost3]
    rintro ⟨s, n, h, h0⟩
    simp only [Ieee.Integral, Ieee.signed, Ieee.truncZ, Datum.fin.injEq, Bool.false_eq_true, if_false] at h
    have h3 : ⌊(6755399441055720 / 2 ^ 51 : ℝ)⌋ = 2 := by rw [Int.floor_eq_iff]; norm_num
    have h4 : (0:ℝ) ≤ 6755399441055720 / 2 ^ 51 := by positivity
    rw [if_pos h4, h3] at h
    have hn : n = 2 := by
      have := h.2
      norm_num at this
      exact_mod_cast this
    rw [hn, h.1] at h0
    revert h0; decide +kernel
  · rw [accepts_iff (shape_conversion shape_trunc _ _)]
    rw [show baseLength .scs 0 ((newFloatShape f64 ++ truncShape f64 ++ [(f64.pow2Size, Mode.loose)]).map Prod.fst) = 5 by decide +kernel]
    exact Circ.sat_of_forge (vs := cheat 8 (2 ^ 52 + 2 ^ 64)) (by decide +kernel)

end ZkLoc
