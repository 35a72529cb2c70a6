import Verif.LocCell

/-!
# Helper lemmas: the constants of the two location packages
-/

namespace ZkLoc

variable {p : ℕ} [Fact p.Prime]

theorem sqrt3_near {a ε : ℝ} (hε : 0 ≤ ε) (h1 : ε ≤ a) (h2 : (2 * (a - ε)) ^ 2 ≤ 3) (h3 : 3 ≤ (2 * (a + ε)) ^ 2) : |a - Real.sqrt 3 / 2| ≤ ε := by
  have k1 := Real.le_sqrt_of_sq_le h2
  have k2 : Real.sqrt 3 ≤ 2 * (a + ε) := Real.sqrt_le_iff.2 ⟨by linarith, h3⟩
  rw [abs_le]; constructor <;> linarith

theorem ulpHalf32 : ulpHalf f32 = 1 / 2 ^ 24 := by unfold ulpHalf; rw [show f32.M = 23 from rfl]; norm_num
theorem ulpHalf64 : ulpHalf f64 = 1 / 2 ^ 53 := by unfold ulpHalf; rw [show f64.M = 52 from rfl]; norm_num

theorem cellConsts32 : CellConsts p f32 geo32 where
  table := faceTable32
  unit := faceUnit32
  near := faceNear32
  hex := by
    refine ⟨_, _, _, hexConsts32, ?_, ?_, ?_⟩
    · rw [patternVal_exact (neg := false) (num := 0xddb3d7) (den := 2 ^ 24) (by decide +kernel), ulpHalf32]
      simp only [Ieee.signed]
      refine sqrt3_near ?_ ?_ ?_ ?_ <;> norm_num
    · rw [patternVal_exact (neg := false) (num := 0xaaaaab) (den := 2 ^ 25) (by decide +kernel), ulpHalf32]
      simp only [Ieee.signed]; norm_num [abs_le]
    · rw [patternVal_exact (neg := false) (num := 0xaaaaab) (den := 2 ^ 24) (by decide +kernel), ulpHalf32]
      simp only [Ieee.signed]; norm_num [abs_le]
  scale := by
    refine ⟨_, _, _, _, scaleConsts32, ?_⟩
    intro n hn μ h
    obtain ⟨h1, h2⟩ := scale_accuracy32 hn h
    rw [ulpHalf32, abs_le]
    constructor <;> linarith
  two := num_exact (E := 8) (M := 23) (neg := false) (num := 2) (den := 1) (by norm_num) (by norm_num) (by decide) (by decide +kernel) (by simp [Ieee.signed])
  four := num_exact (E := 8) (M := 23) (neg := false) (num := 4) (den := 1) (by norm_num) (by norm_num) (by decide) (by decide +kernel) (by simp [Ieee.signed])
  res := by
    refine ⟨_, num_const (f := f32) (by decide) (by decide) (by decide) (by decide), ?_⟩
    change |Ieee.patternVal ⟨8, 23⟩ _ - _| ≤ _
    rw [patternVal_exact (neg := false) (num := 0xc3910d) (den := 2 ^ 25) (by decide +kernel), ulpHalf32]
    unfold H3.res0
    simp only [Ieee.signed]; norm_num [abs_le]
  fine := fine32
  size := by decide

theorem cellConsts64 : CellConsts p f64 geo64 where
  table := faceTable64
  unit := faceUnit64
  near := faceNear64
  hex := by
    refine ⟨_, _, _, hexConsts64, ?_, ?_, ?_⟩
    · rw [patternVal_exact (neg := false) (num := 0x1bb67ae8584caa) (den := 2 ^ 53) (by decide +kernel), ulpHalf64]
      simp only [Ieee.signed]
      refine sqrt3_near ?_ ?_ ?_ ?_ <;> norm_num
    · rw [patternVal_exact (neg := false) (num := 0x15555555555555) (den := 2 ^ 54) (by decide +kernel), ulpHalf64]
      simp only [Ieee.signed]; norm_num [abs_le]
    · rw [patternVal_exact (neg := false) (num := 0x15555555555555) (den := 2 ^ 53) (by decide +kernel), ulpHalf64]
      simp only [Ieee.signed]; norm_num [abs_le]
  scale := by
    refine ⟨_, _, _, _, scaleConsts64, ?_⟩
    intro n hn μ h
    obtain ⟨h1, h2⟩ := scale_accuracy64 hn h
    rw [ulpHalf64, abs_le]
    constructor <;> linarith
  two := num_exact (E := 11) (M := 52) (neg := false) (num := 2) (den := 1) (by norm_num) (by norm_num) (by decide) (by decide +kernel) (by simp [Ieee.signed])
  four := num_exact (E := 11) (M := 52) (neg := false) (num := 4) (den := 1) (by norm_num) (by norm_num) (by decide) (by decide +kernel) (by simp [Ieee.signed])
  res := by
    refine ⟨_, num_const (f := f64) (by decide) (by decide) (by decide) (by decide), ?_⟩
    change |Ieee.patternVal ⟨11, 52⟩ _ - _| ≤ _
    rw [patternVal_exact (neg := false) (num := 0x18722191a02d5e) (den := 2 ^ 54) (by decide +kernel), ulpHalf64]
    unfold H3.res0
    simp only [Ieee.signed]; norm_num [abs_le]
  fine := fine64
  size := by decide

end ZkLoc
