import Verif.CellCheck
import Verif.TableGenSpec
import Mathlib.Analysis.SpecialFunctions.Trigonometric.Bounds

/-!
# Helper lemmas for the tests in /repo/util/util_test.go: π to 95 bits, doubles of decimal literals, locations with any longitude
-/

namespace ZkLoc
open Ieee

/-- π in units of `2^-100`. -/
def piX : ℤ := 3982441812995697363688351113952

theorem piX_ok : trigOk piX 100 60 = true ∧ trigVal imPow piX 100 60 = 0 := by decide +kernel

theorem piX_err : |(piX : ℝ) / 2 ^ 100 - Real.pi| ≤ 12 / 2 ^ 100 := by
  have h := (trigOk_near (by norm_num) piX_ok.1 (x := (piX : ℝ) / 2 ^ 100) (by norm_num)).1
  rw [piX_ok.2] at h
  have h1 := Real.pi_gt_d6
  have h2 := Real.pi_lt_d6
  have hx : (3.14:ℝ) ≤ (piX : ℝ) / 2 ^ 100 ∧ (piX : ℝ) / 2 ^ 100 ≤ 3.15 := by unfold piX; norm_num
  generalize (piX : ℝ) / 2 ^ 100 = x at *
  have h3 : |Real.sin (Real.pi - x)| ≤ 6 / 2 ^ 100 := by
    rw [Real.sin_pi_sub]
    simpa using h
  have h4 := Real.mul_abs_le_abs_sin (x := Real.pi - x) (by rw [abs_le]; constructor <;> linarith [hx.1, hx.2])
  have h5 : (1:ℝ) / 2 ≤ 2 / Real.pi := by
    rw [div_le_div_iff₀ (by norm_num) Real.pi_pos]; linarith
  have h6 := mul_le_mul_of_nonneg_right h5 (abs_nonneg (Real.pi - x))
  rw [abs_sub_comm]
  linarith

/-- The double next to a positive number. -/
theorem rounds_value {x w : ℝ} {n : ℕ} {k : ℤ} (hk : -1074 ≤ k) (hn : n ≤ 2 ^ 53) (hx : (2:ℝ) ^ 52 * 2 ^ k ≤ x) (hd : |x - n * 2 ^ k| < 2 ^ k / 2)
    (h : Rounds Convert.double x w) : w = n * 2 ^ k := by
  have hP : (0:ℝ) < 2 ^ k := by positivity
  have hx0 : 0 < x := lt_of_lt_of_le (by positivity) hx
  have hr : IsRNE Convert.double x (n * 2 ^ k) :=
    isRNE_of_quantum (by norm_num [Convert.double]) (by norm_num [Convert.double, Format.qmin, Format.emin, Format.bias]; exact hk) (by simpa [Convert.double] using hn) hd.le
      (fun he => absurd he (ne_of_lt hd)) (Or.inr (by simpa [Convert.double] using hx))
  refine h.unique ⟨?_, fun _ => by positivity, fun h0 => by linarith⟩
  rwa [abs_of_pos hx0, abs_of_nonneg (by positivity)]

/-- As `insideCheck`, with more terms of the series, for longitudes up to π. -/
def insideCheck60 (D E : ℤ) (f n : ℕ) (A B : ℤ) (i j k : ℤ) : Bool :=
  let φ := ivTrig 60 A
  let l := ivTrig 60 B
  trigOk A 80 60 && trigOk B 80 60 && decide (f < 20) && vecOk φ l && faceCheck D f (ivVec φ l) && decide (0 ≤ i) && decide (0 ≤ j) && decide (0 ≤ k) &&
    (decide (i = 0) || decide (j = 0) || decide (k = 0)) && hexCheck (E + 1) (faceTab.getD f ivFace0) n φ l i j k

theorem insideCheck60_sound {D E : ℤ} {f n : ℕ} {A B i j k : ℤ} (h : insideCheck60 D E f n A B i j k = true) {φ l : ℝ} (hφ : |(A:ℝ) / 2 ^ 80 - φ| ≤ 2 / 2 ^ 80)
    (hl : |(B:ℝ) / 2 ^ 80 - l| ≤ 2 / 2 ^ 80) : H3.Inside (D / 2 ^ 80) (E / 2 ^ 80) n φ l i j k := by
  simp only [insideCheck60, Bool.and_eq_true, Bool.or_eq_true, decide_eq_true_eq] at h
  obtain ⟨⟨⟨⟨⟨⟨⟨⟨⟨h1, h2⟩, hf⟩, hv⟩, h3⟩, i0⟩, j0⟩, k0⟩, hz⟩, h4⟩ := h
  have aφ := trig_has h1 hφ
  have al := trig_has h2 hl
  obtain ⟨near, far⟩ := faceCheck_sound hf (vecOk_has hv aφ al) h3
  rw [List.getD_eq_getElem _ _ hf] at h4
  refine ⟨H3.faceGeo[f]'hf, List.getElem_mem _, near, i0, j0, k0, or_assoc.1 hz, ((E + 1 : ℤ) : ℝ) / 2 ^ 80, ?_, hexCheck_sound (faceTab_has f hf) aφ al h4⟩
  push_cast
  have : (0:ℝ) < 2 ^ 80 := by positivity
  rw [gt_iff_lt, div_lt_div_iff_of_pos_right this]
  linarith

theorem degrees_checked : insideCheck60 (2 ^ 80 / 10 + 1) (2 ^ 80 / 4) 2 10 858530680321400382382741 (-1562318218049040794871578) 0 2620 17023 = true := by decide +kernel

theorem radians_checked : insideCheck60 (2 ^ 80 / 10 + 1) (2 ^ 80 / 10 + 1) 18 0 (-1813388729421943824973916) (-3747670040805350811488985) 1 0 0 = true := by decide +kernel

/-- A location inside a cell lies in it for every tolerance. -/
theorem cellAt_of_inside {δ ε δ' ε' φ l : ℝ} {n : ℕ} {i j k : ℤ} (h : H3.Inside δ ε n φ l i j k) (hδ : 0 ≤ δ) (hε : 0 ≤ ε) (hδ' : 0 ≤ δ') (hε' : 0 ≤ ε') : H3.CellAt δ' ε' n φ l i j k := by
  obtain ⟨F, hF, hmin, i0, j0, k0, z, e, he, h1, h2, h3⟩ := h
  refine ⟨F, hF, fun F' hF' => ?_, i0, j0, k0, z, h1.trans (by linarith), h2.trans (by linarith), h3.trans (by linarith)⟩
  by_cases hne : F' = F
  · rw [hne]; linarith
  · linarith [hmin F' hF' hne]

end ZkLoc
