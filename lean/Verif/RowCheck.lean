import Verif.CellCheck
import Verif.LocTables
import Verif.WrapSpec
import Mathlib.Tactic.IntervalCases

/-!
# Helper lemmas: the rows of the tables of locations are checked
-/

namespace ZkLoc.Vectors

/-- The number with the bit pattern `v` in units of `2^-80`, for positive normal numbers without bits below. -/
def fixedOf (f : Fmt) (v : ℕ) : ℕ := (2 ^ f.M + v % 2 ^ f.M) * 2 ^ (80 - (2 ^ (f.E - 1) - 1 + f.M - v / 2 ^ f.M % 2 ^ f.E))

/-- The row lists the cell of its location, which stays away from the border (by `2^-80 D` and `2^-80 E`) and from the face centres; the coordinates are at most `3/2`. -/
def rowCheck (f : Fmt) (D E : ℤ) (face : ℕ) (q : ℕ × ℕ × ℕ × ℕ × ℕ × ℕ) : Bool :=
  decide (q.2.2.1 ≤ 15) && decide (q.1 < 2 ^ (1 + f.E + f.M)) && decide (q.2.1 < 2 ^ (1 + f.E + f.M)) &&
    decide (2 * fixedOf f q.1 ≤ 3 * 2 ^ 80) && decide (2 * fixedOf f q.2.1 ≤ 3 * 2 ^ 80) &&
    exactBits f.E f.M false (fixedOf f q.1) (2 ^ 80) q.1 && exactBits f.E f.M false (fixedOf f q.2.1) (2 ^ 80) q.2.1 &&
    insideCheck D E face q.2.2.1 (fixedOf f q.1) (fixedOf f q.2.1) q.2.2.2.1 q.2.2.2.2.1 q.2.2.2.2.2

/-- What the check establishes. -/
structure RowInside (f : Fmt) (δ ε : ℝ) (q : ℕ × ℕ × ℕ × ℕ × ℕ × ℕ) (φ l : ℝ) : Prop where
  res : q.2.2.1 ≤ 15
  lat : PatternOf f q.1 φ
  lng : PatternOf f q.2.1 l
  latB : |φ| ≤ 3 / 2
  lngB : |l| ≤ 3 / 2
  inside : H3.Inside δ ε q.2.2.1 φ l q.2.2.2.1 q.2.2.2.2.1 q.2.2.2.2.2
  far : ∀ F ∈ H3.faceGeo, δ < H3.sqd F φ l

theorem rowCheck_sound {f : Fmt} {D E : ℤ} {face : ℕ} {q : ℕ × ℕ × ℕ × ℕ × ℕ × ℕ} (h : rowCheck f D E face q = true) :
    RowInside f (D / 2 ^ 80) (E / 2 ^ 80) q ((fixedOf f q.1 : ℝ) / 2 ^ 80) ((fixedOf f q.2.1 : ℝ) / 2 ^ 80) := by
  simp only [rowCheck, Bool.and_eq_true, decide_eq_true_eq] at h
  obtain ⟨⟨⟨⟨⟨⟨⟨hn, h1⟩, h2⟩, b1⟩, b2⟩, h3⟩, h4⟩, h5⟩ := h
  have hb (z : ℕ) (hz : 2 * z ≤ 3 * 2 ^ 80) : |(z:ℝ) / 2 ^ 80| ≤ 3 / 2 := by
    rw [abs_of_nonneg (by positivity), div_le_div_iff₀ (by positivity) (by norm_num)]
    have : ((2 * z : ℕ) : ℝ) ≤ ((3 * 2 ^ 80 : ℕ) : ℝ) := by exact_mod_cast hz
    rw [Nat.cast_mul, Nat.cast_mul, Nat.cast_pow] at this
    push_cast at this
    linarith
  have a1 : |(((fixedOf f q.1 : ℕ) : ℤ) : ℝ) / 2 ^ 80 - (fixedOf f q.1 : ℝ) / 2 ^ 80| ≤ 2 / 2 ^ 80 := by norm_num
  have a2 : |(((fixedOf f q.2.1 : ℕ) : ℤ) : ℝ) / 2 ^ 80 - (fixedOf f q.2.1 : ℝ) / 2 ^ 80| ≤ 2 / 2 ^ 80 := by norm_num
  refine ⟨hn, ⟨h1, false, _, exactBits_decode h3, by norm_num [Ieee.signed]⟩,
      ⟨h2, false, _, exactBits_decode h4, by norm_num [Ieee.signed]⟩, hb _ b1, hb _ b2, ?_, ?_⟩
  · exact_mod_cast (insideCheck_sound h5 a1 a2).1
  · exact (insideCheck_sound h5 a1 a2).2

/-- The distances that are checked. -/
def check64 : ℕ × ℕ × ℕ × ℕ × ℕ × ℕ → Bool := rowCheck f64 (2 ^ 80 / 20 + 1) (2 ^ 80 / 10 + 1) 4
def check32 (q : ℕ × ℕ × ℕ × ℕ × ℕ × ℕ) : Bool := rowCheck f32 (2 ^ 80 / 20 + 1) (if q.2.2.1 ≤ 14 then 2 ^ 80 * 19 / 200 + 1 else 2 ^ 80 * 2 / 25 + 1) 4 q

theorem of_chunks {α : Type} {l : List α} {P : α → Prop} (hl : l.length ≤ 150) (h : ∀ i < 15, ∀ q ∈ (l.drop (10 * i)).take 10, P q) : ∀ q ∈ l, P q := by
  intro q hq
  obtain ⟨m, hm, rfl⟩ := List.mem_iff_getElem.1 hq
  refine h (m / 10) (by omega) _ (List.mem_iff_getElem.2 ⟨m % 10, ?_, ?_⟩)
  · rw [List.length_take, List.length_drop]; omega
  · rw [List.getElem_take, List.getElem_drop]
    congr 1
    omega

theorem rows64_0 : ∀ q ∈ (locRows64.drop 0).take 10, check64 q = true := by decide +kernel
theorem rows64_1 : ∀ q ∈ (locRows64.drop 10).take 10, check64 q = true := by decide +kernel
theorem rows64_2 : ∀ q ∈ (locRows64.drop 20).take 10, check64 q = true := by decide +kernel
theorem rows64_3 : ∀ q ∈ (locRows64.drop 30).take 10, check64 q = true := by decide +kernel
theorem rows64_4 : ∀ q ∈ (locRows64.drop 40).take 10, check64 q = true := by decide +kernel
theorem rows64_5 : ∀ q ∈ (locRows64.drop 50).take 10, check64 q = true := by decide +kernel
theorem rows64_6 : ∀ q ∈ (locRows64.drop 60).take 10, check64 q = true := by decide +kernel
theorem rows64_7 : ∀ q ∈ (locRows64.drop 70).take 10, check64 q = true := by decide +kernel
theorem rows64_8 : ∀ q ∈ (locRows64.drop 80).take 10, check64 q = true := by decide +kernel
theorem rows64_9 : ∀ q ∈ (locRows64.drop 90).take 10, check64 q = true := by decide +kernel
theorem rows64_10 : ∀ q ∈ (locRows64.drop 100).take 10, check64 q = true := by decide +kernel
theorem rows64_11 : ∀ q ∈ (locRows64.drop 110).take 10, check64 q = true := by decide +kernel
theorem rows64_12 : ∀ q ∈ (locRows64.drop 120).take 10, check64 q = true := by decide +kernel
theorem rows64_13 : ∀ q ∈ (locRows64.drop 130).take 10, check64 q = true := by decide +kernel
theorem rows64_14 : ∀ q ∈ (locRows64.drop 140).take 10, check64 q = true := by decide +kernel

theorem rows64_checked : ∀ q ∈ locRows64, check64 q = true := by
  refine of_chunks (by decide +kernel) fun i hi => ?_
  interval_cases i
  · exact rows64_0
  · exact rows64_1
  · exact rows64_2
  · exact rows64_3
  · exact rows64_4
  · exact rows64_5
  · exact rows64_6
  · exact rows64_7
  · exact rows64_8
  · exact rows64_9
  · exact rows64_10
  · exact rows64_11
  · exact rows64_12
  · exact rows64_13
  · exact rows64_14

theorem rows32_0 : ∀ q ∈ (locRows32.drop 0).take 10, check32 q = true := by decide +kernel
theorem rows32_1 : ∀ q ∈ (locRows32.drop 10).take 10, check32 q = true := by decide +kernel
theorem rows32_2 : ∀ q ∈ (locRows32.drop 20).take 10, check32 q = true := by decide +kernel
theorem rows32_3 : ∀ q ∈ (locRows32.drop 30).take 10, check32 q = true := by decide +kernel
theorem rows32_4 : ∀ q ∈ (locRows32.drop 40).take 10, check32 q = true := by decide +kernel
theorem rows32_5 : ∀ q ∈ (locRows32.drop 50).take 10, check32 q = true := by decide +kernel
theorem rows32_6 : ∀ q ∈ (locRows32.drop 60).take 10, check32 q = true := by decide +kernel
theorem rows32_7 : ∀ q ∈ (locRows32.drop 70).take 10, check32 q = true := by decide +kernel
theorem rows32_8 : ∀ q ∈ (locRows32.drop 80).take 10, check32 q = true := by decide +kernel
theorem rows32_9 : ∀ q ∈ (locRows32.drop 90).take 10, check32 q = true := by decide +kernel
theorem rows32_10 : ∀ q ∈ (locRows32.drop 100).take 10, check32 q = true := by decide +kernel
theorem rows32_11 : ∀ q ∈ (locRows32.drop 110).take 10, check32 q = true := by decide +kernel
theorem rows32_12 : ∀ q ∈ (locRows32.drop 120).take 10, check32 q = true := by decide +kernel
theorem rows32_13 : ∀ q ∈ (locRows32.drop 130).take 10, check32 q = true := by decide +kernel
theorem rows32_14 : ∀ q ∈ (locRows32.drop 140).take 10, check32 q = true := by decide +kernel

theorem rows32_checked : ∀ q ∈ locRows32, check32 q = true := by
  refine of_chunks (by decide +kernel) fun i hi => ?_
  interval_cases i
  · exact rows32_0
  · exact rows32_1
  · exact rows32_2
  · exact rows32_3
  · exact rows32_4
  · exact rows32_5
  · exact rows32_6
  · exact rows32_7
  · exact rows32_8
  · exact rows32_9
  · exact rows32_10
  · exact rows32_11
  · exact rows32_12
  · exact rows32_13
  · exact rows32_14

end ZkLoc.Vectors
