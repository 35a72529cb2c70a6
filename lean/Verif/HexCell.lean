import Verif.HexReal
import Verif.GeoErr
import Verif.Spec.Gnomonic
import Mathlib.Tactic.LinearCombination

/-!
# Helper lemmas: the hexagon chosen in rounded arithmetic contains the point, up to the rounding errors
-/

namespace ZkLoc

variable {f : Fmt}

/-- The six bounding lines of a hexagon in skewed coordinates relative to its centre. -/
def SkewHex (δ dx dy : ℝ) : Prop := |2 * dx - dy| ≤ 1 + δ ∧ |2 * dy - dx| ≤ 1 + δ ∧ |dx + dy| ≤ 1 + δ

theorem pick_hex (hE : 3 ≤ f.E) {third twoThirds x1 x2 : ℝ} {m1 m2 i j : ℤ} (h3 : |third - 1 / 3| ≤ ulpHalf f) (h6 : |twoThirds - 2 / 3| ≤ ulpHalf f)
    (hu : ulpHalf f ≤ 1 / 2 ^ 10) (a1 : 0 ≤ x1 - m1) (b1 : x1 - m1 ≤ 1) (a2 : 0 ≤ x2 - m2) (b2 : x2 - m2 ≤ 1)
    (h : H3.Pick (Rn f) third twoThirds x1 x2 m1 m2 i j) : SkewHex (24 * ulpHalf f) (x1 - i) (x2 - j) := by
  obtain ⟨r1, r2, d, dm, om, op, ho, ha, e1, e2, e3, e4, e5, e6, e7, e8, c1, c2, c3, c4⟩ := h
  have u0 := ulpHalf_pos (f := f)
  generalize hu' : ulpHalf f = u at *
  have step : ∀ {e w B : ℝ}, Rn f e w → |e| ≤ B → |e - w| ≤ u * B + u / 4 := by
    intro e w B hr hB
    have := hr.err_le hE
    rw [hu'] at this
    have h2 := mul_le_mul_of_nonneg_left hB u0.le
    linarith
  have k1 := abs_le.1 (step e1 (B := 1) (by rw [abs_of_nonneg a1]; exact b1))
  have k2 := abs_le.1 (step e2 (B := 1) (by rw [abs_of_nonneg a2]; exact b2))
  norm_num at hu
  have k3 := abs_le.1 (step e3 (B := 3) (by rw [abs_le]; constructor <;> linarith))
  have k4 := abs_le.1 (step e4 (B := 3) (by rw [abs_le]; constructor <;> linarith))
  have k5 := abs_le.1 (step e5 (B := 2) (by rw [abs_le]; constructor <;> linarith))
  have k6 := abs_le.1 (step e6 (B := 3) (by rw [abs_le]; constructor <;> linarith))
  have k7 := abs_le.1 (step e7 (B := 3) (by rw [abs_le]; constructor <;> linarith))
  have k8 := abs_le.1 (step e8 (B := 2) (by rw [abs_le]; constructor <;> linarith))
  have t3 := abs_le.1 h3
  have t6 := abs_le.1 h6
  clear e1 e2 e3 e4 e5 e6 e7 e8 h3 h6 step
  unfold SkewHex
  simp only [abs_le]
  rcases lt_or_ge r1 (1 / 2) with g1 | g1
  · rcases lt_or_ge r1 third with g2 | g2
    · obtain ⟨rfl, p1, p2⟩ := c1 g1 g2
      rcases lt_or_ge r2 ho with g3 | g3
      · obtain rfl := p1 g3
        refine ⟨⟨?_, ?_⟩, ⟨?_, ?_⟩, ⟨?_, ?_⟩⟩ <;> linarith
      · obtain rfl := p2 g3
        push_cast
        refine ⟨⟨?_, ?_⟩, ⟨?_, ?_⟩, ⟨?_, ?_⟩⟩ <;> linarith
    · obtain ⟨p1, p2, p3, p4⟩ := c2 g1 g2
      rcases lt_or_ge r2 om with g3 | g3
      · obtain rfl := p1 g3
        obtain rfl := p4 (fun hc => absurd hc.1 (not_le.2 g3))
        refine ⟨⟨?_, ?_⟩, ⟨?_, ?_⟩, ⟨?_, ?_⟩⟩ <;> linarith
      · obtain rfl := p2 g3
        by_cases g4 : r2 < d
        · obtain rfl := p3 ⟨g3, g4⟩
          push_cast
          refine ⟨⟨?_, ?_⟩, ⟨?_, ?_⟩, ⟨?_, ?_⟩⟩ <;> linarith
        · obtain rfl := p4 (fun hc => g4 hc.2)
          push_cast
          refine ⟨⟨?_, ?_⟩, ⟨?_, ?_⟩, ⟨?_, ?_⟩⟩ <;> linarith
  · rcases lt_or_ge r1 twoThirds with g2 | g2
    · obtain ⟨p1, p2, p3, p4⟩ := c3 g1 g2
      rcases lt_or_ge r2 om with g3 | g3
      · obtain rfl := p1 g3
        by_cases g4 : dm < r2
        · obtain rfl := p3 ⟨g4, g3⟩
          refine ⟨⟨?_, ?_⟩, ⟨?_, ?_⟩, ⟨?_, ?_⟩⟩ <;> linarith
        · obtain rfl := p4 (fun hc => g4 hc.1)
          push_cast
          refine ⟨⟨?_, ?_⟩, ⟨?_, ?_⟩, ⟨?_, ?_⟩⟩ <;> linarith
      · obtain rfl := p2 g3
        obtain rfl := p4 (fun hc => absurd hc.2 (not_lt.2 g3))
        push_cast
        refine ⟨⟨?_, ?_⟩, ⟨?_, ?_⟩, ⟨?_, ?_⟩⟩ <;> linarith
    · obtain ⟨rfl, p1, p2⟩ := c4 g1 g2
      rcases lt_or_ge r2 ha with g3 | g3
      · obtain rfl := p1 g3
        push_cast
        refine ⟨⟨?_, ?_⟩, ⟨?_, ?_⟩, ⟨?_, ?_⟩⟩ <;> linarith
      · obtain rfl := p2 g3
        push_cast
        refine ⟨⟨?_, ?_⟩, ⟨?_, ?_⟩, ⟨?_, ?_⟩⟩ <;> linarith

theorem skew_err (hE : 3 ≤ f.E) (hu : ulpHalf f ≤ 1 / 2 ^ 10) {s60 a1 a2 x1 x2 L : ℝ} (h60 : |s60 - Real.sqrt 3 / 2| ≤ ulpHalf f) (h1 : 0 ≤ a1)
    (h2 : 0 ≤ a2) (b1 : a1 ≤ L) (b2 : a2 ≤ L) (hL : 1 ≤ L) (h : H3.Skew (Rn f) s60 a1 a2 x1 x2) :
    |x2 - a2 / (Real.sqrt 3 / 2)| ≤ 3 * ulpHalf f * L ∧ |x1 - (a1 + a2 / (Real.sqrt 3 / 2) / 2)| ≤ 5 * ulpHalf f * L := by
  obtain ⟨e1, t, e2, e3⟩ := h
  have u0 := ulpHalf_pos (f := f)
  generalize hu' : ulpHalf f = u at *
  have step : ∀ {e w B : ℝ}, Rn f e w → |e| ≤ B → |e - w| ≤ u * B + u / 4 := by
    intro e w B hr hB
    have := hr.err_le hE
    rw [hu'] at this
    have h2 := mul_le_mul_of_nonneg_left hB u0.le
    linarith
  norm_num at hu
  have s3l : 0.866 ≤ Real.sqrt 3 / 2 := by
    rw [le_div_iff₀ (by norm_num)]; exact Real.le_sqrt_of_sq_le (by norm_num)
  generalize Real.sqrt 3 / 2 = s at *
  have k0 := abs_le.1 h60
  have s60l : 0.865 ≤ s60 := by linarith
  have huL : u ≤ u * L := by nlinarith
  have hq : |a2 / s60 - a2 / s| ≤ 1.4 * u * L := by
    have e : a2 / s60 - a2 / s = a2 * (s - s60) / (s60 * s) := by field_simp
    rw [e, abs_div, abs_mul, abs_of_nonneg h2, abs_of_pos (show 0 < s60 * s by positivity), div_le_iff₀ (by positivity), abs_sub_comm]
    have : a2 * |s60 - s| ≤ L * u := mul_le_mul b2 h60 (abs_nonneg _) (by linarith)
    have h3 : 0.865 * 0.866 ≤ s60 * s := mul_le_mul s60l s3l (by norm_num) (by linarith)
    have h4 : 0 < u * L := by positivity
    nlinarith
  have hb : a2 / s60 ≤ 1.16 * L := by rw [div_le_iff₀ (by linarith)]; nlinarith
  have hb0 : 0 ≤ a2 / s60 := by positivity
  have k1 := abs_le.1 (step e1 (B := 1.16 * L) (by rw [abs_of_nonneg hb0]; exact hb))
  have k2 := abs_le.1 hq
  have huL2 : u * L ≤ L / 1024 := by nlinarith
  have r2 : |x2 - a2 / s| ≤ 3 * u * L := by rw [abs_le]; constructor <;> linarith
  have k3 := abs_le.1 r2
  have k4 := abs_le.1 (step e2 (B := 0.6 * L) (by rw [abs_le]; constructor <;> linarith))
  have k5 := abs_le.1 (step e3 (B := 1.65 * L) (by rw [abs_le]; constructor <;> linarith))
  refine ⟨r2, ?_⟩
  rw [abs_le]; constructor <;> linarith

/-- The hexagon of the folded and normalised coordinates. -/
theorem fold_hexagon {ε u v : ℝ} {i j : ℤ} {sx sy : Bool} (hsx : |u| = if sx then -u else u) (hsy : |v| = if sy then -v else v)
    (h : H3.InHexagon ε i j 0 |u| |v|) : H3.InHexagon ε (H3.fold sx sy i j).1 (H3.fold sx sy i j).2 0 u v := by
  have e1 : ∀ i j : ℤ, (if j % 2 = 0 then i - 2 * (i - j / 2) else i - (2 * (i - (j + 1) / 2) + 1)) = j - i := by
    intro i j; split_ifs <;> omega
  have e2 : ∀ j : ℤ, (2 * j + 1) / 2 = j := by intro j; omega
  unfold H3.fold
  simp only [e1, e2]
  rw [hsx, hsy] at h
  unfold H3.InHexagon at h ⊢
  simp only [abs_le] at h ⊢
  obtain ⟨⟨a1, a2⟩, ⟨a3, a4⟩, a5, a6⟩ := h
  push_cast at *
  have hs : ∀ x y : ℝ, Real.sqrt 3 / 2 * (x - y * (Real.sqrt 3 / 2)) = Real.sqrt 3 / 2 * x - y * (3 / 4) := by
    intro x y
    have : Real.sqrt 3 * Real.sqrt 3 = 3 := Real.mul_self_sqrt (by norm_num)
    linear_combination (-y / 4) * this
  simp only [hs] at *
  cases sx <;> cases sy <;> simp only [Bool.false_eq_true, if_false, if_true, mul_neg] at * <;> push_cast <;>
    refine ⟨⟨?_, ?_⟩, ⟨?_, ?_⟩, ?_, ?_⟩ <;> linarith

theorem InHexagon.congr {ε u v : ℝ} {i j k : ℤ} {t : ℤ × ℤ × ℤ} (ht : H3.NormalForm i j k t) (h : H3.InHexagon ε i j k u v) :
    H3.InHexagon ε t.1 t.2.1 t.2.2 u v := by
  obtain ⟨_, _, h1, h2⟩ := ht
  have e1 : (t.1 - t.2.2 : ℝ) = (i - k : ℝ) := by
    have : t.1 - t.2.2 = i - k := by omega
    exact_mod_cast this
  have e2 : (t.2.1 - t.2.2 : ℝ) = (j - k : ℝ) := by
    have : t.2.1 - t.2.2 = j - k := by omega
    exact_mod_cast this
  unfold H3.InHexagon at *
  rw [e1, e2]
  exact h

theorem InHexagon.shift {ε ε' δ u v u' v' : ℝ} {i j k : ℤ} (h : H3.InHexagon ε i j k u v) (h1 : |u' - u| ≤ δ) (h2 : |v' - v| ≤ δ) (he : ε + 1.5 * δ ≤ ε') :
    H3.InHexagon ε' i j k u' v' := by
  unfold H3.InHexagon at *
  simp only [abs_le] at *
  obtain ⟨⟨a1, a2⟩, ⟨a3, a4⟩, a5, a6⟩ := h
  have s3 : Real.sqrt 3 / 2 ≤ 1 := by
    rw [div_le_iff₀ (by norm_num)]; exact Real.sqrt_le_iff.2 ⟨by norm_num, by norm_num⟩
  have s0 : 0 ≤ Real.sqrt 3 / 2 := by positivity
  have m : |Real.sqrt 3 / 2 * (v' - v)| ≤ δ := by
    rw [abs_mul, abs_of_nonneg s0]
    have : |v' - v| ≤ δ := abs_le.2 h2
    nlinarith [abs_nonneg (v' - v)]
  have m := abs_le.1 m
  rw [mul_sub] at m
  have hd : 0 ≤ δ := by linarith
  simp only [mul_sub] at *
  refine ⟨⟨?_, ?_⟩, ⟨?_, ?_⟩, ?_, ?_⟩ <;> linarith

/-- The result of `_hex2dToCoordIJK` in rounded arithmetic contains the point up to `16` half units in the last place of its coordinates. -/
theorem hexagon_of_pick (hE : 3 ≤ f.E) (hu : ulpHalf f ≤ 1 / 2 ^ 10) {s60 third twoThirds u v x1 x2 L : ℝ} {i j : ℤ} {sx sy : Bool}
    (h60 : |s60 - Real.sqrt 3 / 2| ≤ ulpHalf f) (h3 : |third - 1 / 3| ≤ ulpHalf f) (h6 : |twoThirds - 2 / 3| ≤ ulpHalf f) (b1 : |u| ≤ L) (b2 : |v| ≤ L)
    (hL : 1 ≤ L) (hs : H3.Skew (Rn f) s60 |u| |v| x1 x2) (hp : H3.Pick (Rn f) third twoThirds x1 x2 ⌊x1⌋ ⌊x2⌋ i j)
    (hsx : |u| = if sx then -u else u) (hsy : |v| = if sy then -v else v) {t : ℤ × ℤ × ℤ}
    (ht : t = H3.ijkNormalize (H3.fold sx sy i j).1 (H3.fold sx sy i j).2 0) :
    H3.InHexagon (20 * ulpHalf f * L) t.1 t.2.1 t.2.2 u v := by
  have u0 := ulpHalf_pos (f := f)
  have huL : ulpHalf f ≤ ulpHalf f * L := by nlinarith
  obtain ⟨k2, k1⟩ := skew_err hE hu h60 (abs_nonneg u) (abs_nonneg v) b1 b2 hL hs
  obtain ⟨g1, g2, g3⟩ := pick_hex hE h3 h6 hu (sub_nonneg.2 (Int.floor_le x1)) (by linarith [Int.lt_floor_add_one x1]) (sub_nonneg.2 (Int.floor_le x2))
    (by linarith [Int.lt_floor_add_one x2]) hp
  rw [ht]
  refine InHexagon.congr (H3.ijkNormalize_normalForm _ _ _) (fold_hexagon hsx hsy ?_)
  have hs3 : Real.sqrt 3 * Real.sqrt 3 = 3 := Real.mul_self_sqrt (by norm_num)
  have hs0 : 0 < Real.sqrt 3 := Real.sqrt_pos.2 (by norm_num)
  have hv : ∃ w, w = |v| / (Real.sqrt 3 / 2) ∧ |v| = w * (Real.sqrt 3 / 2) := ⟨_, rfl, by field_simp⟩
  obtain ⟨w, hw, hv⟩ := hv
  rw [← hw] at k1 k2
  have d1 : |u| - ((i - (0:ℤ) : ℝ) - (j - (0:ℤ) : ℝ) / 2) = |u| - (i - j / 2) := by push_cast; ring
  have d2 : Real.sqrt 3 / 2 * (|v| - (j - (0:ℤ) : ℝ) * (Real.sqrt 3 / 2)) = 3 / 4 * (w - j) := by
    rw [hv]; push_cast; linear_combination ((w - j) / 4) * hs3
  unfold H3.InHexagon
  simp only [d1, d2]
  simp only [abs_le] at *
  refine ⟨⟨?_, ?_⟩, ⟨?_, ?_⟩, ?_, ?_⟩ <;> linarith

end ZkLoc
