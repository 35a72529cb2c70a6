import Verif.Proximity
import Verif.Spec.Polygon
import Verif.Props.Text
import Mathlib.Geometry.Euclidean.Angle.Unoriented.TriangleInequality
import Mathlib.Analysis.InnerProductSpace.PiL2

/-!
# C93: the reported distance and the distance to the boundary of the cell

/repo/proximity/proximity.go:187-229.
-/

namespace ZkLoc.Text
open H3

/-! ### Helper lemmas -/

/-- The direction of a location. -/
noncomputable def direction (φ l : ℝ) : EuclideanSpace ℝ (Fin 3) := !₂[Real.cos φ * Real.cos l, Real.cos φ * Real.sin l, Real.sin φ]

theorem inner_direction (φ l φ' l' : ℝ) : inner ℝ (direction φ l) (direction φ' l') = Real.sin φ * Real.sin φ' + Real.cos φ * Real.cos φ' * Real.cos (l' - l) := by
  simp only [direction, PiLp.inner_apply, Fin.sum_univ_three, RCLike.inner_apply, conj_trivial]
  simp [Real.cos_sub]
  ring

theorem norm_direction (φ l : ℝ) : ‖direction φ l‖ = 1 := by
  have h : inner ℝ (direction φ l) (direction φ l) = (1:ℝ) := by
    rw [inner_direction, sub_self, Real.cos_zero]
    nlinarith [Real.sin_sq_add_cos_sq φ]
  rw [real_inner_self_eq_norm_sq] at h
  nlinarith [norm_nonneg (direction φ l)]

theorem arc_eq_angle (φ l φ' l' : ℝ) : arc φ l φ' l' = InnerProductGeometry.angle (direction φ l) (direction φ' l') := by
  rw [InnerProductGeometry.angle, norm_direction, norm_direction, inner_direction, arc]
  simp

theorem metres_triangle (p q r : ℝ × ℝ) : metres p r ≤ metres p q + metres q r := by
  unfold metres ground
  rw [arc_eq_angle, arc_eq_angle, arc_eq_angle, ← mul_add]
  exact mul_le_mul_of_nonneg_left (InnerProductGeometry.angle_le_angle_add_angle _ _ _) (by norm_num)

theorem metres_symm (p q : ℝ × ℝ) : metres p q = metres q p := by
  unfold metres ground
  rw [arc_eq_angle, arc_eq_angle, InnerProductGeometry.angle_comm]

theorem metres_self (p : ℝ × ℝ) : metres p p = 0 := by
  unfold metres ground arc
  rw [sub_self, Real.cos_zero]
  have : Real.sin (p.1 * Real.pi / 180) * Real.sin (p.1 * Real.pi / 180) + Real.cos (p.1 * Real.pi / 180) * Real.cos (p.1 * Real.pi / 180) * 1 = 1 := by
    nlinarith [Real.sin_sq_add_cos_sq (p.1 * Real.pi / 180)]
  rw [this, Real.arccos_one, mul_zero]

theorem haversine_metres (p q : ℝ × ℝ) : oldHaversine p.1 p.2 q.1 q.2 = metres p q := by
  rw [C57_haversine, metres, ground, arc]
  congr 6
  ring

theorem sides_mem {corners : List (ℝ × ℝ)} {s : (ℝ × ℝ) × (ℝ × ℝ)} (h : s ∈ sides corners) : s.1 ∈ corners ∧ s.2 ∈ corners := by
  obtain ⟨h1, h2⟩ := List.of_mem_zip (a := s.1) (b := s.2) h
  exact ⟨h1, List.mem_rotate.1 h2⟩

theorem corner_side {corners : List (ℝ × ℝ)} {u : ℝ × ℝ} (h : u ∈ corners) : ∃ v, (u, v) ∈ sides corners := by
  obtain ⟨i, hi, rfl⟩ := List.mem_iff_getElem.1 h
  have h2 : i < (sides corners).length := by simp [sides, hi]
  refine ⟨(corners.rotate 1)[i]'(by simpa using hi), ?_⟩
  have := List.getElem_mem h2
  rwa [show (sides corners)[i] = (corners[i], (corners.rotate 1)[i]'(by simpa using hi)) from by simp [sides]] at this

/-! ### Theorems -/

/-- **C93** The reported distance is the distance to a location on the boundary of the cell, namely a nearest corner: it never is too small. -/
theorem C93_reached {init : ℝ} {corners : List (ℝ × ℝ)} {p : ℝ × ℝ} (h0 : corners ≠ []) (hi : 6371000 * Real.pi ≤ init) :
    ∃ q ∈ corners, OnBoundary corners q ∧ reported init corners p = metres p q ∧ ∀ q' ∈ corners, metres p q ≤ metres p q' := by
  obtain ⟨q, hq, e, hmin⟩ := C56_closest_point init (fun q : ℝ × ℝ => oldHaversine p.1 p.2 q.1 q.2) corners 20 (by norm_num) h0
    (fun q _ => (C57_haversine_bounds _ _ _ _).2.trans hi)
  obtain ⟨v, hv⟩ := corner_side hq
  refine ⟨q, hq, ⟨_, hv, ?_⟩, ?_, fun q' hq' => ?_⟩
  · show metres q q + metres q v = metres q v
    rw [metres_self, zero_add]
  · rw [← haversine_metres]; exact e
  · rw [← haversine_metres, ← haversine_metres]; exact hmin q' hq'

/-- **C93** It exceeds the distance to the boundary by at most half of the longest side. What is missing to the claim of the printed text: it is not the distance to the boundary (`C93_not_the_boundary`). -/
theorem C93_reported_partial {init L : ℝ} {corners : List (ℝ × ℝ)} {p q : ℝ × ℝ} (hi : 6371000 * Real.pi ≤ init) (hL : ∀ s ∈ sides corners, metres s.1 s.2 ≤ L) (hq : OnBoundary corners q) :
    reported init corners p ≤ metres p q + L / 2 := by
  obtain ⟨s, hs, he⟩ := hq
  obtain ⟨m1, m2⟩ := sides_mem hs
  obtain ⟨c, -, -, hc, hmin⟩ := C93_reached (p := p) (List.ne_nil_of_mem m1) hi
  have h1 := hmin _ m1
  have h2 := hmin _ m2
  have t1 := metres_triangle p q s.1
  have t2 := metres_triangle p q s.2
  have hl := hL s hs
  rw [metres_symm q s.1] at t1
  unfold OnEdge at he
  rw [hc]
  linarith

/-- **C93** It is not the distance to the boundary, and the bound of `C93_reported_partial` is reached: for every `w` from 0 to 30 degrees there is a hexagon such that a verifier in the middle of a side, hence on the
boundary, is told half of the length of that side, which is `w` degrees along a great circle. -/
theorem C93_not_the_boundary {init w : ℝ} (hi : 6371000 * Real.pi ≤ init) (h0 : 0 < w) (h1 : w ≤ 30) :
    ∃ corners : List (ℝ × ℝ), corners.length = 6 ∧ ∃ s ∈ sides corners, OnEdge s.1 s.2 (0, 0) ∧ reported init corners (0, 0) = metres s.1 s.2 / 2 ∧ metres s.1 s.2 = 6371000 * (2 * w * Real.pi / 180) := by
  have hpi := Real.pi_pos
  have eq : ∀ a b : ℝ, |b - a| ≤ 180 → metres (0, a) (0, b) = 6371000 * (|b - a| * Real.pi / 180) := by
    intro a b hab
    unfold metres ground arc
    have e : |b - a| * Real.pi / 180 = |b * Real.pi / 180 - a * Real.pi / 180| := by
      rw [show b * Real.pi / 180 - a * Real.pi / 180 = (b - a) * (Real.pi / 180) by ring, abs_mul, abs_of_pos (by positivity : 0 < Real.pi / 180)]
      ring
    simp only [zero_mul, zero_div, Real.sin_zero, Real.cos_zero, zero_add, one_mul]
    rw [e, ← Real.cos_abs (b * Real.pi / 180 - a * Real.pi / 180), Real.arccos_cos (abs_nonneg _)]
    rw [← e]
    have := mul_le_mul_of_nonneg_right hab hpi.le
    linarith
  have far : ∀ a b : ℝ, w ≤ a → a ≤ 90 → metres (0, 0) (0, w) ≤ metres (0, 0) (a, b) := by
    intro a b ha hb
    unfold metres ground arc
    simp only [zero_mul, zero_div, Real.sin_zero, Real.cos_zero, zero_add, one_mul, sub_zero]
    refine mul_le_mul_of_nonneg_left (Real.arccos_le_arccos ?_) (by norm_num)
    have c0 : 0 ≤ Real.cos (a * Real.pi / 180) := Real.cos_nonneg_of_neg_pi_div_two_le_of_le (by nlinarith) (by nlinarith)
    have c1 : Real.cos (a * Real.pi / 180) ≤ Real.cos (w * Real.pi / 180) := Real.cos_le_cos_of_nonneg_of_le_pi (by positivity) (by nlinarith) (by nlinarith)
    have c2 := Real.cos_le_one (b * Real.pi / 180)
    nlinarith
  have dw : metres (0, 0) (0, w) = 6371000 * (w * Real.pi / 180) := by rw [eq 0 w (by rw [sub_zero, abs_of_pos h0]; linarith), sub_zero, abs_of_pos h0]
  have dm : metres (0, 0) (0, -w) = 6371000 * (w * Real.pi / 180) := by
    rw [eq 0 (-w) (by rw [sub_zero, abs_neg, abs_of_pos h0]; linarith), sub_zero, abs_neg, abs_of_pos h0]
  have ds : metres (0, -w) (0, w) = 6371000 * (2 * w * Real.pi / 180) := by
    rw [eq (-w) w (by rw [abs_of_pos (by linarith)]; linarith), abs_of_pos (by linarith), show w - -w = 2 * w by ring]
  refine ⟨[(0, -w), (0, w), (2 * w, 2 * w), (3 * w, w), (3 * w, -w), (2 * w, -(2 * w))], rfl, ((0, -w), (0, w)), by simp [sides], ?_, ?_, ds⟩
  · show metres (0, -w) (0, 0) + metres (0, 0) (0, w) = metres (0, -w) (0, w)
    rw [metres_symm (0, -w), dm, dw, ds]; ring
  · obtain ⟨q, hq, -, hr, hmin⟩ := C93_reached (init := init) (corners := [(0, -w), (0, w), (2 * w, 2 * w), (3 * w, w), (3 * w, -w), (2 * w, -(2 * w))]) (p := (0, 0)) (by simp) hi
    have le1 := hmin (0, w) (by simp)
    have ge1 : metres (0, 0) (0, w) ≤ metres (0, 0) q := by
      simp only [List.mem_cons, List.not_mem_nil, or_false] at hq
      rcases hq with rfl | rfl | rfl | rfl | rfl | rfl
      · rw [dw, dm]
      · exact le_rfl
      · exact far _ _ (by linarith) (by linarith)
      · exact far _ _ (by linarith) (by linarith)
      · exact far _ _ (by linarith) (by linarith)
      · exact far _ _ (by linarith) (by linarith)
    rw [hr, le_antisymm le1 ge1, dw]
    show _ = metres (0, -w) (0, w) / 2
    rw [ds]; ring

/-- **C93** A verifier inside the cell is told a positive distance as well, unless they stand on a corner: nothing in the report says on which side of the boundary they are. -/
theorem C93_positive {init : ℝ} {corners : List (ℝ × ℝ)} {p : ℝ × ℝ} (h0 : corners ≠ []) (hi : 6371000 * Real.pi ≤ init) :
    0 < reported init corners p ↔ ∀ q ∈ corners, 0 < metres p q := by
  obtain ⟨c, hc, -, e, hmin⟩ := C93_reached (p := p) h0 hi
  rw [e]
  exact ⟨fun h q hq => lt_of_lt_of_le h (hmin q hq), fun h => h c hc⟩

/-- **C93** What the report says about the prover: if all corners of the cell are within `D` metres of the prover's location, the true distance of verifier and prover differs from the report by at most `D`, and
the bound is reached on both sides (the verifier at the prover's location, or at a corner). -/
theorem C93_prover {init D : ℝ} {corners : List (ℝ × ℝ)} {x : ℝ × ℝ} (h0 : corners ≠ []) (hi : 6371000 * Real.pi ≤ init) (hD : ∀ c ∈ corners, metres x c ≤ D) :
    (∀ p, |metres p x - reported init corners p| ≤ D) ∧ (∀ c ∈ corners, metres c x - reported init corners c = metres x c) ∧
      ((∀ c ∈ corners, metres x c = D) → reported init corners x - metres x x = D) := by
  refine ⟨fun p => ?_, fun c hc => ?_, fun h => ?_⟩
  · obtain ⟨c, hc, -, e, hmin⟩ := C93_reached (p := p) h0 hi
    have t1 := metres_triangle p x c
    have t2 := metres_triangle p c x
    rw [metres_symm c x] at t2
    have := hD c hc
    rw [e, abs_le]
    constructor <;> linarith
  · obtain ⟨q, hq, -, e, hmin⟩ := C93_reached (p := c) h0 hi
    have h1 := hmin c hc
    rw [metres_self] at h1
    have h2 : 0 ≤ metres c q := by
      rw [← haversine_metres]
      exact (C57_haversine_bounds _ _ _ _).1
    rw [e, metres_symm c x]
    linarith
  · obtain ⟨q, hq, -, e, -⟩ := C93_reached (p := x) h0 hi
    rw [e, metres_self, h q hq, sub_zero]

/-- The hypotheses are met: seen from the pole all corners on the equator are equally far. -/
example : ∀ c ∈ [((0:ℝ), (0:ℝ)), (0, 1), (0, 2)], metres (90, 0) c = 6371000 * (Real.pi / 2) := by
  have e : (90:ℝ) * Real.pi / 180 = Real.pi / 2 := by ring
  simp [metres, ground, arc, e]

/-- The hypotheses are met: the largest double exceeds half the circumference of the earth by far, and a square of sides of a degree on the equator has a bounded boundary with the location `(0, 1/2)` on it. -/
example : 6371000 * Real.pi ≤ (10:ℝ) ^ 10 ∧ ∃ L, ∀ s ∈ sides [(0, 0), (0, 1), (1, 1), (1, 0)], metres s.1 s.2 ≤ L := by
  refine ⟨by have := Real.pi_le_four; linarith, 6371000 * Real.pi, fun s _ => ?_⟩
  rw [← haversine_metres]
  exact (C57_haversine_bounds _ _ _ _).2

end ZkLoc.Text
