import Verif.Spec.Ground

/-!
# Specification: the boundary of a polygon on the ground
-/

namespace H3

/-- The distance of two locations given in degrees, in metres along the great circle. -/
noncomputable def metres (p q : ℝ × ℝ) : ℝ := ground (p.1 * Real.pi / 180) (p.2 * Real.pi / 180) (q.1 * Real.pi / 180) (q.2 * Real.pi / 180)

/-- The location `q` lies on a shortest way from `u` to `v`. -/
def OnEdge (u v q : ℝ × ℝ) : Prop := metres u q + metres q v = metres u v

/-- The sides of a closed polygon. -/
def sides (corners : List (ℝ × ℝ)) : List ((ℝ × ℝ) × (ℝ × ℝ)) := corners.zip (corners.rotate 1)

/-- The locations on the boundary of a polygon. -/
def OnBoundary (corners : List (ℝ × ℝ)) (q : ℝ × ℝ) : Prop := ∃ s ∈ sides corners, OnEdge s.1 s.2 q

end H3
