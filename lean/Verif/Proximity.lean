import Verif.Text

/-!
# Model of the distance that /repo/proximity/proximity.go reports
-/

namespace ZkLoc.Text

/-- The `Closest distance to hexagon's boundary` of `main`, /repo/proximity/proximity.go:187-229, in metres: twenty executions of the loop over the corners of the cell, given in degrees, for the verifier's
location `p`. The distance of the library `go-haversine` is taken to be the one of `OldHaversine` (22-28), in exact arithmetic; `init` is `math.MaxFloat64`. -/
noncomputable def reported (init : ℝ) (corners : List (ℝ × ℝ)) (p : ℝ × ℝ) : ℝ :=
  closest init (corners.map fun q => oldHaversine p.1 p.2 q.1 q.2) 20

end ZkLoc.Text
