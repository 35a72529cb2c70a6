import Verif.Spec.Gnomonic

/-!
# Specification: distances on the ground, and locations inside a cell
-/

namespace H3

/-- The angle between two locations, seen from the centre of the earth. -/
noncomputable def arc (φ l φ' l' : ℝ) : ℝ :=
  Real.arccos (Real.sin φ * Real.sin φ' + Real.cos φ * Real.cos φ' * Real.cos (l' - l))

/-- The distance of two locations along a great circle in metres, on the sphere of radius 6371 km that /repo/util/util.go uses (see C57). -/
noncomputable def ground (φ l φ' l' : ℝ) : ℝ := 6371000 * arc φ l φ' l'

/-- The location lies in the cell `(i, j, k)` of the face `F`, which is the nearest one, and stays away from the border: all other face centres are farther by more than `δ`
(in squared distance), and the projected point is inside the hexagon and farther than `ε` from its sides. -/
def Inside (δ ε : ℝ) (n : ℕ) (φ l : ℝ) (i j k : ℤ) : Prop :=
  ∃ F ∈ faceGeo, (∀ F' ∈ faceGeo, F' ≠ F → sqd F φ l + δ < sqd F' φ l) ∧ 0 ≤ i ∧ 0 ≤ j ∧ 0 ≤ k ∧ (i = 0 ∨ j = 0 ∨ k = 0) ∧
    ∃ ε' > ε, InHexagon (-ε') i j k (plane F n φ l).1 (plane F n φ l).2

end H3
