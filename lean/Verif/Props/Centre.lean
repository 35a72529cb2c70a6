import Verif.Loc2Index
import Verif.Examples

/-!
# Property theorems C46: the location circuit has no answer at the centre of a face

`calculateHex2d` divides by the length of the projected difference from the face centre (loc2index32.go:126-128). Where that is zero the quotients are
NaN, `Floor` keeps them and `ToInt` looks up a power of two that is not in the table.
-/

namespace ZkLoc

/-- `loc2Index32CircuitWrapper.Define` without its last three lines (the comparison with the public cell),
/repo/loc2index32/loc2index32_test.go:213-261. -/
def wrapperCell {p : ℕ} (f : Fmt) (k : TrigConsts) (ds : List ℕ) (g : GeoConsts) (Lat Lng Resolution : ZMod p) :
    Circ p (ZMod p × ZMod p × ZMod p) := do
  let inp ← locInputs f g Lat Lng Resolution
  let t ← wrapperTrig f k ds g inp.1 inp.2
  locCell f g t.1 t.2.1 t.2.2.1 t.2.2.2 Resolution

theorem wrapperCircuit_eq {p : ℕ} (f : Fmt) (k : TrigConsts) (ds : List ℕ) (g : GeoConsts) (Lat Lng Resolution I J K : ZMod p) :
    wrapperCircuit f k ds g Lat Lng Resolution I J K = (wrapperCell f k ds g Lat Lng Resolution).bind (fun ijk => assertCell ijk I J K) := by
  simp only [wrapperCircuit, wrapperCell, Circ.bind_eq, Circ.bind_assoc]

theorem centre_fails : (wrapperCell (p := bn254) f32 consts32 sinDenoms32 geo32 0x3EFBC21F 0x3ECDD164 0).run 9 = none := by decide +kernel

theorem centre_neighbour : (wrapperCell (p := bn254) f32 consts32 sinDenoms32 geo32 0x3EFBC21E 0x3ECDD164 0).run 9 = some (0, 0, 0) := by
  decide +kernel

/-- **C46** (violated) At the deployed width no cell can be proved for the location 28.2°N 23.0°E of resolution 0 by the prover that the code
provides, although it lies in the middle of cell `(0, 0, 0)` of face 4. -/
theorem C46_centre_unprovable32 (I J K : ZMod bn254) :
    (wrapperCircuit (p := bn254) f32 consts32 sinDenoms32 geo32 0x3EFBC21F 0x3ECDD164 0 I J K).run 9 = none := by
  rw [wrapperCircuit_eq, Circ.run_bind, centre_fails]
  rfl

/-- The neighbouring single-precision latitude is proved to lie in cell `(0, 0, 0)`. -/
example : (wrapperCircuit (p := bn254) f32 consts32 sinDenoms32 geo32 0x3EFBC21E 0x3ECDD164 0 0 0 0).run 9 = some () := by
  rw [wrapperCircuit_eq, Circ.run_bind, centre_neighbour]
  decide +kernel

end ZkLoc
