import Verif.Width

/-!
# Table width of the circuit with trigonometry
-/

namespace ZkLoc

theorem width_wrapper32 (be : Backend) : baseLength be 0 (wrapperCircuit (p := bn254) f32 consts32 sinDenoms32 geo32 0 0 0 0 0 0).widths = 9 :=
  optimal_of (by decide +kernel) (by decide +kernel) be

end ZkLoc
