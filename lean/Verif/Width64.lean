import Verif.Width

/-!
# Table width of the double-precision precompute circuit
-/

namespace ZkLoc

theorem width_precompute64 (be : Backend) :
    baseLength be 0 (precomputeCircuit64 (preOf f64 0 0 0 0) (preOf f64 0 0 0 0) 0 0 0 0 0 0).widths = 11 :=
  optimal_of (by decide +kernel) (by decide +kernel) be

end ZkLoc
