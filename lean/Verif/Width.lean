import Verif.LocShape
import Verif.Field

/-!
# Table widths of the location circuits
-/

namespace ZkLoc

/-- The floats of the given bit patterns as values of `α, β, γ, δ`. -/
def preOf (f : Fmt) (a b c d : ℕ) : Pre bn254 := ⟨newConstant f a, newConstant f b, newConstant f c, newConstant f d⟩

theorem optimal_of {l : List ℕ} {w : ℕ} (h1 : getOptimalBasewidth .r1cs l = w) (h2 : getOptimalBasewidth .scs l = w) (be : Backend) :
    baseLength be 0 l = w := by
  unfold getOptimalBasewidth at h1 h2
  unfold baseLength getOptimalBasewidth
  rw [if_pos rfl]
  cases be
  · exact h1
  · exact h2
  · exact h1

theorem width_precompute32 (be : Backend) :
    baseLength be 0 (precomputeCircuit32 (preOf f32 0 0 0 0) (preOf f32 0 0 0 0) 0 0 0 0 0 0).widths = 9 :=
  optimal_of (by decide +kernel) (by decide +kernel) be

end ZkLoc
