import Verif.Deferred
import Verif.Float

/-!
# The constraint measurements of /repo/float/float_constraints_test.go
-/

namespace ZkLoc

variable {p : ℕ} {α : Type}

/-- `LookupFinalizeConstraints`, /repo/gadget/gadget.go:62-65. -/
def IntGadget.lookupFinalizeConstraints (_ : IntGadget p) : ℕ := 3

/-- `Constraints`, /repo/float/float_constraints_test.go:27-31. The field `native` is left out: it is
read off gnark's compiler, see `R1cs.countNative`. -/
structure Constraints where
  lookupQuery : ℕ
  lookupGlobal : ℕ
  deriving DecidableEq, Repr

/-- `count_constraints`, /repo/float/float_constraints_test.go:42-53: read the counter, run the operation
(its wires satisfying its assertions), read the counter again. Go subtracts on `uint`; the counter never
decreases (`C58_counter_grows`), so natural-number subtraction is the same. -/
def CountConstraints (st : Bool) (c : Circ p α) (g : IntGadget p) (k : Constraints) (g' : IntGadget p) : Prop :=
  (∃ r, Exec st c g r g') ∧ k = ⟨g'.lookupQueryConstraints - g.lookupQueryConstraints,
    g'.lookupEntryConstraints + g'.lookupFinalizeConstraints⟩

/-- The loop over the operations, /repo/float/float_constraints_test.go:61-71: all on the same gadget. -/
def CountAll (st : Bool) : List (Circ p Unit) → IntGadget p → List Constraints → IntGadget p → Prop
  | [], g, ks, g' => ks = [] ∧ g' = g
  | c :: cs, g, ks, g' => ∃ k g1 ks', CountConstraints st c g k g1 ∧ CountAll st cs g1 ks' g' ∧ ks = k :: ks'

/-- The closures of /repo/float/float_constraints_test.go:62-68, in order; results are dropped. -/
def measuredOps (f : Fmt) (X : ZMod p) (x y : FloatVar p) : List (Circ p Unit) :=
  [do let _ ← newFloat f X; pure (),
   do let _ ← fAdd f x y; pure (),
   do let _ ← fSub f x y; pure (),
   do let _ ← fMul f x y; pure (),
   do let _ ← fDiv f x y; pure (),
   do let _ ← fSqrt f x; pure (),
   do let _ ← fIsLt f x y; pure ()]

/-- `FloatCircuit.Define`, /repo/float/float_constraints_test.go:55-74. -/
def FloatCircuitDefine (st : Bool) (f : Fmt) (size : ℕ) (X Y : ZMod p) (res : List Constraints) : Prop :=
  ∃ x g1 y g2 g3, Exec st (newFloat f X) (IntGadget.new size f.pow2Size) x g1 ∧ Exec st (newFloat f Y) g1 y g2 ∧
    CountAll st (measuredOps f X x y) g2 res g3

end ZkLoc
