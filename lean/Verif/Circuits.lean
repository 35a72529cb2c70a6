import Verif.Shape

/-!
# The circuits of /repo/float/float_test.go

`X`, `Y`, `Z` are the circuit's input wires. All of them call `NewContext(api, 0, E, M)`: the range table's
width is chosen automatically (`size = 0`).
-/

namespace ZkLoc

variable {p : ℕ}

/-- `F32UnaryCircuit` / `F64UnaryCircuit`, /repo/float/float_test.go:20-32, 91-103. -/
def unaryCircuit (f : Fmt) (op : FloatVar p → Circ p (FloatVar p)) (X Y : ZMod p) : Circ p Unit := do
  let x ← newFloat f X
  let y ← newFloat f Y
  let r ← op x
  fAssertIsEqual r y

/-- `F32BinaryCircuit` / `F64BinaryCircuit`, /repo/float/float_test.go:34-48, 105-119. -/
def binaryCircuit (f : Fmt) (op : FloatVar p → FloatVar p → Circ p (FloatVar p)) (X Y Z : ZMod p) : Circ p Unit := do
  let x ← newFloat f X
  let y ← newFloat f Y
  let z ← newFloat f Z
  let r ← op x y
  fAssertIsEqual r z

/-- `F32ComparisonCircuit` / `F64ComparisonCircuit`, /repo/float/float_test.go:50-65, 121-136. -/
def comparisonCircuit (f : Fmt) (op : FloatVar p → FloatVar p → Circ p (ZMod p)) (X Y Z : ZMod p) : Circ p Unit := do
  let x ← newFloat f X
  let y ← newFloat f Y
  assertIsBoolean Z
  let r ← op x y
  assertIsEqual r Z

/-- `F32AllocationCircuit` / `F64AllocationCircuit`, /repo/float/float_test.go:67-77, 138-148. -/
def allocationCircuit (f : Fmt) (X : ZMod p) (y : ℕ) : Circ p Unit := do
  let x ← newFloat f X
  fAssertIsEqual x (newConstant f y)

/-- `F32ConversionCircuit` / `F64ConversionCircuit`, /repo/float/float_test.go:79-89, 150-160. -/
def conversionCircuit (f : Fmt) (op : FloatVar p → Circ p (FloatVar p)) (X Y : ZMod p) : Circ p Unit := do
  let x ← newFloat f X
  let x' ← op x
  let r ← fToInt f x'
  assertIsEqual r Y

variable {f : Fmt} {l : List (ℕ × Mode)} {q : ℕ}

theorem shape_unary {op : FloatVar p → Circ p (FloatVar p)} (h : ∀ x, HasShape f.pow2Size (op x) l q) (X Y : ZMod p) :
    HasShape f.pow2Size (unaryCircuit f op X Y) (newFloatShape f ++ newFloatShape f ++ l) (q + 2) := by
  unfold unaryCircuit
  simp only [Circ.bind_eq, List.append_assoc]
  refine shape_pre (q₁ := 1) (q := q + 1) (shape_newFloat _) fun _ => ?_
  refine shape_pre (q₁ := 1) (q := q) (shape_newFloat _) fun _ => ?_
  rw [← List.append_nil l, ← Nat.add_zero q]
  exact (h _).bind fun _ => shape_assertIsEqual _ _

theorem shape_binary {op : FloatVar p → FloatVar p → Circ p (FloatVar p)} (h : ∀ x y, HasShape f.pow2Size (op x y) l q)
    (X Y Z : ZMod p) :
    HasShape f.pow2Size (binaryCircuit f op X Y Z) (newFloatShape f ++ newFloatShape f ++ newFloatShape f ++ l) (q + 3) := by
  unfold binaryCircuit
  simp only [Circ.bind_eq, List.append_assoc]
  refine shape_pre (q₁ := 1) (q := q + 2) (shape_newFloat _) fun _ => ?_
  refine shape_pre (q₁ := 1) (q := q + 1) (shape_newFloat _) fun _ => ?_
  refine shape_pre (q₁ := 1) (q := q) (shape_newFloat _) fun _ => ?_
  rw [← List.append_nil l, ← Nat.add_zero q]
  exact (h _ _).bind fun _ => shape_assertIsEqual _ _

theorem shape_comparison {op : FloatVar p → FloatVar p → Circ p (ZMod p)} (h : ∀ x y, HasShape f.pow2Size (op x y) l q)
    (X Y Z : ZMod p) :
    HasShape f.pow2Size (comparisonCircuit f op X Y Z) (newFloatShape f ++ newFloatShape f ++ l) (q + 2) := by
  unfold comparisonCircuit
  simp only [Circ.bind_eq, List.append_assoc]
  refine shape_pre (q₁ := 1) (q := q + 1) (shape_newFloat _) fun _ => ?_
  refine shape_pre (q₁ := 1) (q := q) (shape_newFloat _) fun _ => ?_
  refine shape_bind0 (shape_bool _) fun _ => ?_
  rw [← List.append_nil l, ← Nat.add_zero q]
  exact (h _ _).bind fun _ => ⟨rfl, rfl⟩

theorem shape_allocation (X : ZMod p) (y : ℕ) :
    HasShape f.pow2Size (allocationCircuit f X y) (newFloatShape f) 1 := by
  unfold allocationCircuit
  simp only [Circ.bind_eq]
  rw [← List.append_nil (newFloatShape f)]
  exact (shape_newFloat _).bind fun _ => shape_assertIsEqual _ _

theorem shape_conversion {op : FloatVar p → Circ p (FloatVar p)} (h : ∀ x, HasShape f.pow2Size (op x) l q) (X Y : ZMod p) :
    HasShape f.pow2Size (conversionCircuit f op X Y) (newFloatShape f ++ l ++ [(f.pow2Size, .loose)]) (1 + q + 1) := by
  unfold conversionCircuit
  simp only [Circ.bind_eq, List.append_assoc]
  refine shape_pre (q₁ := 1) (q := 1 + q) (shape_newFloat _) fun _ => ?_
  refine shape_pre (q₁ := q) (q := 1) (h _) fun _ => ?_
  rw [← List.append_nil [_]]
  exact (shape_toInt (f := f) _).bind (q' := 0) fun _ => ⟨rfl, rfl⟩

end ZkLoc
