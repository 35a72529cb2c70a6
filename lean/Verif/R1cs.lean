import Verif.Circ
import Verif.Core

/-!
# Rank-1 constraint systems and gnark's builder

`Circ` gives `frontend.API` calls their documented meaning over the field. Here the same calls are compiled to rank-1 constraints the way gnark's `frontend/cs/r1cs` does (gnark is not in /repo: this is a model
of the library, version 0.9; the numbers of constraints it yields are compared with the published ones in `Props/R1cs.lean`). The compression of long linear expressions (`CompressThreshold`) is
left out.
-/

namespace ZkLoc.R1cs

/-- Linear expressions: a constant and terms (wire, coefficient), ordered by wire and without zero coefficients. -/
structure Lin (p : ℕ) where
  c : ZMod p
  ts : List (ℕ × ZMod p)
deriving DecidableEq

/-- Assignments of values to wires. -/
abbrev Asg (p : ℕ) := ℕ → ZMod p

section
variable {p : ℕ}

/-- Add a term. -/
def addTerm (i : ℕ) (a : ZMod p) : List (ℕ × ZMod p) → List (ℕ × ZMod p)
  | [] => [(i, a)]
  | (j, b) :: l => if i < j then (i, a) :: (j, b) :: l else if j < i then (j, b) :: addTerm i a l else if a + b = 0 then l else (i, a + b) :: l

namespace Lin

/-- A constant. -/
def lit (k : ZMod p) : Lin p := ⟨k, []⟩
/-- A wire. -/
def wire (i : ℕ) : Lin p := ⟨0, [(i, 1)]⟩
/-- Sum. -/
def add (x y : Lin p) : Lin p := ⟨x.c + y.c, x.ts.foldr (fun t l => addTerm t.1 t.2 l) y.ts⟩
/-- Product with a constant. -/
def scale (x : Lin p) (k : ZMod p) : Lin p := if k = 0 then ⟨0, []⟩ else ⟨x.c * k, x.ts.map fun t => (t.1, t.2 * k)⟩
/-- Negation. -/
def neg (x : Lin p) : Lin p := ⟨-x.c, x.ts.map fun t => (t.1, -t.2)⟩
/-- Difference. -/
def sub (x y : Lin p) : Lin p := x.add y.neg
/-- The value under an assignment. -/
def eval (w : Asg p) (x : Lin p) : ZMod p := x.c + (x.ts.map fun t => t.2 * w t.1).sum
/-- A number above all wires of the expression. -/
def bound (x : Lin p) : ℕ := x.ts.foldr (fun t n => max (t.1 + 1) n) 0
/-- `constantValue`: the value of an expression without wires. -/
def const? (x : Lin p) : Option (ZMod p) := if x.ts = [] then some x.c else none

end Lin

/-- A constraint system under construction: the next free wire, the rank-1 constraints `a * b = c`, the expressions marked as boolean, the entries of the range checker and the queries to the
powers-of-two table. Newest first. -/
structure Cs (p : ℕ) where
  next : ℕ
  r1cs : List (Lin p × Lin p × Lin p)
  bools : List (Lin p)
  checks : List (Lin p × ℕ × Mode)
  queries : List (ℕ × Lin p)

/-- All constraints hold under an assignment: products, range checks (for some limbs, `CheckSat`) and lookups. -/
def Cs.Holds (b : ℕ) (w : Asg p) (σ : Cs p) : Prop :=
  (∀ r ∈ σ.r1cs, r.1.eval w * r.2.1.eval w = r.2.2.eval w) ∧ (∀ c ∈ σ.checks, CheckSat b (c.1.eval w) c.2.1 c.2.2) ∧ ∀ q ∈ σ.queries, pow2Query q.1 (q.2.eval w) = true

/-- All wires of the system are below `next`. -/
def Cs.WF (σ : Cs p) : Prop :=
  (∀ r ∈ σ.r1cs, r.1.bound ≤ σ.next ∧ r.2.1.bound ≤ σ.next ∧ r.2.2.bound ≤ σ.next) ∧ (∀ c ∈ σ.checks, c.1.bound ≤ σ.next) ∧ ∀ q ∈ σ.queries, q.2.bound ≤ σ.next

/-- Programs against gnark's builder; `none`: the builder panics. -/
def Bld (p : ℕ) (α : Type) := Cs p → Option (α × Cs p)

instance : Monad (Bld p) where
  pure a := fun σ => some (a, σ)
  bind m k := fun σ => (m σ).bind fun r => k r.1 r.2

/-- `newInternalVariable`, and a wire for an output of `NewHint`. -/
def newWire : Bld p (Lin p) := fun σ => some (.wire σ.next, { σ with next := σ.next + 1 })

/-- `addR1C`. -/
def constrain (x y z : Lin p) : Bld p Unit := fun σ => some ((), { σ with r1cs := (x, y, z) :: σ.r1cs })

/-- `MarkBoolean`. -/
def bMark (x : Lin p) : Bld p Unit := fun σ =>
  match x.const? with
  | some k => if isBool k then some ((), σ) else none
  | none => some ((), { σ with bools := x :: σ.bools })

/-- `AssertIsBoolean`: constants are compared, expressions marked as boolean are passed. -/
def bAssertBool (x : Lin p) : Bld p Unit := fun σ =>
  match x.const? with
  | some k => if isBool k then some ((), σ) else none
  | none => if x ∈ σ.bools then some ((), σ) else some ((), { σ with bools := x :: σ.bools, r1cs := (x, (Lin.lit 1).sub x, .lit 0) :: σ.r1cs })

/-- `Mul`: no constraint if a factor is constant. -/
def bMul (x y : Lin p) : Bld p (Lin p) :=
  match x.const?, y.const? with
  | some k, _ => pure (y.scale k)
  | none, some k => pure (x.scale k)
  | none, none => do
    let r ← newWire
    constrain x y r
    pure r

/-- `Select`. -/
def bSelect (c x y : Lin p) : Bld p (Lin p) := do
  bAssertBool c
  match c.const? with
  | some k => pure (if k = 0 then y else x)
  | none => do
    let r ← bMul c (x.sub y)
    pure (r.add y)

/-- `And`. -/
def bAnd (x y : Lin p) : Bld p (Lin p) := do
  bAssertBool x
  bAssertBool y
  let r ← bMul x y
  bMark r
  pure r

/-- `Or`: `x * y = x + y - r`. -/
def bOr (x y : Lin p) : Bld p (Lin p) := do
  bAssertBool x
  bAssertBool y
  let r ← newWire
  bMark r
  constrain x y ((x.add y).sub r)
  pure r

/-- `Xor`: `2x * y = x + y - r`. -/
def bXor (x y : Lin p) : Bld p (Lin p) := do
  bAssertBool x
  bAssertBool y
  let r ← newWire
  bMark r
  constrain (x.scale 2) y ((x.add y).sub r)
  pure r

/-- `IsZero`: wires `r` and `i` (a hint, the inverse or 0) with `x * i = 1 - r` and `x * r = 0`. -/
def bIsZero (x : Lin p) : Bld p (Lin p) :=
  match x.const? with
  | some k => pure (.lit (if k = 0 then 1 else 0))
  | none => do
    let r ← newWire
    let i ← newWire
    constrain x i ((Lin.lit 1).sub r)
    constrain x r (.lit 0)
    bMark r
    pure r

/-- `AssertIsEqual`. -/
def bAssertEq (x y : Lin p) : Bld p Unit := fun σ =>
  match x.const?, y.const? with
  | some k, some l => if k = l then some ((), σ) else none
  | _, _ => constrain (.lit 1) x y σ

/-- `Inverse`. -/
def bInverse (x : Lin p) : Bld p (Lin p) := fun σ =>
  match x.const? with
  | some k => if k = 0 then none else some (.lit k⁻¹, σ)
  | none => (do
    let r ← newWire
    constrain x r (.lit 1)
    pure r : Bld p (Lin p)) σ

/-- `IntGadget.AssertBitLength`, /repo/gadget/gadget.go:67-79. -/
def bCheck (x : Lin p) (bits : ℕ) (mode : Mode) : Bld p Unit := fun σ => some ((), { σ with checks := (x, bits, mode) :: σ.checks })

/-- A query to the powers-of-two table, /repo/gadget/gadget.go:131-134. -/
def bQuery (size : ℕ) (x : Lin p) : Bld p Unit := fun σ => some ((), { σ with queries := (size, x) :: σ.queries })

end

/-! ## Programs against `frontend.API` -/

/-- The calls of `frontend.API` that never need a constraint: constants, sums and products with constants, for values `V` of `frontend.Variable`. -/
class Ops (p : outParam ℕ) (V : Type) where
  lit : ZMod p → V
  add : V → V → V
  sub : V → V → V
  neg : V → V
  scale : V → ZMod p → V

/-- The other calls. -/
class Api (p : outParam ℕ) (V : outParam Type) (m : Type → Type) extends Monad m where
  mul : V → V → m V
  isZero : V → m V
  mark : V → m Unit
  assertBool : V → m Unit
  assertEq : V → V → m Unit
  select : V → V → V → m V
  and : V → V → m V
  or : V → V → m V
  xor : V → V → m V
  inverse : V → m V
  hint : List V → (List (ZMod p) → Option (ZMod p)) → m V
  check : V → ℕ → Mode → m Unit
  query : ℕ → V → m Unit

instance circOps (p : ℕ) : Ops p (ZMod p) where
  lit k := k
  add x y := x + y
  sub x y := x - y
  neg x := -x
  scale x k := x * k

/-- The meaning of the calls that the rest of the model uses. -/
instance circApi (p : ℕ) : Api p (ZMod p) (Circ p) where
  mul x y := pure (x * y)
  isZero x := pure (ZkLoc.isZero x)
  mark _ := pure ()
  assertBool := assertIsBoolean
  assertEq := assertIsEqual
  select := ZkLoc.select
  and := and'
  or := or'
  xor := xor'
  inverse := ZkLoc.inverse
  hint xs h := newHint (h xs)
  check := assertBitLength
  query s v := .query s v (.pure ())

instance bldOps (p : ℕ) : Ops p (Lin p) where
  lit := .lit
  add := .add
  sub := .sub
  neg := .neg
  scale := .scale

/-- The compiled meaning. -/
instance bldApi (p : ℕ) : Api p (Lin p) (Bld p) where
  mul := bMul
  isZero := bIsZero
  mark := bMark
  assertBool := bAssertBool
  assertEq := bAssertEq
  select := bSelect
  and := bAnd
  or := bOr
  xor := bXor
  inverse := bInverse
  hint _ _ := newWire
  check := bCheck
  query := bQuery

end ZkLoc.R1cs
