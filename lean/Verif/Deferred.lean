import Verif.Core

/-!
# The deferred range checker and the gadget's book-keeping

/repo/gadget/rangecheck.go and the stateful part of /repo/gadget/gadget.go: entries are *recorded* while the
circuit is defined and turned into constraints by `commit`, which gnark calls once at the end
(`Compiler().Defer`). `Circ.Sat`/`Circ.run` enforce each entry on the spot instead; `Props/Deferred.lean`
proves the two views equivalent.
-/

namespace ZkLoc

variable {p : ℕ} {α β : Type}

/-- `checkedVariable`, /repo/gadget/rangecheck.go:26-30. -/
structure Entry (p : ℕ) where
  v : ZMod p
  bits : ℕ
  mode : Mode

/-- `CommitChecker`, /repo/gadget/rangecheck.go:32-36. -/
structure Checker (p : ℕ) where
  collected : List (Entry p)
  closed : Bool
  size : ℕ

/-- The kind of constraint system asked for by `getOptimalBasewidth`, /repo/gadget/rangecheck.go:153-163. -/
inductive Backend
  | r1cs
  | scs
  | other
deriving DecidableEq

/-- `NewCommitRangechecker`, /repo/gadget/rangecheck.go:38-42. -/
def Checker.new (size : ℕ) : Checker p := ⟨[], false, size⟩

/-- `Check`, /repo/gadget/rangecheck.go:44-49; `none` models the panic. -/
def Checker.check (c : Checker p) (v : ZMod p) (bits : ℕ) (mode : Mode) : Option (Checker p) :=
  if c.closed then none else some { c with collected := c.collected ++ [⟨v, bits, mode⟩] }

/-- `nbDecomposed`, the loop shared by `nbR1CSConstraints` and `nbPLONKConstraints`,
/repo/gadget/rangecheck.go:179-186, 194-201. -/
def nbDecomposed (j : ℕ) (bits : List ℕ) : ℕ :=
  (bits.map fun n => if decompSize n j * j > n then decompSize n j + 1 else decompSize n j).sum

/-- `nbR1CSConstraints`, /repo/gadget/rangecheck.go:178-191 (depends on the bit lengths only). -/
def nbR1CSConstraints (j : ℕ) (bits : List ℕ) : ℕ := 2 ^ j + nbDecomposed j bits + bits.length + 1

/-- `nbPLONKConstraints`, /repo/gadget/rangecheck.go:193-206. -/
def nbPLONKConstraints (j : ℕ) (bits : List ℕ) : ℕ :=
  3 * 2 ^ j + 3 * nbDecomposed j bits + nbDecomposed j bits + 1

/-- The loop of `optimalWidth`, /repo/gadget/rangecheck.go:165-176: state `(min, minVal)`. -/
def optimalLoop (cost : ℕ → ℕ) : List ℕ → ℕ × ℕ → ℕ × ℕ
  | [], s => s
  | j :: js, s => optimalLoop cost js (if cost j < s.1 then (cost j, j) else s)

/-- `optimalWidth`, /repo/gadget/rangecheck.go:165-176: `j` runs from 2 to 17, `min` starts at
`math.MaxInt64`. Go's 64-bit arithmetic is modelled without overflow. -/
def optimalWidth (cost : ℕ → ℕ) : ℕ := (optimalLoop cost (List.range' 2 16) (2 ^ 63 - 1, 0)).2

/-- `getOptimalBasewidth`, /repo/gadget/rangecheck.go:153-163. -/
def getOptimalBasewidth (be : Backend) (bits : List ℕ) : ℕ :=
  match be with
  | .r1cs => optimalWidth (nbR1CSConstraints · bits)
  | .scs => optimalWidth (nbPLONKConstraints · bits)
  | .other => optimalWidth (nbR1CSConstraints · bits)

/-- The base width used by `commit`, /repo/gadget/rangecheck.go:67-70. -/
def baseLength (be : Backend) (size : ℕ) (bits : List ℕ) : ℕ :=
  if size = 0 then getOptimalBasewidth be bits else size

/-- What `commit` adds to the constraint system: decompositions of the entries with limbs of the given
base width, one lookup argument for all limbs. -/
structure Emitted (p : ℕ) where
  base : ℕ
  entries : List (Entry p)

/-- `commit`, /repo/gadget/rangecheck.go:59-120: the emitted constraints (if any) and the new state. -/
def Checker.commit (be : Backend) (c : Checker p) : Option (Emitted p) × Checker p :=
  if c.closed then (none, c)
  else if c.collected.length = 0 then (none, { c with closed := true })
  else (some ⟨baseLength be c.size (c.collected.map Entry.bits), c.collected⟩, { c with closed := true })

/-- `decomposed`, all values looked up in the range table, /repo/gadget/rangecheck.go:72-117, given the limb
wires of each entry. -/
def Emitted.decomposed (m : Emitted p) (limbs : List (List (ZMod p))) : List (ZMod p) :=
  ((m.entries.zip limbs).map fun e => rangeQueries m.base e.1.v e.1.bits e.1.mode e.2).flatten

/-- The limb wires have the right shape (`NewHint` returns `nbLimbs` wires), the recomposition
equations hold and every element of `decomposed` is in the table. -/
def Emitted.Holds (m : Emitted p) (limbs : List (List (ZMod p))) : Prop :=
  List.Forall₂ (fun e l => l.length = decompSize e.bits m.base ∧ recomposes m.base e.v e.bits e.mode l = true) m.entries limbs ∧
  ∀ q ∈ m.decomposed limbs, inTable m.base q = true

/-- The honest limbs of all entries, /repo/gadget/rangecheck.go:91-98, 129-151. -/
def Emitted.honest (m : Emitted p) : List (List (ZMod p)) :=
  m.entries.map fun e => honestLimbs m.base e.v e.bits e.mode

/-- The constraints emitted by `commit` are satisfiable by some choice of limb wires (nothing emitted:
nothing to satisfy). -/
def commitSat : Option (Emitted p) → Prop
  | none => True
  | some m => ∃ limbs, m.Holds limbs

/-- The constraints emitted by `commit` hold for the honest limb wires. -/
def commitRun : Option (Emitted p) → Prop
  | none => True
  | some m => m.Holds m.honest

/-- `IntGadget`, /repo/gadget/gadget.go:37-46. -/
structure IntGadget (p : ℕ) where
  checker : Checker p
  queries : List (ZMod p)
  rangeSize : ℕ
  pow2Size : ℕ
  numRangeDecompositions : ℕ
  numRangeChunks : ℕ
  numPow2Queries : ℕ

/-- `New`, /repo/gadget/gadget.go:48-52. -/
def IntGadget.new (rangeSize pow2Size : ℕ) : IntGadget p :=
  ⟨Checker.new rangeSize, [], rangeSize, pow2Size, 0, 0, 0⟩

/-- `LookupQueryConstraints`, /repo/gadget/gadget.go:58-60. -/
def IntGadget.lookupQueryConstraints (g : IntGadget p) : ℕ :=
  g.numRangeDecompositions + g.numPow2Queries + g.numRangeChunks

/-- `LookupEntryConstraints`, /repo/gadget/gadget.go:54-56. -/
def IntGadget.lookupEntryConstraints (g : IntGadget p) : ℕ := 2 ^ g.rangeSize + g.pow2Size

/-- `AssertBitLength`, /repo/gadget/gadget.go:67-79. -/
def IntGadget.assertBitLength (g : IntGadget p) (v : ZMod p) (bits : ℕ) (mode : Mode) : Option (IntGadget p) :=
  match g.checker.check v bits mode with
  | none => none
  | some c =>
    if 0 < g.rangeSize then
      let numLimbs := (bits + g.rangeSize - 1) / g.rangeSize
      some { g with
        checker := c
        numRangeDecompositions := g.numRangeDecompositions + (if numLimbs ≠ 1 then 1 else 0)
        numRangeChunks := g.numRangeChunks + numLimbs +
          (if mode = .unknown ∧ bits % g.rangeSize ≠ 0 then 1 else 0) }
    else some { g with checker := c }

/-- The append to `pow2.queries` in `QueryPowerOf2`, /repo/gadget/gadget.go:131-135. -/
def IntGadget.addQuery (g : IntGadget p) (q : ZMod p) : IntGadget p :=
  { g with queries := g.queries ++ [q], numPow2Queries := g.numPow2Queries + 1 }

/-- Defining the circuit with arbitrary hint wires, threading the gadget state: assertions are
enforced, range checks and power-of-two queries recorded. -/
def Exec (strict : Bool) : Circ p α → IntGadget p → α → IntGadget p → Prop
  | .pure a, g, r, g' => r = a ∧ g' = g
  | .hint _ k, g, r, g' => ∃ v, Exec strict (k v) g r g'
  | .assert c k, g, r, g' => c = true ∧ Exec strict k g r g'
  | .soft c k, g, r, g' => (strict = true → c = true) ∧ Exec strict k g r g'
  | .check v n m k, g, r, g' => ∃ g1, g.assertBitLength v n m = some g1 ∧ Exec strict k g1 r g'
  | .query s v k, g, r, g' => s = g.pow2Size ∧ Exec strict k (g.addQuery v) r g'

/-- Defining the circuit with the honest hint wires. -/
def execRun : Circ p α → IntGadget p → Option (α × IntGadget p)
  | .pure a, g => some (a, g)
  | .hint none _, _ => none
  | .hint (some v) k, g => execRun (k v) g
  | .assert c k, g => if c then execRun k g else none
  | .soft c k, g => if c then execRun k g else none
  | .check v n m k, g => match g.assertBitLength v n m with
    | none => none
    | some g1 => execRun k g1
  | .query s v k, g => if s = g.pow2Size then execRun k (g.addQuery v) else none

/-- The complete constraint system of a circuit that creates one gadget: definition, then the two deferred
commits (/repo/gadget/gadget.go:28, 33-35 and /repo/gadget/rangecheck.go:40). -/
def Accepts (be : Backend) (strict : Bool) (size pow2Size : ℕ) (c : Circ p α) (r : α) : Prop :=
  ∃ g, Exec strict c (IntGadget.new size pow2Size) r g ∧ commitSat (g.checker.commit be).1 ∧
    ∀ q ∈ g.queries, pow2Query pow2Size q = true

/-- The honest prover satisfies the complete constraint system, with output `r`. -/
def AcceptsHonest (be : Backend) (size pow2Size : ℕ) (c : Circ p α) (r : α) : Prop :=
  ∃ g, execRun c (IntGadget.new size pow2Size) = some (r, g) ∧ commitRun (g.checker.commit be).1 ∧
    ∀ q ∈ g.queries, pow2Query pow2Size q = true

end ZkLoc
