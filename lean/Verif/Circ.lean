import Mathlib.Data.ZMod.Basic
import Mathlib.Algebra.Field.ZMod

/-!
# Circuits as programs: the constraint language of the model

A gnark circuit is a Go program that is run once against a `frontend.API`.  Running it emits
constraints over a prime field and, for each `NewHint`, fresh witness wires whose values are computed
by *unverified* native code.  We model a circuit as a program in a small free monad `Circ p α`:

* `hint h k`    – `NewHint` (one output wire). `h` is the value the honest prover's hint function
                  returns (`none`: the hint function panics or returns an error).
* `assert c k`  – a constraint that must hold.
* `soft c k`    – a boolean constraint which gnark adds for `Select`/`And`/`Or`/`Xor` operands *unless*
                  the operand is already known to be boolean (`MarkBoolean`, constants, previously
                  asserted).  See `Sat` for how both possibilities are covered.
* `check v n m` – `IntGadget.AssertBitLength(v, n, m)`, /repo/gadget/gadget.go:67-79, recorded in the
                  deferred range checker.
* `query s v`   – one query `v` to the deferred powers-of-two table with `s` entries,
                  /repo/gadget/gadget.go:131-134.

The program is then given two semantics:

* `run b c`     – the honest prover: hint wires take the value returned by the hint function;
                  `some a` iff every constraint holds (then `a` is the circuit's output).
* `Sat b st c a`– an arbitrary (malicious) prover: hint wires are existentially quantified.
                  With `st = false` the `soft` constraints are dropped (most freedom for the prover:
                  used for soundness theorems), with `st = true` they are enforced (least freedom: used
                  for attacks).  gnark's real constraint system lies between the two.

`b` is the base width of the range-check table (`range_size`, or the automatically chosen width).

Trusted idealisation: a log-derivative lookup argument (`logderivarg.Build`, gnark std library, not in
/repo) is modelled as exact membership of every query in the table.
-/

namespace ZkLoc

/-- Range-check modes, /repo/gadget/rangecheck.go:14-20. -/
inductive Mode
  | loose
  | smallAbs
  | unknown
deriving DecidableEq, Repr

/-- Circuit programs over the scalar field `ZMod p` (see the module documentation). -/
inductive Circ (p : ℕ) (α : Type) : Type
  | pure (a : α)
  | hint (honest : Option (ZMod p)) (k : ZMod p → Circ p α)
  | assert (c : Bool) (k : Circ p α)
  | soft (c : Bool) (k : Circ p α)
  | check (v : ZMod p) (bits : ℕ) (mode : Mode) (k : Circ p α)
  | query (size : ℕ) (v : ZMod p) (k : Circ p α)

namespace Circ

variable {p : ℕ} {α β : Type}

/-- Sequential composition of circuit programs. -/
def bind : Circ p α → (α → Circ p β) → Circ p β
  | .pure a, f => f a
  | .hint h k, f => .hint h (fun v => bind (k v) f)
  | .assert c k, f => .assert c (bind k f)
  | .soft c k, f => .soft c (bind k f)
  | .check v n m k, f => .check v n m (bind k f)
  | .query s v k, f => .query s v (bind k f)

instance : Monad (Circ p) where
  pure := Circ.pure
  bind := Circ.bind

end Circ

/-! ## The range checker's constraints for one collected entry -/

/-- `decompSize`, /repo/gadget/rangecheck.go:122-124. -/
def decompSize (varSize limbSize : ℕ) : ℕ := (varSize + limbSize - 1) / limbSize

/-- The limbs computed by `DecomposeHint`, /repo/gadget/rangecheck.go:129-151: `n` limbs of
`limbSize` bits of `tmp = val * scale`, least significant first. -/
def decomposeHint (limbSize : ℕ) : ℕ → ℕ → List ℕ
  | 0, _ => []
  | n + 1, tmp => (tmp % 2 ^ limbSize) :: decomposeHint limbSize n (tmp / 2 ^ limbSize)

/-- `composed = Σ_j limbs[j] * 2^(baseLength*j)`, /repo/gadget/rangecheck.go:102-105
(Horner form of the same sum). -/
def compose {p : ℕ} (b : ℕ) : List (ZMod p) → ZMod p
  | [] => 0
  | l :: ls => l + 2 ^ b * compose b ls

/-- Table `[0, 2^baseLength)` as field elements, /repo/gadget/rangecheck.go:51-57,118-119.
Membership of `v` is decided on the canonical representative (equivalent when `2^b ≤ p`). -/
def inTable {p : ℕ} (b : ℕ) (v : ZMod p) : Bool := decide (v.val < 2 ^ b)

/-- `nbLimbs * baseLength - bits`, /repo/gadget/rangecheck.go:77-78. -/
def slack (b bits : ℕ) : ℕ := decompSize bits b * b - bits

/-- The queries to the range table appended by `commit` for one collected entry,
/repo/gadget/rangecheck.go:80-89 (single limb) and 100, 112-115 (several limbs). -/
def rangeQueries {p : ℕ} (b : ℕ) (v : ZMod p) (bits : ℕ) (mode : Mode) (limbs : List (ZMod p)) :
    List (ZMod p) :=
  if decompSize bits b = 1 then
    (if mode = .smallAbs then v * 2 ^ slack b bits else v) ::
      (if mode = .unknown ∧ slack b bits ≠ 0 then [v * 2 ^ slack b bits] else [])
  else
    limbs ++ (if mode = .unknown ∧ slack b bits ≠ 0 then
      [limbs.getD (decompSize bits b - 1) 0 * 2 ^ slack b bits] else [])

/-- The recomposition equation asserted by `commit` for one collected entry,
/repo/gadget/rangecheck.go:106-110; absent for a single limb. A zero-limb decomposition
makes `NewHint` fail (no outputs), i.e. `commit` panics (line 96-98): modelled as `false`. -/
def recomposes {p : ℕ} (b : ℕ) (v : ZMod p) (bits : ℕ) (mode : Mode) (limbs : List (ZMod p)) : Bool :=
  if decompSize bits b = 0 then false
  else if decompSize bits b = 1 then true
  else decide ((if mode = .smallAbs then v * 2 ^ slack b bits else v) = compose b limbs)

/-- All constraints emitted by `commit` for one collected entry, as a function of the limb wires. -/
def entryOk {p : ℕ} (b : ℕ) (v : ZMod p) (bits : ℕ) (mode : Mode) (limbs : List (ZMod p)) : Bool :=
  recomposes b v bits mode limbs && (rangeQueries b v bits mode limbs).all (inTable b)

/-- Some assignment of the limb wires satisfies the constraints of the entry. -/
def CheckSat {p : ℕ} (b : ℕ) (v : ZMod p) (bits : ℕ) (mode : Mode) : Prop :=
  ∃ limbs : List (ZMod p), limbs.length = decompSize bits b ∧ entryOk b v bits mode limbs = true

/-- The limb wires of the honest prover for one entry, /repo/gadget/rangecheck.go:91-95. -/
def honestLimbs {p : ℕ} (b : ℕ) (v : ZMod p) (bits : ℕ) (mode : Mode) : List (ZMod p) :=
  (decomposeHint b (decompSize bits b)
    (v.val * (if mode = .smallAbs then 2 ^ slack b bits else 1))).map (fun n : ℕ => (n : ZMod p))

/-- The honest prover satisfies the constraints of the entry. -/
def checkRun {p : ℕ} (b : ℕ) (v : ZMod p) (bits : ℕ) (mode : Mode) : Bool :=
  entryOk b v bits mode (honestLimbs b v bits mode)

/-- Membership of a query in the powers-of-two table: entry `i` is `i * 2^size + 2^i`,
/repo/gadget/gadget.go:16-31. -/
def pow2Query {p : ℕ} (size : ℕ) (v : ZMod p) : Bool :=
  (List.range size).any (fun i => decide (v = ((i * 2 ^ size + 2 ^ i : ℕ) : ZMod p)))

namespace Circ

variable {p : ℕ} {α β : Type}

/-- Honest execution. -/
def run (b : ℕ) : Circ p α → Option α
  | .pure a => some a
  | .hint none _ => none
  | .hint (some v) k => run b (k v)
  | .assert c k => if c then run b k else none
  | .soft c k => if c then run b k else none
  | .check v n m k => if checkRun b v n m then run b k else none
  | .query s v k => if pow2Query s v then run b k else none

/-- Satisfiability with output `r`: some assignment of all hint wires satisfies all constraints. -/
def Sat (b : ℕ) (strict : Bool) : Circ p α → α → Prop
  | .pure a, r => r = a
  | .hint _ k, r => ∃ v, Sat b strict (k v) r
  | .assert c k, r => c = true ∧ Sat b strict k r
  | .soft c k, r => (strict = true → c = true) ∧ Sat b strict k r
  | .check v n m k, r => CheckSat b v n m ∧ Sat b strict k r
  | .query s v k, r => pow2Query s v = true ∧ Sat b strict k r

end Circ

/-! ## The `frontend.API` operations used by the repository -/

section Api
variable {p : ℕ}

/-- `NewHint` with one output. -/
def newHint (h : Option (ZMod p)) : Circ p (ZMod p) := .hint h .pure

/-- `b*(1-b) = 0`. -/
def isBool (v : ZMod p) : Bool := decide (v = 0) || decide (v = 1)

/-- `api.AssertIsBoolean`. -/
def assertIsBoolean (v : ZMod p) : Circ p Unit := .assert (isBool v) (.pure ())

/-- `api.AssertIsEqual`. -/
def assertIsEqual (a b : ZMod p) : Circ p Unit := .assert (decide (a = b)) (.pure ())

/-- Boolean constraint that gnark may elide. -/
def softBool (v : ZMod p) : Circ p Unit := .soft (isBool v) (.pure ())

/-- Value of `api.Select(c, x, y)`: gnark computes `c*(x-y) + y`. -/
def sel (c x y : ZMod p) : ZMod p := c * (x - y) + y

/-- `api.Select(c, x, y)`. -/
def select (c x y : ZMod p) : Circ p (ZMod p) := do softBool c; pure (sel c x y)

/-- `api.And(a, b)`. -/
def and' (a b : ZMod p) : Circ p (ZMod p) := do softBool a; softBool b; pure (a * b)

/-- `api.Or(a, b)`. -/
def or' (a b : ZMod p) : Circ p (ZMod p) := do softBool a; softBool b; pure (a + b - a * b)

/-- `api.Xor(a, b)`. -/
def xor' (a b : ZMod p) : Circ p (ZMod p) := do softBool a; softBool b; pure (a + b - 2 * a * b)

/-- `api.IsZero(v)` (gnark's own gadget, deterministic and sound). -/
def isZero (v : ZMod p) : ZMod p := if v = 0 then 1 else 0

/-- `api.Inverse(v)`: gnark asserts `v * v⁻¹ = 1`, hence `v ≠ 0`. -/
def inverse (v : ZMod p) : Circ p (ZMod p) := .assert (decide (v ≠ 0)) (.pure v⁻¹)

/-- `IntGadget.AssertBitLength`, /repo/gadget/gadget.go:67-79 (its effect on the constraint system:
the entry is recorded in the deferred range checker; the cost counters are modelled separately). -/
def assertBitLength (v : ZMod p) (bits : ℕ) (mode : Mode) : Circ p Unit := .check v bits mode (.pure ())

end Api

end ZkLoc
