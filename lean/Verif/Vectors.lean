import Verif.Bench
import Verif.Circuits

/-!
# The tests of /repo/float/float_test.go

A directory is a function from file names to the texts of the files (`none`: there is no such file). `os.Open` fails for a missing file,
the error is dropped, and the scanner of the nil file has no line. A test passes if no line makes an assertion fail or the program panic.
`assert.ProverSucceeded` of gnark runs the honest prover in the test engine, with GROTH16 and with PLONK over BN254: here `AcceptsHonest` for every kind of
constraint system. The cryptographic part of the back-ends is not modelled.
-/

namespace ZkLoc.Vectors
open ZkLoc.Bench ZkLoc.Text

variable {p : ℕ}

/-- `assert.ProverSucceeded`: the honest prover satisfies the circuit under every back-end. -/
def succeeds (f : Fmt) (c : Circ p Unit) : Prop := ∀ be : Backend, AcceptsHonest be 0 f.pow2Size c ()

/-- The lines that `bufio.NewScanner(file)` delivers for `file, _ := os.Open(path)`. -/
def linesOf : Option (List Char) → List (List Char)
  | none => []
  | some text => scanLines text

/-- Binary digits of any length. -/
def binNat : ℕ → List Char → Option ℕ
  | acc, [] => some acc
  | acc, c :: s =>
    match digitVal c with
    | none => none
    | some d => if d < 2 then binNat (acc * 2 + d) s else none

/-- `new(big.Int).SetString(s, 2)` -/
def setString2 : List Char → Option ℤ
  | [] => none
  | c :: s =>
    if c = '-' then (if s = [] then none else (binNat 0 s).map (fun n : ℕ => -(n : ℤ)))
    else if c = '+' then (if s = [] then none else (binNat 0 s).map (fun n : ℕ => (n : ℤ)))
    else (binNat 0 (c :: s)).map (fun n : ℕ => (n : ℤ))

/-- The loop of `strconv.ParseUint(s, 16, bits)` with the value it returns beside an error: zero for a character that is no digit, the greatest
number for one that is too large. -/
def parseLoopGo (bits : ℕ) : ℕ → List Char → ℕ
  | acc, [] => acc
  | acc, c :: s =>
    match digitVal c with
    | none => 0
    | some d => if 16 ≤ d then 0 else if acc * 16 + d < 2 ^ bits then parseLoopGo bits (acc * 16 + d) s else 2 ^ bits - 1

/-- The first result of `strconv.ParseUint(s, 16, bits)`. -/
def parseUintGo (bits : ℕ) (s : List Char) : ℕ := if s = [] then 0 else parseLoopGo bits 0 s

/-- The conversion `int32(b)` (`bits = 32`) and `int64(b)` (`bits = 64`) of an unsigned number. -/
def wrapInt (bits n : ℕ) : ℤ := if n % 2 ^ bits < 2 ^ (bits - 1) then (n % 2 ^ bits : ℕ) else (n % 2 ^ bits : ℕ) - 2 ^ bits

/-- The body of the loop of `TestF32UnaryCircuit`, /repo/float/float_test.go:178-187 (`TestF64UnaryCircuit`, 310-319). -/
def unaryLine (f : Fmt) (op : FloatVar p → Circ p (FloatVar p)) (line : List Char) : Prop :=
  match fields line with
  | a :: b :: _ =>
    match setString16 a, setString16 b with
    | some x, some y => succeeds f (unaryCircuit f op (x : ZMod p) (y : ZMod p))
    | _, _ => False
  | _ => False

/-- The body of the loop of `TestF32BinaryCircuit`, /repo/float/float_test.go:204-214 (`TestF64BinaryCircuit`, 336-346). -/
def binaryLine (f : Fmt) (op : FloatVar p → FloatVar p → Circ p (FloatVar p)) (line : List Char) : Prop :=
  match fields line with
  | a :: b :: c :: _ =>
    match setString16 a, setString16 b, setString16 c with
    | some x, some y, some z => succeeds f (binaryCircuit f op (x : ZMod p) (y : ZMod p) (z : ZMod p))
    | _, _, _ => False
  | _ => False

/-- The body of the loop of `TestF32ComparisonCircuit`, /repo/float/float_test.go:231-241 (`TestF64ComparisonCircuit`, 363-373). -/
def comparisonLine (f : Fmt) (op : FloatVar p → FloatVar p → Circ p (ZMod p)) (line : List Char) : Prop :=
  match fields line with
  | a :: b :: c :: _ =>
    match setString16 a, setString16 b, setString2 c with
    | some x, some y, some z => succeeds f (comparisonCircuit f op (x : ZMod p) (y : ZMod p) (z : ZMod p))
    | _, _, _ => False
  | _ => False

/-- The body of the loop of `TestF32ConstantAllocation`, /repo/float/float_test.go:255-263 (`TestF64ConstantAllocation`, 387-395). `Uint64` takes the
64 low bits of the absolute value. -/
def allocationLine (f : Fmt) (line : List Char) : Prop :=
  match fields line with
  | a :: _ =>
    match setString16 a with
    | some x => succeeds f (allocationCircuit f (x : ZMod p) (x.natAbs % 2 ^ 64))
    | none => False
  | _ => False

/-- The body of the loop of `TestF32ConversionCircuit`, /repo/float/float_test.go:279-293 (`TestF64ConversionCircuit`, 411-425): lines with the third field
`10` are skipped. -/
def conversionLine (f : Fmt) (bits : ℕ) (op : FloatVar p → Circ p (FloatVar p)) (line : List Char) : Prop :=
  match fields line with
  | a :: b :: c :: _ =>
    if c = ['1', '0'] then True
    else
      match setString16 a with
      | some x => succeeds f (conversionCircuit f op (x : ZMod p) ((wrapInt bits (parseUintGo bits b) : ℤ) : ZMod p))
      | none => False
  | _ => False

/-- `strings.ToLower`, ASCII. -/
def lower (s : List Char) : List Char := s.map fun c => if 65 ≤ c.toNat ∧ c.toNat ≤ 90 then Char.ofNat (c.toNat + 32) else c

/-- The methods of `TestF32UnaryCircuit` and `TestF64UnaryCircuit`, /repo/float/float_test.go:169 and 301. -/
def unaryOps (f : Fmt) : List (List Char × (FloatVar p → Circ p (FloatVar p))) :=
  [("Sqrt".toList, fSqrt f), ("Trunc".toList, fTrunc f), ("Floor".toList, fFloor f), ("Ceil".toList, fCeil f)]

/-- The methods of `TestF32BinaryCircuit` and `TestF64BinaryCircuit`, /repo/float/float_test.go:195 and 327. -/
def binaryOps (f : Fmt) : List (List Char × (FloatVar p → FloatVar p → Circ p (FloatVar p))) :=
  [("Add".toList, fAdd f), ("Sub".toList, fSub f), ("Mul".toList, fMul f), ("Div".toList, fDiv f)]

/-- The methods of `TestF32ComparisonCircuit` and `TestF64ComparisonCircuit`, /repo/float/float_test.go:222 and 354. -/
def comparisonOps (f : Fmt) : List (List Char × (FloatVar p → FloatVar p → Circ p (ZMod p))) :=
  [("IsLt".toList, fIsLt f), ("IsLe".toList, fIsLe f), ("IsGt".toList, fIsGt f), ("IsGe".toList, fIsGe f)]

/-- The methods of `TestF32ConversionCircuit` and `TestF64ConversionCircuit`, /repo/float/float_test.go:270 and 402. -/
def conversionOps (f : Fmt) : List (List Char × (FloatVar p → Circ p (FloatVar p))) :=
  [("Trunc".toList, fTrunc f), ("Floor".toList, fFloor f), ("Ceil".toList, fCeil f)]

/-- `TestF32UnaryCircuit` and `TestF64UnaryCircuit`, /repo/float/float_test.go:166-190 and 298-322, on the directory `dir` (../data/f32 or ../data/f64), for a list of methods. -/
def unaryTest (f : Fmt) (ops : List (List Char × (FloatVar p → Circ p (FloatVar p)))) (dir : List Char → Option (List Char)) : Prop :=
  ∀ o ∈ ops, ∀ line ∈ linesOf (dir (lower o.1)), unaryLine f o.2 line

/-- `TestF32BinaryCircuit` and `TestF64BinaryCircuit`, /repo/float/float_test.go:192-217 and 324-349. -/
def binaryTest (f : Fmt) (ops : List (List Char × (FloatVar p → FloatVar p → Circ p (FloatVar p)))) (dir : List Char → Option (List Char)) : Prop :=
  ∀ o ∈ ops, ∀ line ∈ linesOf (dir (lower o.1)), binaryLine f o.2 line

/-- `TestF32ComparisonCircuit` and `TestF64ComparisonCircuit`, /repo/float/float_test.go:219-244 and 351-376: the file is named after the method without `Is`. -/
def comparisonTest (f : Fmt) (ops : List (List Char × (FloatVar p → FloatVar p → Circ p (ZMod p)))) (dir : List Char → Option (List Char)) : Prop :=
  ∀ o ∈ ops, ∀ line ∈ linesOf (dir (lower (o.1.drop 2))), comparisonLine f o.2 line

/-- `TestF32ConstantAllocation` and `TestF64ConstantAllocation`, /repo/float/float_test.go:246-265 and 378-397. -/
def allocationTest (p : ℕ) (f : Fmt) (dir : List Char → Option (List Char)) : Prop :=
  ∀ line ∈ linesOf (dir "add".toList), allocationLine (p := p) f line

/-- `TestF32ConversionCircuit` (`bits = 32`) and `TestF64ConversionCircuit` (`bits = 64`), /repo/float/float_test.go:267-296 and 399-428. -/
def conversionTest (f : Fmt) (bits : ℕ) (ops : List (List Char × (FloatVar p → Circ p (FloatVar p)))) (dir : List Char → Option (List Char)) : Prop :=
  ∀ o ∈ ops, ∀ line ∈ linesOf (dir ((if bits = 32 then "to_i32_".toList else "to_i64_".toList) ++ lower o.1)), conversionLine f bits o.2 line

end ZkLoc.Vectors
