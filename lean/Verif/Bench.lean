import Verif.Text

/-!
# Model of the benchmark harness and of the test-data files

The steps of gnark (`frontend.Compile`, `groth16.Setup`, ...) are outside the model: their answers are the input (`World`). A file is
the list of its lines (every line written by the code ends in a newline, so the size of the file is zero if and only if there is no line).
-/

namespace ZkLoc.Bench
open ZkLoc.Text

/-- What the functions called by one run of a benchmark answer: `none` and `false` are errors. `times` are the measured durations. -/
structure World (Cs Wit Srs Keys Proof : Type) where
  openOk : Bool
  statOk : Bool
  headerOk : Bool
  rowOk : Bool
  compile : Option Cs
  nbConstraints : Cs → ℕ
  witness : Option Wit
  srs : Cs → Option Srs
  setupG : Cs → Option Keys
  setupP : Cs → Option Srs → Option Keys
  prove : Cs → Keys → Wit → Option Proof
  verify : Proof → Keys → Wit → Bool
  times : ℤ × ℤ × ℤ × ℤ

/-- How a benchmark function ends. -/
inductive Outcome
  | ok
  | error
  | panicked
deriving DecidableEq

/-- `%d` of `fmt` for an integer. -/
def formatInt (n : ℤ) : List Char := if n < 0 then '-' :: formatUint 10 n.natAbs else formatUint 10 n.natAbs

/-- The header line, /repo/util/util.go:540 and 625. -/
def header : List Char := "Resolution, Index, NbConstraints, CompilationTime, SetupTime, ProverTime, VerifierTime".toList

/-- Seven columns separated by `", "`: the format of /repo/util/util.go:599 and 691. -/
def row (resolution index : ℤ) (nb : ℕ) (times : ℤ × ℤ × ℤ × ℤ) : List Char :=
  formatInt resolution ++ [',', ' '] ++ formatInt index ++ [',', ' '] ++ formatInt nb ++ [',', ' '] ++ formatInt times.1 ++ [',', ' '] ++
    formatInt times.2.1 ++ [',', ' '] ++ formatInt times.2.2.1 ++ [',', ' '] ++ formatInt times.2.2.2

variable {Cs Wit Srs Keys Proof : Type}

/-- The opening of the result file, /repo/util/util.go:527-545 and 612-630: the header is written into an empty file. `none` is an error. -/
def openFile (w : World Cs Wit Srs Keys Proof) (file : List (List Char)) : Option (List (List Char)) :=
  if !w.openOk then none
  else if !w.statOk then none
  else if file = [] then (if w.headerOk then some [header] else none)
  else some file

/-- `BenchProofToFileGroth16`, /repo/util/util.go:525-608. The error of `NewWitness` (line 566) is overwritten by that of `Setup`; proving with the nil
witness then panics. The result of `Verify` (line 591) is dropped: the `err` tested at line 592 is that of line 581. -/
def benchFileGroth16 (w : World Cs Wit Srs Keys Proof) (resolution index : ℤ) (file : List (List Char)) : List (List Char) × Outcome :=
  match openFile w file with
  | none => (file, .error)
  | some file =>
    match w.compile with
    | none => (file, .error)
    | some cs =>
      match w.setupG cs with
      | none => (file, .error)
      | some keys =>
        match w.witness with
        | none => (file, .panicked)
        | some wit =>
          match w.prove cs keys wit with
          | none => (file, .error)
          | some proof =>
            let _verified := w.verify proof keys wit
            if w.rowOk then (file ++ [row resolution index (w.nbConstraints cs) w.times], .ok) else (file, .error)

/-- `BenchProofToFilePlonk`, /repo/util/util.go:610-700. An error of `NewSRS` panics (line 657); the error of `NewWitness` (line 651) is overwritten, as in
`BenchProofToFileGroth16`. The error of `Verify` is tested (line 685). -/
def benchFilePlonk (w : World Cs Wit Srs Keys Proof) (resolution index : ℤ) (file : List (List Char)) : List (List Char) × Outcome :=
  match openFile w file with
  | none => (file, .error)
  | some file =>
    match w.compile with
    | none => (file, .error)
    | some cs =>
      match w.srs cs with
      | none => (file, .panicked)
      | some srs =>
        match w.setupP cs (some srs) with
        | none => (file, .error)
        | some keys =>
          match w.witness with
          | none => (file, .panicked)
          | some wit =>
            match w.prove cs keys wit with
            | none => (file, .error)
            | some proof =>
              if w.verify proof keys wit then
                (if w.rowOk then (file ++ [row resolution index (w.nbConstraints cs) w.times], .ok) else (file, .error))
              else (file, .error)

/-- `BenchProofMemoryGroth16`, /repo/util/util.go:702-750. The result of `Verify` (line 747) is dropped. -/
def benchMemoryGroth16 (w : World Cs Wit Srs Keys Proof) : Outcome :=
  match w.compile with
  | none => .error
  | some cs =>
    match w.witness with
    | none => .error
    | some wit =>
      match w.setupG cs with
      | none => .error
      | some keys =>
        match w.prove cs keys wit with
        | none => .error
        | some proof =>
          let _verified := w.verify proof keys wit
          .ok

/-- `BenchProofMemoryPlonk`, /repo/util/util.go:752-806. The error of `NewSRS` (line 766) is overwritten by that of `Setup`. -/
def benchMemoryPlonk (w : World Cs Wit Srs Keys Proof) : Outcome :=
  match w.compile with
  | none => .error
  | some cs =>
    match w.witness with
    | none => .error
    | some wit =>
      match w.setupP cs (w.srs cs) with
      | none => .error
      | some keys =>
        match w.prove cs keys wit with
        | none => .error
        | some proof => if w.verify proof keys wit then .ok else .error

/-- The loop of `BenchProof`, /repo/util/util.go:511-522, for the proofs obtained in the successive iterations. The result of `Verify` (line 521) is dropped. -/
def proveLoop (verify : Proof → Bool) : List (Option Proof) → Outcome
  | [] => .ok
  | none :: _ => .error
  | some proof :: ps =>
    let _verified := verify proof
    proveLoop verify ps

/-- `BenchProof`, /repo/util/util.go:491-523: `require.NoError` ends the benchmark with a failure. Proving is
randomised, so the twenty iterations may answer differently: `prove i`. -/
def benchProof (w : World Cs Wit Srs Keys Proof) (prove : ℕ → Cs → Keys → Wit → Option Proof) : Outcome :=
  match w.compile with
  | none => .error
  | some cs =>
    match w.witness with
    | none => .error
    | some wit =>
      match w.setupG cs with
      | none => .error
      | some keys => proveLoop (fun proof => w.verify proof keys wit) ((List.range 20).map (fun i => prove i cs keys wit))

/-- One call of a benchmark function that writes to a file. -/
structure Run (Cs Wit Srs Keys Proof : Type) where
  plonk : Bool
  world : World Cs Wit Srs Keys Proof
  resolution : ℤ
  index : ℤ

/-- The call. -/
def Run.exec (r : Run Cs Wit Srs Keys Proof) (file : List (List Char)) : List (List Char) × Outcome :=
  if r.plonk then benchFilePlonk r.world r.resolution r.index file else benchFileGroth16 r.world r.resolution r.index file

/-- The loops of `BenchmarkLoc2IndexProof`, /repo/loc2index32/loc2index32_test.go:346-358 and /repo/loc2index64/loc2index64_test.go:260-272, over one file: an
error is logged and the next entry is tried; a panic ends the process. -/
def execAll : List (Run Cs Wit Srs Keys Proof) → List (List Char) → List (List Char)
  | [], file => file
  | r :: rs, file =>
    match r.exec file with
    | (file, .panicked) => file
    | (file, _) => execAll rs file

/-! ### The test-data files -/

/-- White space for `strings.Fields` and Python's `split`, ASCII. -/
def isSpace (c : Char) : Bool := isSpc c || c = '\x0b'

/-- `strings.Fields`: the maximal runs of characters other than white space; `cur` is the run being read, reversed. -/
def fieldsAux : List Char → List Char → List (List Char)
  | cur, [] => if cur = [] then [] else [cur.reverse]
  | cur, c :: s =>
    if isSpace c then (if cur = [] then fieldsAux [] s else cur.reverse :: fieldsAux [] s) else fieldsAux (c :: cur) s

/-- `strings.Fields` -/
def fields (s : List Char) : List (List Char) := fieldsAux [] s

/-- `bufio.ScanLines` drops one carriage return at the end of a line. -/
def dropCR (s : List Char) : List Char := if s.getLast? = some '\r' then s.dropLast else s

/-- `bufio.Scanner` with `ScanLines`: a text that does not end in a newline has a last line if it is not empty. The limit of 64 KiB for a line is not modelled. -/
def scanAux : List Char → List Char → List (List Char)
  | cur, [] => if cur = [] then [] else [dropCR cur.reverse]
  | cur, c :: s => if c = '\n' then dropCR cur.reverse :: scanAux [] s else scanAux (c :: cur) s

/-- The lines of a text. -/
def scanLines (s : List Char) : List (List Char) := scanAux [] s

/-- Hexadecimal digits of any length. -/
def hexNat : ℕ → List Char → Option ℕ
  | acc, [] => some acc
  | acc, c :: s =>
    match digitVal c with
    | none => none
    | some d => if d < 16 then hexNat (acc * 16 + d) s else none

/-- `new(big.Int).SetString(s, 16)`: an optional sign and at least one digit. -/
def setString16 : List Char → Option ℤ
  | [] => none
  | c :: s =>
    if c = '-' then (if s = [] then none else (hexNat 0 s).map (fun n : ℕ => -(n : ℤ)))
    else if c = '+' then (if s = [] then none else (hexNat 0 s).map (fun n : ℕ => (n : ℤ)))
    else (hexNat 0 (c :: s)).map (fun n : ℕ => (n : ℤ))

/-- An entry of a location test file. -/
structure Entry where
  lat : ℤ
  lng : ℤ
  res : ℤ
  i : ℤ
  j : ℤ
  k : ℤ
deriving DecidableEq

/-- One line of a location test file, /repo/loc2index32/loc2index32_test.go:312-319 (and 167-174, 278-285, 371-378; /repo/loc2index64/loc2index64_test.go:181-188,
227-234, 286-293). `none`: fewer than six fields (index out of range) or a text that is not a number (the nil number is dereferenced, or rejected as assignment). -/
def readEntry (line : List Char) : Option Entry :=
  match fields line with
  | a :: b :: r :: i :: j :: k :: _ => do
    let lat ← setString16 a
    let lng ← setString16 b
    let res ← setString16 r
    let i ← setString16 i
    let j ← setString16 j
    let k ← setString16 k
    pure ⟨lat, lng, res, i, j, k⟩
  | _ => none

/-- A location test file, /repo/loc2index32/loc2index32_test.go:310-336. -/
def readEntries (text : List Char) : Option (List Entry) := (scanLines text).mapM readEntry

/-- The indices given to the entries, /repo/loc2index32/loc2index32_test.go:308, 325, 335 (`resolutionCounts`): `counts` is the map, absent keys are zero. -/
def indicesAux (counts : ℤ → ℕ) : List ℤ → List ℕ
  | [] => []
  | r :: rs =>
    let counts := Function.update counts r (counts r + 1)
    counts r :: indicesAux counts rs

/-- The column `indices` for the column `resolutions`. -/
def indices (resolutions : List ℤ) : List ℕ := indicesAux (fun _ => 0) resolutions

/-- A hexadecimal digit, upper case. -/
def upperChar (d : ℕ) : Char := Char.ofNat (if d < 10 then 48 + d else 55 + d)

/-- Python's `{:X}` for a natural number. -/
def formatUpper (n : ℕ) : List Char :=
  if _h : n < 16 then [upperChar n] else formatUpper (n / 16) ++ [upperChar (n % 16)]
termination_by n
decreasing_by omega

/-- Python's `{:08X}` and `{:016X}`: padded with zeros on the left. -/
def formatPadded (width n : ℕ) : List Char := List.replicate (width - (formatUpper n).length) '0' ++ formatUpper n

/-- A line of `write_to_file`, /repo/data/generate_test_loc2index.py:145: bit patterns of the coordinates (`width` is 8 or 16), resolution and cell. -/
def writeLine (width lat lng res i j k : ℕ) : List Char :=
  formatPadded width lat ++ [' '] ++ formatPadded width lng ++ [' '] ++ formatUpper res ++ [' '] ++ formatUpper i ++ [' '] ++ formatUpper j ++ [' '] ++
    formatUpper k ++ ['\n']

/-! ### The output of `latLngToCell` and `cellToLatLng` -/

/-- `\w` -/
def isWord (c : Char) : Bool := isDig c || decide (65 ≤ c.toNat ∧ c.toNat ≤ 90) || decide (97 ≤ c.toNat ∧ c.toNat ≤ 122) || c = '_'

/-- The parsing part of `latLngToCell`, /repo/proximity/proximity.go:110-116: the leftmost match of `--- (\w+)`. -/
def parseIndex : List Char → Option (List Char)
  | [] => none
  | c :: s =>
    match (lit ['-', '-', '-', ' '] (c :: s)).bind (run1 isWord) with
    | some (w, _) => some w
    | none => parseIndex s

/-- The parsing part of `cellToLatLng`, /repo/proximity/proximity.go:126-139: the texts handed to `strconv.ParseFloat` (which is not modelled). -/
def parseLatLng (output : List Char) : Option (List Char × List Char) :=
  match fields output with
  | a :: b :: _ => some (a, b)
  | _ => none

/-! ### The table of test results -/

/-- State of the loop of `read_test_results`: colours by resolution (`true` is green), the current test and resolution, lines to skip. -/
structure Scan where
  results : ℕ → Option (List Bool)
  test : ℕ
  res : ℕ
  skip : ℕ

/-- What follows a counted test, /repo/scripts/generate_latex_table_tests.py:27-30 and 36-38. `none` is a `KeyError`. -/
def advance (cases : ℕ → Option ℕ) (st : Scan) : Option Scan :=
  match cases st.res with
  | none => none
  | some n => some (if st.test = n then { st with test := 0, res := st.res + 1 } else st)

/-- The body of the loop, /repo/scripts/generate_latex_table_tests.py:21-41 (and 53-71, which differs in the two texts searched for). The second component says
whether the loop is left (line 40). `none` is a `KeyError`. -/
def scanLine (pass fail : List Char) (cases : ℕ → Option ℕ) (maxKey : ℕ) (st : Scan) (line : List Char) : Option (Scan × Bool) :=
  if 0 < st.skip then some ({ st with skip := st.skip - 1 }, false)
  else do
    let st ←
      if pass <:+: line then advance cases { st with skip := 2, test := st.test + 1 }
      else if fail <:+: line then
        match st.results st.res with
        | none => none
        | some l => advance cases { st with test := st.test + 1, results := Function.update st.results st.res (some (l.set st.test false)) }
      else some st
    pure (st, decide (maxKey < st.res ∧ st.test = 9))

/-- The loop. -/
def scanLog (pass fail : List Char) (cases : ℕ → Option ℕ) (maxKey : ℕ) : Scan → List (List Char) → Option Scan
  | st, [] => some st
  | st, l :: ls =>
    match scanLine pass fail cases maxKey st l with
    | none => none
    | some (st, true) => some st
    | some (st, false) => scanLog pass fail cases maxKey st ls

/-- `read_test_results`, /repo/scripts/generate_latex_table_tests.py:12-42: every test is green until a failure is found. -/
def readTestResults (pass fail : List Char) (cases : ℕ → Option ℕ) (maxKey : ℕ) (log : List (List Char)) : Option (ℕ → Option (List Bool)) :=
  (scanLog pass fail cases maxKey ⟨fun r => (cases r).map (fun n => List.replicate n true), 0, 0, 0⟩ log).map Scan.results

/-- The texts searched for by `read_test_results`, lines 24 and 33. -/
def pass32 : List Char := "--- PASS: TestLoc2Index32/bn254".toList
/-- ditto -/
def fail32 : List Char := "--- FAIL: TestLoc2Index32/".toList

end ZkLoc.Bench
