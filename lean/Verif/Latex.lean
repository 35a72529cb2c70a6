import Verif.Bench

/-!
# Model of `scripts/generate_latex_table_tests.py`

The loops that read the logs are in `Verif/Bench.lean`. Strings are lists of characters.
-/

namespace ZkLoc.Bench

open Text

/-- The third fields of the lines with more than two fields, /repo/scripts/generate_latex_table_tests.py:4-6. -/
def thirdField (line : List Char) : Option (List Char) :=
  match fields line with
  | _ :: _ :: r :: _ => some r
  | _ => none

/-- The resolutions counted by `read_test_cases`, /repo/scripts/generate_latex_table_tests.py:1-9, in the order of the lines. `none` is a `ValueError`. `int(_, 16)` is modelled on texts of
hexadecimal digits only (it also takes a sign, a prefix and underscores). -/
def caseResolutions (text : List Char) : Option (List ℕ) := ((scanLines text).filterMap thirdField).mapM (hexNat 0)

/-- `read_test_cases`, lines 9-10: the dictionary of the numbers of test cases by resolution. -/
def testCases (rs : List ℕ) (r : ℕ) : Option ℕ := if r ∈ rs then some (rs.count r) else none

/-- `max(test_cases.keys())`, line 40. (The script raises a `ValueError` on an empty dictionary; here it is zero.) -/
def maxCase (rs : List ℕ) : ℕ := rs.foldr max 0

/-- `' & '.join`, /repo/scripts/generate_latex_table_tests.py:85 and 94. -/
def joinAmp : List (List Char) → List Char
  | [] => []
  | [x] => x
  | x :: y :: l => x ++ " & ".toList ++ joinAmp (y :: l)

/-- A cell, line 93. -/
def latexCell (green : Bool) : List Char := "\\cellcolor{".toList ++ (if green then "green".toList else "red".toList) ++ "!25}".toList

/-- The results of one circuit: a label and the outcomes by resolution. -/
abbrev Results := List Char × (ℕ → Option (List Bool))

/-- The resolutions of a group, lines 85 and 91: `range(group + 1, group + resolutions_per_row + 1)`. -/
def groupRes (R group : ℕ) : List ℕ := (List.range R).map (fun m => group + 1 + m)

/-- The row of a label, lines 90-94, without the newline; a resolution without results is shown green. -/
def latexRow (R T group : ℕ) (d : Results) : List Char :=
  "\\textbf{".toList ++ d.1 ++ "} ".toList ++ " & ".toList ++
    joinAmp ((groupRes R group).flatMap (fun res => ((d.2 res).getD (List.replicate T true)).map latexCell)) ++ " \\\\".toList

/-- A rule, lines 80, 82, 87 and 95. -/
def rule (start stop : ℕ) : List Char := "\\cmidrule(l){".toList ++ formatUint 10 start ++ "-".toList ++ formatUint 10 stop ++ "}".toList

/-- The header of a group, lines 85-86. -/
def headerRow (R T group : ℕ) : List Char :=
  "& ".toList ++ joinAmp ((groupRes R group).map (fun res => "\\multicolumn{".toList ++ formatUint 10 T ++ "}{c}{\\customarrowLeft{4.2em} \\textbf{".toList ++ formatUint 10 res ++
    "} \\customarrowRight{4.2em}}".toList)) ++ " \\\\".toList

/-- The lines of a group, lines 84-95. -/
def groupLines (R T : ℕ) (data : List Results) (group : ℕ) : List (List Char) :=
  headerRow R T group :: rule 2 (R * T + 1) :: data.flatMap (fun d => [latexRow R T group d, rule 2 (R * T + 1)])

/-- `range(0, 15, resolutions_per_row)`, line 84. -/
def groups (R : ℕ) : List ℕ := (List.range 15).filter (fun g => decide (g % R = 0))

/-- The first lines, /repo/scripts/generate_latex_table_tests.py:75-78. -/
def latexHead : List (List Char) := ["\\begin{table*}[!t]".toList, "\\centering".toList,
  "\\caption{Testing $\\CircuitZKLP$ for resolutions $1$ to $15$ for single precision and double precision floating-point values. For a given resolution, test cases logarithmically approach the boundary of a given hexagon. If a cell is green, proof generation succeeds. If a cell is red, proof generation fails. All tests are executed for Groth16 over curve BN254.}".toList,
  "\\renewcommand{\\arraystretch}{0.8}".toList]

/-- The lines of the table, `generate_latex_table`, /repo/scripts/generate_latex_table_tests.py:75-99. -/
def latexLines (R T : ℕ) (data : List Results) : List (List Char) :=
  latexHead ++ [
    "\\begin{tabularx}{\\textwidth}{l*{".toList ++ formatUint 10 (R * T) ++ "}{p{0.2mm}|}}".toList, rule 1 (R * T + 1),
    "& \\multicolumn{".toList ++ formatUint 10 (R * T) ++ "}{c}{\\textbf{Resolution}} \\\\".toList, rule 2 (R * T + 1)] ++
  (groups R).flatMap (groupLines R T data) ++ ["\\end{tabularx}".toList]

/-- `generate_latex_table`: every line but the last ends in a newline. -/
def latexTable (R T : ℕ) (data : List Results) : List Char := (latexLines R T data).flatMap (fun l => l ++ ['\n']) ++ "\\end{table*}".toList

/-- The texts searched for by `read_test_results_P6`, lines 57 and 65. -/
def passP : List Char := "--- PASS: TestLoc2IndexFromFile/bn254".toList
/-- ditto -/
def failP : List Char := "--- FAIL: TestLoc2IndexFromFile/".toList

/-- The script, /repo/scripts/generate_latex_table_tests.py:101-115: the cases of single precision are used for all four rows (the ones of double precision are read, line 111, and not used),
and the log of double precision is searched for the texts of single precision (line 112). `none` is an exception. The files are given as texts and lists of lines. -/
def latexScript (cases32 cases64 : List Char) (logP6 logP12 log32 log64 : List (List Char)) : Option (List Char) := do
  let rs ← caseResolutions cases32
  let p6 ← readTestResults passP failP (testCases rs) (maxCase rs) logP6
  let p12 ← readTestResults passP failP (testCases rs) (maxCase rs) logP12
  let r32 ← readTestResults pass32 fail32 (testCases rs) (maxCase rs) log32
  let _ ← caseResolutions cases64
  let r64 ← readTestResults pass32 fail32 (testCases rs) (maxCase rs) log64
  pure (latexTable 5 9 [("P6".toList, p6), ("P12".toList, p12), ("F32".toList, r32), ("F64".toList, r64)])

end ZkLoc.Bench
