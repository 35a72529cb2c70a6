import Mathlib.Init

/-!
# Specification: reading a table of coloured cells

The rows of a LaTeX table whose text starts with a bold label; the cells are separated by `&` and have a colour as in `\cellcolor{green!25}`.
-/

namespace LatexTable

/-- The pieces of a text between the occurrences of a character. -/
def pieces (c : Char) : List Char → List (List Char)
  | [] => [[]]
  | x :: s =>
    if x = c then [] :: pieces c s
    else
      match pieces c s with
      | w :: ws => (x :: w) :: ws
      | [] => [[x]]

/-- What is between the first `a` and the next `b`. -/
def between (a b : Char) (s : List Char) : List Char := ((s.dropWhile (fun c => decide (c ≠ a))).drop 1).takeWhile (fun c => decide (c ≠ b))

/-- The label and the colours of a row. -/
def rowOf (line : List Char) : List Char × List (List Char) :=
  match pieces '&' line with
  | label :: cells => (between '{' '}' label, cells.map (between '{' '!'))
  | [] => ([], [])

/-- The rows of the table. -/
def rows (text : List Char) : List (List Char × List (List Char)) :=
  ((pieces '\n' text).filter (fun l => "\\textbf{".toList.isPrefixOf l)).map rowOf

/-- What follows the first occurrence of a text. -/
def after (pat : List Char) : List Char → List Char
  | [] => []
  | x :: s => if pat.isPrefixOf (x :: s) then (x :: s).drop pat.length else after pat s

/-- A cell: the number of columns it spans, and its bold text. -/
def cellOf (c : List Char) : List Char × List Char := (between '{' '}' c, (after "\\textbf{".toList c).takeWhile (fun c => decide (c ≠ '}')))

/-- The cells of a line that starts with an empty cell and `\\multicolumn`. -/
def headerOf (line : List Char) : List (List Char × List Char) :=
  ((pieces '&' line).drop 1).map cellOf

/-- A line of the table: a header, or a row with its label and colours. -/
inductive Item where
  | header (cells : List (List Char × List Char))
  | row (label : List Char) (colours : List (List Char))

/-- Reading a line; other lines (rules, captions) are skipped. -/
def itemOf (line : List Char) : Option Item :=
  if "& \\multicolumn{".toList.isPrefixOf line then some (.header (headerOf line))
  else if "\\textbf{".toList.isPrefixOf line then some (.row (rowOf line).1 (rowOf line).2)
  else none

/-- The headers and rows of the table in their order. -/
def items (text : List Char) : List Item := (pieces '\n' text).filterMap itemOf

end LatexTable

/-! ## The output of `go test -v` -/

namespace GoTest

/-- How `go test -v` reports the outcome of the subtest `bn254`, `bn254#01`, … of a test with gnark's test engine: for a pass the subtest and the two subtests inside it, for a failure one line.
`num` is the number behind the name, `t` are the times. -/
inductive Report (name : List Char) : Bool → List (List Char) → Prop
  | pass {num t t' t''} : '-' ∉ num → '-' ∉ t → Report name true ["    --- PASS: ".toList ++ name ++ "/bn254".toList ++ num ++ " (".toList ++ t ++ ")".toList,
      "        --- PASS: ".toList ++ name ++ "/bn254".toList ++ num ++ "/groth16 (".toList ++ t' ++ ")".toList,
      "            --- PASS: ".toList ++ name ++ "/bn254".toList ++ num ++ "/groth16/valid_witness (".toList ++ t'' ++ ")".toList]
  | fail {num t} : '-' ∉ num → '-' ∉ t → Report name false ["    --- FAIL: ".toList ++ name ++ "/bn254".toList ++ num ++ " (".toList ++ t ++ ")".toList]

/-- Lines that do not report on a subtest of the test: those without `--- `, and those that report on the test itself or on other tests. -/
inductive Other (name : List Char) : List Char → Prop
  | plain {l} : ¬ "--- ".toList <:+: l → Other name l
  | report {indent rest} {pass : Bool} : '-' ∉ indent → '-' ∉ rest → ¬ name ++ "/".toList <+: rest →
      Other name (indent ++ "--- ".toList ++ (if pass then "PASS: ".toList else "FAIL: ".toList) ++ rest)

/-- The output of `go test -v` that reports the outcomes of the subtests of a test in order. -/
inductive Log (name : List Char) : List Bool → List (List Char) → Prop
  | nil : Log name [] []
  | other {os ls l} : Other name l → Log name os ls → Log name os (l :: ls)
  | report {o os r ls} : Report name o r → Log name os ls → Log name (o :: os) (r ++ ls)

end GoTest
