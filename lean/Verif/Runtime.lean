import Verif.Bench
import Mathlib.Data.List.Sort
import Mathlib.Algebra.Order.Field.Rat
import Mathlib.Algebra.Order.Floor.Ring
import Mathlib.Data.Rat.Floor
import Mathlib.Algebra.BigOperators.Group.List.Basic

/-!
# Model of `scripts/evaluate_runtime_ZKLP.py`

The script is made of calls of pandas. They are modelled for what the benchmarks write: lines of integers separated by commas. The statistics are in exact
arithmetic (pandas uses double precision), the square of the standard deviation stands for it, and the layout of the printed tables (`to_string`) is not modelled.
-/

namespace ZkLoc.Runtime

open ZkLoc.Bench ZkLoc.Text

/-- The cells of a line: `pd.read_csv` with its default separator, /repo/scripts/evaluate_runtime_ZKLP.py:8. Quotation marks are not modelled. `cur` is the cell being read, reversed. -/
def cellsAux : List Char → List Char → List (List Char)
  | cur, [] => [cur.reverse]
  | cur, c :: s => if c = ',' then cur.reverse :: cellsAux [] s else cellsAux (c :: cur) s

/-- ditto -/
def cells (line : List Char) : List (List Char) := cellsAux [] line

/-- Decimal digits. -/
def readNat (s : List Char) : Option ℕ := if s ≠ [] ∧ s.all isDig then some (s.foldl (fun n c => n * 10 + (c.toNat - 48)) 0) else none

/-- A cell as integer: blanks before the number are skipped. `none`: pandas gives the column another type, which is not modelled (also beyond 64 bits). -/
def readInt (s : List Char) : Option ℤ :=
  match s.dropWhile (fun c => decide (c = ' ')) with
  | '-' :: ds => (readNat ds).map (fun n : ℕ => -(n : ℤ))
  | ds => (readNat ds).map (fun n : ℕ => (n : ℤ))

/-- A table of integers. -/
structure Frame where
  names : List (List Char)
  rows : List (List ℤ)
deriving DecidableEq

/-- `pd.read_csv`, /repo/scripts/evaluate_runtime_ZKLP.py:8: the first line has the names of the columns, which keep their blanks; empty lines are skipped. `none`: an empty file, or a file that is not
a table of integers. -/
def readCsv (lines : List (List Char)) : Option Frame :=
  match lines.filter (fun l => decide (l ≠ [])) with
  | [] => none
  | h :: ls => (ls.mapM (fun l => if (cells l).length = (cells h).length then (cells l).mapM readInt else none)).map (fun rows => ⟨cells h, rows⟩)

/-- A column. -/
def Frame.column (f : Frame) (c : ℕ) : List ℤ := f.rows.map (fun r => r.getD c 0)

/-- What `describe` shows for a column; `none` is `NaN`. -/
structure Stats where
  count : ℕ
  mean : Option ℚ
  variance : Option ℚ
  least : Option ℚ
  quarter : Option ℚ
  half : Option ℚ
  threeQuarters : Option ℚ
  greatest : Option ℚ
deriving DecidableEq

/-- The quantile `q` of ordered entries, with linear interpolation. -/
def quantile (q : ℚ) (s : List ℚ) : Option ℚ :=
  let h := q * (s.length - 1)
  match s[⌊h⌋₊]? with
  | none => none
  | some a => some (a + (h - ⌊h⌋₊) * (s.getD (⌊h⌋₊ + 1) a - a))

/-- The average. -/
def average (xs : List ℚ) : ℚ := xs.sum / xs.length

/-- `describe` of a column, /repo/scripts/evaluate_runtime_ZKLP.py:11 and 14. -/
def describe (xs : List ℚ) : Stats :=
  let s := xs.insertionSort (· ≤ ·)
  { count := xs.length
    mean := if xs = [] then none else some (average xs)
    variance := if xs.length ≤ 1 then none else some ((xs.map (fun x => (average xs - x) ^ 2)).sum / (xs.length - 1))
    least := s.head?
    quarter := quantile (1 / 4) s
    half := quantile (1 / 2) s
    threeQuarters := quantile (3 / 4) s
    greatest := s.getLast? }

/-- `df.describe()`, /repo/scripts/evaluate_runtime_ZKLP.py:11: every column has only integers. -/
def describeAll (f : Frame) : List (List Char × Stats) := (List.range f.names.length).map (fun c => (f.names.getD c [], describe ((f.column c).map (fun n : ℤ => (n : ℚ)))))

/-- The different values of a column in increasing order. -/
def keys (xs : List ℤ) : List ℤ := xs.dedup.insertionSort (· ≤ ·)

/-- `df.groupby(name)`, /repo/scripts/evaluate_runtime_ZKLP.py:14: the rows with each value of the column, in their order; `none` is a `KeyError`. -/
def groupby (f : Frame) (name : List Char) : Option (List (ℤ × Frame)) :=
  (f.names.idxOf? name).map (fun c => (keys (f.column c)).map (fun k => (k, ⟨f.names, f.rows.filter (fun r => decide (r.getD c 0 = k))⟩)))

/-- `df.groupby('Resolution').describe()`, /repo/scripts/evaluate_runtime_ZKLP.py:14: the column of the groups is left out. -/
def groupedStats (f : Frame) (name : List Char) : Option (List (ℤ × List (List Char × Stats))) :=
  (groupby f name).map (fun gs => gs.map (fun g => (g.1, (describeAll g.2).filter (fun d => decide (d.1 ≠ name)))))

/-- The script on one file, /repo/scripts/evaluate_runtime_ZKLP.py:8-14: the two tables it writes. -/
def runtimeScript (lines : List (List Char)) : Option (List (List Char × Stats) × List (ℤ × List (List Char × Stats))) := do
  let f ← readCsv lines
  let g ← groupedStats f "Resolution".toList
  pure (describeAll f, g)

end ZkLoc.Runtime
