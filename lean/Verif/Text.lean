import Mathlib.Data.Nat.Notation
import Mathlib.Analysis.SpecialFunctions.Complex.Arg

/-!
# Model of the text helpers and of the proximity executable

Go strings are lists of characters (all texts here are ASCII). Programs run by `exec.Command` are outside the model: their output is the input of the parsers.
-/

namespace ZkLoc.Text

/-- `digits[d]` of Go's `strconv` for `d < 36`; only `d < 16` is used. -/
def digitChar (d : ℕ) : Char := Char.ofNat (if d < 10 then 48 + d else 87 + d)

/-- `strconv.FormatUint(n, base)`: digits without leading zeros, lower case. -/
def formatUint (base : ℕ) (n : ℕ) : List Char :=
  if _h : n < base ∨ base < 2 then [digitChar n] else formatUint base (n / base) ++ [digitChar (n % base)]
termination_by n
decreasing_by
  simp only [not_or, not_lt] at _h
  exact Nat.div_lt_self (by omega) (by omega)

/-- The value of a character as a digit, either case. -/
def digitVal (c : Char) : Option ℕ :=
  if 48 ≤ c.toNat ∧ c.toNat ≤ 57 then some (c.toNat - 48)
  else if 97 ≤ c.toNat ∧ c.toNat ≤ 122 then some (c.toNat - 87)
  else if 65 ≤ c.toNat ∧ c.toNat ≤ 90 then some (c.toNat - 55)
  else none

/-- The loop of `strconv.ParseUint(s, base, bits)`. -/
def parseLoop (base bits : ℕ) : ℕ → List Char → Option ℕ
  | acc, [] => some acc
  | acc, c :: cs =>
    match digitVal c with
    | none => none
    | some d => if d < base ∧ acc * base + d < 2 ^ bits then parseLoop base bits (acc * base + d) cs else none

/-- `strconv.ParseUint(s, base, bits)` for `base = 16` and `base = 10`; `none` is an error. -/
def parseUint (base bits : ℕ) (s : List Char) : Option ℕ := if s = [] then none else parseLoop base bits 0 s

/-- `floatToHex`, /repo/proximity/proximity.go:42-45, on the bit pattern of its argument. -/
def floatToHex (bits : ℕ) : List Char := formatUint 16 bits

/-- `HexToFloat`, /repo/util/util.go:388-398: the bit pattern of the result. -/
def hexToFloat (s : List Char) : Option ℕ := parseUint 16 64 s

/-- `HexToFloat32`, /repo/util/util.go:400-410: the bit pattern of the result. -/
def hexToFloat32 (s : List Char) : Option ℕ := parseUint 16 32 s

/-- A line of `WriteHexCellsToFile`, /repo/proximity/proximity.go:48-72, given the bit patterns of the two doubles written
(`float64(float32(x))` with `useFloat32`, `x` without). -/
def hexLine (lat lon : ℕ) : List Char := floatToHex lat ++ [' '] ++ floatToHex lon ++ ['\n']

/-- `hex.DecodeString`: the bytes before the first error, and whether there was none. -/
def decodeHex : List Char → List ℕ × Bool
  | [] => ([], true)
  | [_] => ([], false)
  | a :: b :: cs =>
    match digitVal a, digitVal b with
    | some x, some y =>
      if x < 16 ∧ y < 16 then
        let r := decodeHex cs
        ((x * 16 + y) :: r.1, r.2)
      else ([], false)
    | _, _ => ([], false)

/-- `StrToIntSlice`, /repo/util/util.go:463-484: an error of `hex.DecodeString` is logged and the decoded part is used. Without hexadecimal
representation the bytes of the string are returned (for ASCII text, the only text considered here, its characters). -/
def strToIntSlice (s : List Char) (hexRepresentation : Bool) : List ℕ :=
  if hexRepresentation then (decodeHex s).1 else s.map Char.toNat

/-! ### The output of `latLngToCell` -/

/-- `\d` -/
def isDig (c : Char) : Bool := decide (48 ≤ c.toNat ∧ c.toNat ≤ 57)
/-- `\s` -/
def isSpc (c : Char) : Bool := c = ' ' || c = '\t' || c = '\n' || c = '\r' || c = '\x0c'

/-- A literal of a pattern. -/
def lit : List Char → List Char → Option (List Char)
  | [], s => some s
  | _ :: _, [] => none
  | c :: cs, d :: s => if c = d then lit cs s else none

/-- `(\d+)`, `\s+`: the longest run. In the patterns here the run is followed by something that is not in the run, or by the end of the pattern, so
backtracking to a shorter run never helps. -/
def run1 (q : Char → Bool) (s : List Char) : Option (List Char × List Char) :=
  if s.takeWhile q = [] then none else some (s.takeWhile q, s.dropWhile q)

/-- The pattern `I: (\d+), J: (\d+), K: (\d+)` at the beginning of the text. -/
def matchIJK (s : List Char) : Option (List Char × List Char × List Char) := do
  let s ← lit ['I', ':', ' '] s
  let (i, s) ← run1 isDig s
  let s ← lit [',', ' ', 'J', ':', ' '] s
  let (j, s) ← run1 isDig s
  let s ← lit [',', ' ', 'K', ':', ' '] s
  let (k, _) ← run1 isDig s
  pure (i, j, k)

/-- `FindStringSubmatch`: the leftmost match. -/
def findIJK : List Char → Option (List Char × List Char × List Char)
  | [] => none
  | c :: s => match matchIJK (c :: s) with
    | some r => some r
    | none => findIJK s

/-- `strconv.Atoi` on a run of digits, the error ignored: values that do not fit are replaced by the largest `int`. -/
def atoi (s : List Char) : ℕ := min (s.foldl (fun n c => n * 10 + (c.toNat - 48)) 0) (2 ^ 63 - 1)

/-- The parsing part of `ExecuteLatLngToIJK`, /repo/util/util.go:431-445, and of `executeLatLngToIJK`, /repo/proximity/proximity.go:88-94. -/
def parseIJK (output : List Char) : Option (ℕ × ℕ × ℕ) := (findIJK output).map (fun r => (atoi r.1, atoi r.2.1, atoi r.2.2))

/-! ### The output of `cellToBoundary` -/

/-- `(\d+\.\d+)`: integer and fractional digits. -/
def matchDec (s : List Char) : Option ((List Char × List Char) × List Char) := do
  let (a, s) ← run1 isDig s
  let s ← lit ['.'] s
  let (c, s) ← run1 isDig s
  pure ((a, c), s)

/-- The pattern `(\d+\.\d+)\s+(\d+\.\d+)` at the beginning of the text. -/
def matchPoint (s : List Char) : Option (((List Char × List Char) × (List Char × List Char)) × List Char) := do
  let (lat, s) ← matchDec s
  let (_, s) ← run1 isSpc s
  let (lng, s) ← matchDec s
  pure ((lat, lng), s)

/-- `FindAllStringSubmatch`: successive leftmost matches that do not overlap. A match is not empty, so the length of the text bounds the number of steps. -/
def findPoints : ℕ → List Char → List ((List Char × List Char) × (List Char × List Char))
  | 0, _ => []
  | n + 1, s => match matchPoint s with
    | some (r, s') => r :: findPoints n s'
    | none => match s with
      | [] => []
      | _ :: s' => findPoints n s'

/-- The parsing part of `cellToBoundary`, /repo/proximity/proximity.go:151-173: the decimals (integer and fractional digits) that are handed to
`strconv.ParseFloat`; `ParseFloat` itself, which rounds them to doubles, is not modelled. -/
def parseBoundary (output : List Char) : List ((List Char × List Char) × (List Char × List Char)) := findPoints (output.length + 1) output

/-! ### The minimum distance -/

/-- The inner loop of `main`, /repo/proximity/proximity.go:214-221, on the distances of the boundary points. -/
def closestLoop {D : Type} [LinearOrder D] : D → List D → D
  | c, [] => c
  | c, d :: ds => closestLoop (if d < c then d else c) ds

/-- The outer loop, /repo/proximity/proximity.go:196-229: `n` executions that continue with the same minimum. -/
def closest {D : Type} [LinearOrder D] (init : D) (ds : List D) : ℕ → D
  | 0 => init
  | n + 1 => closestLoop (closest init ds n) ds

/-! ### `OldHaversine` -/

/-- `degreesToRadians`, /repo/proximity/proximity.go:31-33, in exact arithmetic. -/
noncomputable def degreesToRadians (x : ℝ) : ℝ := x * (Real.pi / 180)

/-- `OldHaversine`, /repo/proximity/proximity.go:22-28, in exact arithmetic (the code computes with doubles); `math.Atan2(y, x)` is the argument of `x + iy`. -/
noncomputable def oldHaversine (lat1 lon1 lat2 lon2 : ℝ) : ℝ :=
  let dLat := degreesToRadians (lat2 - lat1)
  let dLon := degreesToRadians (lon2 - lon1)
  let a := Real.sin (dLat / 2) ^ 2 + Real.cos (degreesToRadians lat1) * Real.cos (degreesToRadians lat2) * Real.sin (dLon / 2) ^ 2
  let c := 2 * Complex.arg (Real.sqrt (1 - a) + Real.sqrt a * Complex.I)
  6371000 * c

end ZkLoc.Text
