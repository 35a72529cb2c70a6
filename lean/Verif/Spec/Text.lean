import Mathlib.Data.Nat.Notation

/-!
# Specification: positional notation, printed bytes, cells and boundary points

Independent of the model.
-/

namespace Text

/-- `c` is the digit `d` of hexadecimal notation, either case. -/
def HexDigit (c : Char) (d : ℕ) : Prop := d < 16 ∧ ("0123456789abcdef".toList[d]? = some c ∨ "0123456789ABCDEF".toList[d]? = some c)

/-- `s` denotes `n` in hexadecimal notation (leading zeros allowed, the empty text denotes zero). -/
inductive HexDenotes : List Char → ℕ → Prop
  | nil : HexDenotes [] 0
  | snoc {s n c d} : HexDenotes s n → HexDigit c d → HexDenotes (s ++ [c]) (n * 16 + d)

/-- A byte as two lower-case hexadecimal digits. -/
def hexByte (n : ℕ) : List Char := ["0123456789abcdef".toList.getD (n / 16) '?', "0123456789abcdef".toList.getD (n % 16) '?']

/-- `s` denotes the bytes `l`, two hexadecimal digits each, either case. -/
inductive HexBytes : List Char → List ℕ → Prop
  | nil : HexBytes [] []
  | cons {a c x y s l} : HexDigit a x → HexDigit c y → HexBytes s l → HexBytes (a :: c :: s) ((16 * x + y) :: l)

/-- `s` does not begin with two hexadecimal digits and is not empty. -/
def BadPair : List Char → Prop
  | [] => False
  | [_] => True
  | a :: c :: _ => (∀ d, ¬ HexDigit a d) ∨ ∀ d, ¬ HexDigit c d

/-- A natural number in decimal notation, as the library prints it. -/
def decimal (n : ℕ) : List Char := (toString n).toList

/-- What `latLngToCell` prints about the cell. -/
def printIJK (i j k : ℕ) : List Char := ['I', ':', ' '] ++ decimal i ++ [',', ' ', 'J', ':', ' '] ++ decimal j ++ [',', ' ', 'K', ':', ' '] ++ decimal k

/-- A decimal number: sign, digits before and after the point. -/
structure Dec where
  neg : Bool
  int : List Char
  frac : List Char
deriving DecidableEq

def Dec.Valid (d : Dec) : Prop := d.int ≠ [] ∧ d.frac ≠ [] ∧ (∀ c ∈ d.int, c ∈ "0123456789".toList) ∧ ∀ c ∈ d.frac, c ∈ "0123456789".toList

def Dec.print (d : Dec) : List Char := (if d.neg then ['-'] else []) ++ d.int ++ ['.'] ++ d.frac

/-- One boundary point per line, indented. -/
def printPoints (indent : ℕ) : List (Dec × Dec) → List Char
  | [] => []
  | q :: qs => List.replicate indent ' ' ++ q.1.print ++ [' '] ++ q.2.print ++ ['\n'] ++ printPoints indent qs

/-- Numbers with a separator after each. -/
def printSeq : List (Dec × List Char) → List Char
  | [] => []
  | q :: qs => q.1.print ++ q.2 ++ printSeq qs

/-- Pairs of neighbours whose second number has no minus sign, taken greedily from the left; other numbers are passed over. -/
def pairUp : List Dec → List (Dec × Dec)
  | [] => []
  | [_] => []
  | a :: c :: l => if c.neg then pairUp (c :: l) else (a, c) :: pairUp l

/-- The digits of a number, its sign dropped. -/
def Dec.digits (d : Dec) : List Char × List Char := (d.int, d.frac)

end Text
