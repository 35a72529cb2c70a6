import Mathlib.Algebra.Order.Ring.Int
import Verif.Spec.Text

/-!
# Specification: printed tables of test vectors

Independent of the model.
-/

namespace Vectors
open Text

/-- A word: not empty, no white space. -/
def Word (w : List Char) : Prop := w ≠ [] ∧ ∀ c ∈ w, c ∉ [' ', '\t', '\n', '\x0b', '\x0c', '\r']

/-- A line: the words separated by single spaces, and a newline. -/
def printLine (ws : List (List Char)) : List Char := [' '].intercalate ws ++ ['\n']

/-- A table: its lines one after the other. -/
def printTable (rows : List (List (List Char))) : List Char := rows.flatMap printLine

/-- A word that denotes a number in hexadecimal notation. -/
def Hex (w : List Char) (n : ℕ) : Prop := w ≠ [] ∧ HexDenotes w n

/-- A row that begins with two hexadecimal numbers below `2^N`. -/
def Row2 (N : ℕ) (ws : List (List Char)) (x y : ℕ) : Prop :=
  (∀ w ∈ ws, Word w) ∧ x < 2 ^ N ∧ y < 2 ^ N ∧ ∃ wx wy rest, ws = wx :: wy :: rest ∧ Hex wx x ∧ Hex wy y

/-- A row that begins with three hexadecimal numbers below `2^N`. -/
def Row3 (N : ℕ) (ws : List (List Char)) (x y z : ℕ) : Prop :=
  (∀ w ∈ ws, Word w) ∧ x < 2 ^ N ∧ y < 2 ^ N ∧ z < 2 ^ N ∧ ∃ wx wy wz rest, ws = wx :: wy :: wz :: rest ∧ Hex wx x ∧ Hex wy y ∧ Hex wz z

/-- A row that begins with two hexadecimal numbers below `2^N` and a truth value. -/
def RowB (N : ℕ) (ws : List (List Char)) (x y : ℕ) (t : Bool) : Prop :=
  (∀ w ∈ ws, Word w) ∧ x < 2 ^ N ∧ y < 2 ^ N ∧
    ∃ wx wy rest, ws = wx :: wy :: (if t then ['1'] else ['0']) :: rest ∧ Hex wx x ∧ Hex wy y

/-- A row that begins with two hexadecimal numbers below `2^N` and a further word. -/
def RowF (N : ℕ) (ws : List (List Char)) (x y : ℕ) (flags : List Char) : Prop :=
  (∀ w ∈ ws, Word w) ∧ x < 2 ^ N ∧ y < 2 ^ N ∧ ∃ wx wy rest, ws = wx :: wy :: flags :: rest ∧ Hex wx x ∧ Hex wy y

/-- A row that begins with four hexadecimal numbers below `2^N`. -/
def Row4 (N : ℕ) (ws : List (List Char)) (x z l u : ℕ) : Prop :=
  (∀ w ∈ ws, Word w) ∧ (x < 2 ^ N ∧ z < 2 ^ N ∧ l < 2 ^ N ∧ u < 2 ^ N) ∧
    ∃ wx wz wl wu rest, ws = wx :: wz :: wl :: wu :: rest ∧ Hex wx x ∧ Hex wz z ∧ Hex wl l ∧ Hex wu u

/-- A row that begins with two hexadecimal numbers below `2^N`, one, and three more below `2^N`. -/
def Row6 (N : ℕ) (ws : List (List Char)) (x y n i j k : ℕ) : Prop :=
  (∀ w ∈ ws, Word w) ∧ (x < 2 ^ N ∧ y < 2 ^ N ∧ i < 2 ^ N ∧ j < 2 ^ N ∧ k < 2 ^ N) ∧
    ∃ wx wy wn wi wj wk rest, ws = wx :: wy :: wn :: wi :: wj :: wk :: rest ∧ Hex wx x ∧ Hex wy y ∧ Hex wn n ∧ Hex wi i ∧ Hex wj j ∧ Hex wk k

/-- The bit patterns (sign, `E` bits of exponent, `M` bits of fraction) of a normal negative number inside its binade and of its two neighbours: the lower one
is farther from zero. -/
def NegativeNeighbours (E M : ℕ) (z l u : ℕ) : Prop :=
  2 ^ (E + M) ≤ z ∧ l = z + 1 ∧ z = u + 1 ∧ 0 < z % 2 ^ M ∧ z % 2 ^ M + 1 < 2 ^ M ∧ z / 2 ^ M % 2 ^ E ≠ 0 ∧ z / 2 ^ M % 2 ^ E ≠ 2 ^ E - 1

/-- The number in two's complement notation with `N` bits. -/
def TwosComplement (N : ℕ) (n : ℕ) (v : ℤ) : Prop := -(2 ^ N : ℤ) ≤ 2 * v ∧ 2 * v < 2 ^ N ∧ ∃ k : ℤ, v = n + k * 2 ^ N

end Vectors
