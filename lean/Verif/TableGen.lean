import Verif.Convert

/-!
# Model of the table generators /repo/data/generate_test_math.py, /repo/data/generate_test_loc2index.py and of /repo/scripts/ulp.py

Python's and numpy's floating-point numbers are IEEE-754 numbers, identified with the reals they denote; every operation is the relation
`Ieee.Rounds`. `math.sin` and `math.atan` are taken to be correctly rounded. The random generator is a parameter: `random.random()` is `k / 2^53`
for some `k < 2^53`.
-/

namespace ZkLoc.TableGen
open Ieee

/-- Python's `float`, `np.float64`, `struct.pack('>d', …)` -/
abbrev double : Format := Convert.double

/-- `np.float32`, `struct.pack('>f', …)` -/
def single : Format := ⟨8, 23⟩

/-- A number of the format. -/
def IsFloat (F : Format) (v : ℝ) : Prop := Representable F |v| ∧ |v| < 2 ^ (F.bias + 1)

/-- `nextafter(r, inf)` when it is finite -/
def NextUp (F : Format) (r u : ℝ) : Prop := IsFloat F u ∧ r < u ∧ ∀ q, IsFloat F q → r < q → u ≤ q

/-- `nextafter(r, -inf)` when it is finite -/
def NextDown (F : Format) (r u : ℝ) : Prop := IsFloat F u ∧ u < r ∧ ∀ q, IsFloat F q → q < r → q ≤ u

/-- `random.uniform(lo, hi)` for `random.random() = k / 2^53`: `lo + (hi - lo) * random()` in double arithmetic. -/
def Uniform (lo hi : ℝ) (k : ℕ) (x : ℝ) : Prop :=
  k < 2 ^ 53 ∧ ∃ d p, Rounds double (hi - lo) d ∧ Rounds double (d * (k / 2 ^ 53)) p ∧ Rounds double (lo + p) x

/-- One row of `generate_test_values`, /repo/data/generate_test_math.py:61-82, for the drawn number `x`: the input written is `x` packed in the format,
the function is evaluated at `x` itself; the last two columns are `find_surrounding_floats` (12-20). Packing a number out of range raises an exception. -/
structure GenRow (F : Format) (f : ℝ → ℝ) (x a y lo hi : ℝ) : Prop where
  input : Rounds F x a
  inputFinite : IsFloat F a
  output : ∃ r, Rounds double (f x) r ∧ Rounds F r y
  outputFinite : IsFloat F y
  lower : NextDown F y lo
  upper : NextUp F y hi

/-- `binary_to_float64`, /repo/scripts/ulp.py:4-15, of strings with the values `e` and `m`, the latter of `len` characters. `mantissa / (2 ** 52)` is the
correctly rounded quotient of the two integers; the multiplication by a power of two is exact in range (overflow is not modelled). -/
def BinaryToFloat64 (len e m : ℕ) (v : ℝ) : Prop :=
  ∃ q, Rounds double (((2 ^ len + m : ℕ) : ℝ) / 2 ^ 52) q ∧ v = 2 ^ ((e : ℤ) - 1023) * q

/-- What /repo/scripts/ulp.py:36-49 prints for strings with the values `ec`, `mc` (computed) and `ew`, `mw` (wanted), of 53 characters like those in the script
(23-26). -/
def UlpPrint (ec mc ew mw : ℕ) (out : ℝ) : Prop :=
  ∃ c w lo hi u d, BinaryToFloat64 53 ec mc c ∧ BinaryToFloat64 53 ew mw w ∧ NextDown double w lo ∧ NextUp double w hi ∧
    Rounds double (hi - lo) u ∧ Rounds double (c - w) d ∧ Rounds double (|d| / u) out

/-- `factor`, /repo/data/generate_test_loc2index.py:99 (exact arithmetic) -/
noncomputable def factor (i : ℕ) : ℝ := Real.log i / Real.log 20

/-- `np.radians` (exact arithmetic) -/
noncomputable def radians (d : ℝ) : ℝ := d * Real.pi / 180

/-- The point at the fraction `t` between two values, as in /repo/data/generate_test_loc2index.py:100-104. -/
def between (c d t : ℝ) : ℝ := c + (d - c) * t

/-- `generate_points`, /repo/data/generate_test_loc2index.py:75-115, in exact arithmetic: rows of latitude and longitude in radians, resolution, and index. The programs of the
H3 library are parameters: centre and corners (in degrees) of the cell of the fixed location at a resolution, and the index of a location in degrees. The printed distances are
left out. -/
noncomputable def generatePoints (centre : ℕ → ℝ × ℝ) (boundary : ℕ → List (ℝ × ℝ)) (ijk : ℕ → ℝ → ℝ → ℕ × ℕ × ℕ) (resolution : ℕ) :
    List ((ℝ × ℝ) × ℕ × (ℕ × ℕ × ℕ)) :=
  (List.range (resolution + 1)).flatMap fun res =>
    match boundary res with
    | [] => []
    | target :: _ => (List.range 9).map fun j =>
        ((between (radians (centre res).1) (radians target.1) (factor (j + 2)), between (radians (centre res).2) (radians target.2) (factor (j + 2))), res,
          ijk res (between (centre res).1 target.1 (factor (j + 2))) (between (centre res).2 target.2 (factor (j + 2))))

end ZkLoc.TableGen
