import Verif.MathVectors
import Verif.Loc2Index

/-!
# The tests of the location circuits that read tables

`TestLoc2Index32` and `TestLoc2Index64`. The values of the hint functions (trigonometry of the Go library) and the external program of the H3 library are parameters. Printing is
not modelled; nor is the limit of `bufio.Scanner` (64 KiB per line).
-/

namespace ZkLoc.Vectors
open ZkLoc.Bench ZkLoc.Text

/-- The body of the loop of `TestLoc2Index32`, /repo/loc2index32/loc2index32_test.go:165-191. `hint` is `PrecomputeHint32` as a function of the bit pattern. -/
def locLine32 (hint : ℤ → Pre bn254) (line : List Char) : Prop :=
  match readEntry line with
  | some e => succeedsGroth16 f32 (precomputeCircuit32 (hint e.lat) (hint e.lng) (e.lat : ZMod bn254) (e.lng : ZMod bn254) (e.res : ZMod bn254) (e.i : ZMod bn254)
      (e.j : ZMod bn254) (e.k : ZMod bn254))
  | none => False

/-- The body of the loop of `TestLoc2Index64`, /repo/loc2index64/loc2index64_test.go:179-208. `hint` is `PrecomputeHint64`; `h3` is the external program
(/repo/util/util.go:412-450), called with resolution 15 on every line (199): `none` is an error, which makes the test panic (200-202), and its answer is only printed. -/
def locLine64 (hint : ℤ → Pre bn254) (h3 : ℕ → ℤ → ℤ → Option (ℤ × ℤ × ℤ)) (line : List Char) : Prop :=
  match readEntry line with
  | some e =>
    match h3 15 e.lat e.lng with
    | some _ => succeedsGroth16 f64 (precomputeCircuit64 (hint e.lat) (hint e.lng) (e.lat : ZMod bn254) (e.lng : ZMod bn254) (e.res : ZMod bn254)
        (e.i : ZMod bn254) (e.j : ZMod bn254) (e.k : ZMod bn254))
    | none => False
  | none => False

/-- `TestLoc2Index32`, /repo/loc2index32/loc2index32_test.go:155-196; a file that cannot be opened is fatal (158-161). -/
def locTest32 (hint : ℤ → Pre bn254) (file : Option (List Char)) : Prop :=
  match file with
  | some text => ∀ line ∈ scanLines text, locLine32 hint line
  | none => False

/-- `TestLoc2Index64`, /repo/loc2index64/loc2index64_test.go:170-213. -/
def locTest64 (hint : ℤ → Pre bn254) (h3 : ℕ → ℤ → ℤ → Option (ℤ × ℤ × ℤ)) (file : Option (List Char)) : Prop :=
  match file with
  | some text => ∀ line ∈ scanLines text, locLine64 hint h3 line
  | none => False

end ZkLoc.Vectors
