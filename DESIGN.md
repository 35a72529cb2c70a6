# Formal model of zk-Location's floating-point and location circuits

Source: `/repo` (tumberger/zk-Location, read as text, never built or changed).
Model and proofs: Lean 4.33.0 + Mathlib, Lake project in `lean/`.

## 1. What is modelled

| Model file | Code | Notes |
|---|---|---|
| `Verif/Circ.lean` | `frontend.API` operations used, `gadget/rangecheck.go` (`commit`, `decompSize`, `DecomposeHint`), power-of-two table | A circuit is a program in a free monad with hint / assert / soft / check / query nodes. |
| `Verif/Hint.lean` | `hint/hint.go`, all hints except the two `PrecomputeHint`s | |
| `Verif/Hints.lean` | `PrecomputeHint32`, `PrecomputeHint64` | `math.Sin`, `math.Cos`, `math.Tan` are a parameter with a stated accuracy |
| `Verif/Gadget.lean` | `gadget/gadget.go` | |
| `Verif/Util.lean`, `Verif/Native.lean` | `util/util.go` 287-376 (`ComponentsOf`, `ValueOf`, `F32ToComponents`, ...) | |
| `Verif/Float.lean` | `float/float.go`, whole file | `NewF32Constant`/`NewF64Constant` pass the bits of their own precision to `NewConstant`, which decodes them with the context's `E`, `M` (float.go:169-186); modelled as `newConstant f bits`. |
| `Verif/Math.lean` | `math/math.go`, whole file | constants kept as bit patterns; `Props/Math.lean` proves that they are the correctly rounded decimals of the source |
| `Verif/Loc2Index.lean`, `Verif/Circuits.lean` | `loc2index32/*.go`, `loc2index64/*.go` and the circuits of the `_test.go` files | |
| `Verif/GeoTables.lean`, `Verif/GeoSource.lean`, `Verif/FaceTable.lean` | the tables of `util/util.go` 30-286 | the tables of sines/cosines computed at run time by Go's `math` are written out as bit patterns; see section 2 |
| `Verif/Deferred.lean`, `Verif/Width*.lean` | deferral (`CommitChecker`, `PowersOfTwo`), width selection, counters, and the width each location circuit gets | |
| `Verif/R1csLookup.lean`, `R1csRows.lean`, `R1csSized.lean` | `logderivarg.Build` as called by `gadget/rangecheck.go` and `gadget/gadget.go`: the two lookup arguments as rank-1 constraints over committed values and a challenge; how many there are | one challenge for both arguments (`x` and `x²`), a wire rather than a hash; circuits that query both tables |
| `Verif/R1csCompress.lean` | `frontend.WithCompressThreshold(1000)`, `util/util.go` 486-494, 556, 704 | applied to the finished system, expression by expression |
| `Verif/TrigCircuits.lean` | the circuits of `math/math_test.go` | `AssertIsLessOrEqual` with a variable bound by its documented meaning (justified for the bits in C86) |
| `Verif/Counts.lean` | `float/float_constraints_test.go` 27-74 and the gadget's counters | the lookups only; native constraints are in `R1csCommit.lean` |
| `Verif/CountsText.lean`, `Verif/R1csAgain.lean` | `float/float_constraints_test.go` 76-137: the files of `benchmarks/float`, and circuits with many operations | Go's `uint` by natural numbers |
| `Verif/Text.lean` | text helpers of `util/util.go` and `proximity/proximity.go` (hexadecimal files, output parsing, minimum loop) | executables run by `exec.Command` are outside the model: their output is the input of the parsers |
| `Verif/Bench.lean` | control flow of `BenchProof*` (`util/util.go` 491-806), result files, test vector readers of the `_test.go` files, `data/generate_test_loc2index.py:145`, `scripts/generate_latex_table_tests.py` 12-42 | results of compile / setup / prove / verify and the measurements are arbitrary inputs (`World`) |
| `Verif/Convert.lean` | `ScaledIntToFloat64`, `RadiansToDegrees`, `degreesToRadians` | as relations over the reals; no overflow |
| `Verif/Vectors.lean` | the ten tests of `float/float_test.go` 166-428 as functions of the directory of test tables | `assert.ProverSucceeded` is the honest prover under all three kinds of constraint system; the cryptography is left out |
| `Verif/MathVectors.lean` | the five table tests of `math/math_test.go` 291-426 | as `Vectors.lean`, restricted to the test engine and the R1CS (Groth16) |
| `Verif/LocVectors.lean` | `TestLoc2Index32`, `TestLoc2Index64` | the values of `PrecomputeHint32/64` and the external H3 program are parameters |
| `Verif/Remez.lean` | `scripts/generate_remez_coefficients.py` | exact real arithmetic instead of doubles; `np.linalg.solve` is the exact solution; plotting is left out |
| `Verif/TableGen.lean` | `data/generate_test_math.py`, `data/generate_test_loc2index.py`, `scripts/ulp.py` | library sine and arc tangent correctly rounded; random numbers, H3 programs are parameters; points in exact arithmetic; file output left out |
| `Verif/DrawGen.lean` | `generate_random_float` of `data/generate_test_math.py` 22-59 | `random.random()` is a parameter; `random.uniform` in double arithmetic |
| `Verif/UtilTests.lean` | `TestExecuteLatLngToIJK` and `TestExecuteLatLngToIJKWithRadians` of `util/util_test.go` 11-70 | the external program is a parameter and gets numbers instead of text with 30 decimal places; `TestLatLngToIJ` (74-88) asserts nothing and is left out |
| `Verif/Proximity.lean` | the distance printed by `main` of `proximity/proximity.go` 187-229 | the library `go-haversine` is replaced by `OldHaversine` in exact arithmetic; corners in degrees are parameters |
| `Verif/PolyGen.lean` | `data/generate_test_polynomial.py` 1-54 | the library's power is a parameter, assumed accurate to a unit in the last place; file output left out |
| `Verif/Runtime.lean` | `scripts/evaluate_runtime_ZKLP.py` 1-24 | pandas on tables of integers, exact arithmetic, variance instead of its root; printed layout left out |
| `Verif/LocTables.lean` | `data/f32/loc2index32.txt`, `data/f64/loc2index64.txt` | the numbers of the rows; the text is printed from them |
| `Verif/Latex.lean` | `scripts/generate_latex_table_tests.py` 1-10, 44-115 (the reading loops are in `Bench.lean`) | `int(_, 16)` on plain hexadecimal digits only; an empty dictionary has maximum 0 |
| `Verif/R1cs.lean`, `R1csFloat.lean`, `R1csCommit.lean` | gnark's R1CS builder, the float gadgets and the test circuits of `float_test.go` compiled with it, `FloatCircuit` of `float_constraints_test.go` 43-74, the deferred `commit` of `gadget/rangecheck.go` | gnark is modelled from its documentation and published counts; no splitting of long expressions; lookups are table membership |

Two semantics are given to every circuit program:

* `Circ.run b c` - honest prover (hints computed by the hint functions). Used for completeness.
* `Circ.Sat b strict c r` - some prover, i.e. some assignment of *all* hint wires and limb wires,
  satisfies all constraints with output `r`. Used for soundness. gnark adds boolean constraints on the
  operands of `Select/And/Or/Xor` unless the operand is already marked boolean; these are `soft` nodes.
  `strict = false` drops them all (soundness theorems hold even then); `strict = true` keeps them all
  (attacks work even then). The real constraint system lies in between.

`b` is the width of the range-check table. `p` is any prime that is large enough (`2^(4M+42) ≤ p`,
satisfied by the BN254 and BLS12-381 scalar fields for f32 and f64; `GoodInst.lean`).

**Widths.** Completeness theorems hold at every width `1 ≤ b ≤ 17`. Soundness of operations that use the
power-of-two lookup needs `b ∣ M+E+1`, because the Loose range check of the lookup's operand admits larger
values otherwise. This is not a limitation of the proof: `getOptimalBasewidth` picks the width from the
number of checks, and for the location circuits it picks 9, 9 and 11 (`Props/Location.lean`,
`Props/Accept.lean`), which do not divide 32 and 64, and wrong results are then provably accepted. What is
accepted beyond IEEE at *every* width is bounded in `AnyWidth.lean`, `Props/AnyWidth.lean`.

## 2. Trusted base

* The Lean 4 kernel; axioms `propext`, `Classical.choice`, `Quot.sound` only. Every theorem listed in
  `MANIFEST.json` depends on these three or fewer (checked with `#print axioms`; no own axioms, no `sorry`,
  no `native_decide`, no `bv_decide`). `decide +kernel` is evaluation by the kernel itself.
* That the model transcribes the Go code (each definition cites file and lines). As a sanity check
  outside the proofs the honest semantics was executed on the repository's own test vectors
  (`/repo/data/f32`, `/repo/data/f64`): the only arithmetic rows that disagree are the ones of finding 2, and of
  24 + 24 sampled location rows 24 (f64) and 23 (f32) give the expected cell (the hints computed with Python's
  library differ from Go's in the last bit).
* gnark: `frontend.API` primitives have their documented meaning over the prime field; for every circuit of the repository this is no longer assumed but
  proved of a model of gnark's R1CS builder (C83, C84, C85, C86, `R1cs.lean`: constants, the record of known booleans, the constraints of every call, `IsZero` with its two
  wires, hints as free wires, the deferred range checks). That builder model was written from knowledge of gnark 0.9, whose source is not in /repo; it reproduces the
  published numbers of native constraints (C83_native_counts). The splitting of long linear expressions is done to the finished system
  (C90, `R1csCompress.lean`) instead of during the construction. R1CS only.
  The lookups (`logderivarg.Build`) are exact table membership in the circuit model; C88 compiles them to rank-1 constraints with a challenge (`R1csLookup.lean`, also written from
  knowledge of gnark) and proves that this changes the meaning for few challenges only. That the challenge is drawn after the commitment and cannot be chosen (the commitment scheme,
  Fiat–Shamir) stays assumed. Groth16/PLONK themselves and serialisation are out of scope.
* Go's `math.Sin`, `math.Cos` are not modelled. The run-time tables of face-centre sines and cosines are stated as
  bit patterns and *proved* to be within one unit in the last place of the true sines and cosines of the source's
  angles (`Props/Geo.lean`); only the choice of the last bit is trusted. `PrecomputeHint32/64` values are
  quantified over (soundness: any wires; C49: any floats within a tolerance of the true values; C74, C75: the values computed with any library
  of a stated relative error, or a correctly rounded one).
* `LocTables.lean` holds the numbers of `/repo/data/f32/loc2index32.txt` and `/repo/data/f64/loc2index64.txt`. That the text printed from them is the text of the files was compared
  byte by byte by a script outside of Lean.
* Not modelled: timings and the operating system under the benchmarks, process execution, the H3 library (`/repo/h3-master` is empty),
  `go-haversine`.

## 3. Specification layer (independent of the model)

* `Verif/Spec/Ieee.lean`: IEEE-754 data `nan | inf s | fin s q` over the reals, `Representable`,
  `IsRNE` (nearest, ties to even significand), `RoundsTo` (overflow to infinity), and the relation
  for each operation on data. `decodeBits` gives the IEEE meaning of a bit pattern. `Encodes` (`Spec/Encodes.lean`)
  says which wires denote a datum.
* `Verif/Spec/H3.lean`: H3's `_ijkNormalize` and `_hex2dToCoordIJK` as integer / ordered-field functions, written
  from the published H3 algorithm (the C source is not available here: this transcription is part of the specification).
* `Verif/Spec/Gnomonic.lean`: the geometry in exact real arithmetic: distance to the face centres, azimuth
  (`Complex.arg`), gnomonic radius, resolution scaling, and `CellAt tolF tolH n φ l i j k`: "(i,j,k) is a hexagon of
  resolution n on a nearest face that contains the projected location", with explicit tolerances.
* `Verif/Spec/Poly.lean`: values of polynomials and the sum of the sizes of their terms.
* `Verif/Spec/Latex.lean`: reading the rows and colours of a printed table.
* `Verif/Spec/Polygon.lean`: sides and boundary of a polygon on the ground.
* `Verif/Spec/Ground.lean`: the angle between two locations, metres on the ground, and locations inside a cell.
* `Real.sin`, `Real.arctan`, `Complex.arg` of Mathlib for the elementary functions.
* `Verif/Spec/Expr.lean`, `Verif/Spec/Tolerance.lean`: expression trees, ULP distance.

## 4. Approach per property

* C01-C04 `ComponentsOf`/`ValueOf`: direct case analysis; leading-zero loop by induction; value lemma over ℝ.
* C05-C07 range checks: exact characterisation of `CheckSat` per mode by induction on limbs
  (completeness = honest limbs, soundness = limbs bounded by `2^(Lb)`).
* C08 deferral: operational semantics in which `check`/`query` only append to a list, and `commit`
  processes the list at the end; equivalence with `Sat` by induction on the program; state machine for `closed`.
* C09-C10 width selection/counters: fold invariants.
* C11-C13 gadgets: case analysis with cast-injectivity of small integers into `ZMod p`;
  C11 and C13 have exceptions that are part of the statement.
* C14 `NewFloat`: `Sat ↔ v.val < 2^(1+E+M) ∧ r = componentsOf`, any `b`.
* C15-C23 arithmetic: integer-level functions `addZ, mulZ, ...` on canonical floats as a refinement
  layer; (1) honest run = integer function, (2) `Sat` implies integer function (or listed exception), (3) the
  integer function meets the real-number IEEE specification. `_partial` where an exception exists.
* C24-C25 comparisons: same scheme, order-theoretic laws derived from the real-number characterisation.
* C26-C27 Trunc/Floor/Ceil/ToInt: same scheme; the exponent-0 ambiguity is stated exactly. At widths not dividing the lookup size
  the dishonest answers are followed through the arithmetic (`AnyWidth.lean`, `FloorAny.lean`): exact answer sets at every width.
* C28-C30 equality assertions: exact characterisation.
* C31-C32 expression trees: induction over expressions using (1) and canonicity preservation. For every prover at a width that does not
  divide M+E+1 (`Spec/Firm.lean`, `Firm.lean`, `Props/ExprAny.lean`) a further condition on the values met in the evaluation is stated, and
  each operation is shown to accept under it at width b only what it accepts at width 1.
* C33-C34 polynomials, atan, sin: list induction; exact oddness; special values.
* C35-C38 location circuit pieces: refinement; H3 reference functions as independent specification.
* C39-C40 accepted-set theorems and the negation of the intended property with witnesses.
* C41 end-to-end test circuits: composition of C14, C15-C23, C28; forgeries by explicit hint sequences
  (`Circ.forge`) evaluated in the kernel.
* C42-C43 derived from the above. C44: tables against their source decimals and against unit vectors / sines / cosines.
* C45, C48, C49 cell correctness: one calculus (`Prover.lean`, `Ok m b c Q`) for the honest and for arbitrary provers;
  forward error analysis of every step over ℝ (`LocErr*.lean`, `LocNear.lean`, `FaceNear.lean`, `HexReal.lean`), and the
  exact geometry in `GnomonicMath.lean`, `HexCell.lean`.
* C46 face centre: evaluation of the circuit by the kernel, and totality argument for every prover.
* C47 sine: Taylor remainder + rational recursion for rounding errors, evaluated in the kernel.
* C50-C51 arc tangent: a degree-33 reference polynomial is proved within 2^-61 of `arctan` by bounding
  `(1+x²)P'(x) - 1` on a subdivision of [0,1] (exact rational arithmetic in the kernel) and the mean value
  theorem; the Remez polynomial is compared with it; Horner rounding errors by an interval recursion.
* C52-C57 text helpers and the proximity executable: parsers and printers as list functions, round-trip laws by induction
  against positional notation (`Spec/Text.lean`); the boundary pattern is characterised on every sequence of numbers; the
  haversine formula in exact real arithmetic.
* C58 published constraint counts: every operation has a fixed shape (list of range checks and lookups), the counters are a
  function of the shape; the six published rows (`Spec/Counts.lean`) are evaluated in the kernel.
* C59 math test circuits: widths from the shapes, soundness from C47/C50 through C14; the polynomial of degree ten by showing on
  integers that no step leaves a prover a choice.
* C60-C61 benchmark harness: a state machine over file contents, invariants by induction over the list of runs. C62-C65: list functions,
  against positional notation and `Spec/Bench.lean`. C66: error calculus of `RealErr.lean`; existence of roundings in `RealExists.lean`.
* C67: `Spec/Vectors.lean` says what a printed table is; the readers are inverted on it, and the circuits are replaced by the exact answers of C41.
* C68: the linear system is inverted through alternation of signs; de la Vallée Poussin's argument gives the lower bound; the searches are followed by induction on the fuel.
* C69: as C67, with the accuracy theorems of C59 in place of exact answers.
* C70: as C67, with C49 for the cell; `CellBound.lean` bounds the numbers of a cell (every location has a face centre near it), so that residues are numbers; the failing row by
  exact rounding of six sines and cosines and one evaluation.
* C71: rounding of signed numbers is monotone and fixes representable ones; the violation picks a sine by shifting by multiples of `2π` inside the interval that rounds to one single.
* C72: both roundings are made explicit at quantum `2^-51`; the other operations of the script are exact.
* C73: list arithmetic, and `20^23 < 2^100`, `10^100 < 20^77` for the fractions.
* C74: errors of half, sine, cosine, tangent and `2γδ` are followed through the roundings, with lower bounds for the cosine near `π/2` (no double is near it); then C49 and C45.
* C75: the three checks are computed exactly; the violation is one longitude with its sine, cosine and tangent enclosed to `2^-72`.
* C76: the point of the plane is moved to the nearest point of the hexagon, the gnomonic projection is inverted there, and the angle between the two locations is bounded by the distance in the plane
  (`Ground.lean`; specification in `Spec/Ground.lean`). C77: two hexagons whose enlarged and shrunk versions meet are the same. The concrete cells are computed with sines and cosines enclosed to `2^-77`
  (`GroundCases.lean`).
* C78: the printed text is cut into lines and cells by the reader of `Spec/Latex.lean`; the outcomes are those of C64. The logs are those of `go test -v` as described by `GoTest.Log` in `Spec/Latex.lean`: a passed subtest takes three lines, a failed one takes one line.
* C79: Horner's rule with a rounding error for each multiplication and addition, by induction over the coefficients (`PolySpec.lean`). C80: the same for the sums of terms of the script
  (`PolyGenSpec.lean`); the contradiction in single precision from two draws near 64.
* C81: `Runtime.lean` models what the script asks of pandas on tables of integers; the mean, the variance (half the mean square difference of two entries), the quantiles (interpolation between the ordered entries)
  and the extremes are specified in `Spec/Runtime.lean`. The pipeline theorem composes C61 with the reader.
* C82: every row of the two tables is checked by interval arithmetic in units of `2^-80` (`CellCheck.lean`, `RowCheck.lean`; sound for the real geometry of the specification), and the tests then follow from
  C75 and C77. The condition of C75 on the hint values of the longitude is evaluated for all 144 rows (`LibmCheck.lean`).
* C83: the gadgets are written once more as programs over an abstract API (`R1csFloat.lean`). At the API of `Circ` they are equal to the model used everywhere else (`R1csCirc.lean`); at the builder they yield a
  constraint system. A refinement relation (`R1csSpec.lean`, `R1csRef.lean`) says that every satisfying assignment gives a run of the `Circ` program and every run extends to an assignment, with the marked expressions boolean; it is
  proved for each call and composed. `R1csCommit.lean` adds the limbs of the deferred range checks, `R1csTests.lean` the test circuits.
* C84: the location programs over the same abstract API (`R1csLoc.lean`), with gnark's `ToBinary` and `MustBeLessOrEqCst` bit by bit; refinement in `R1csLocRef.lean`, agreement with the model in `R1csLocCirc.lean`
  (equality of programs, except for `AssertIsLessOrEqual`, where the bits are shown to mean the comparison). That the compiler selects the width computed for the model follows from the equality of the recorded
  lengths (`R1csWidth.lean`), as the system of about 16 000 constraints is too large to evaluate in the kernel.
* C85: the circuits with hinted sines in the order of the code (`R1csPre.lean`); `R1csPreCirc.lean` shows that the grouped program of the model has the same solutions, `R1csPreWidth.lean` that the width of the table is the same.
  Here the refinement holds only for whole circuits: check 3 subtracts the hinted sine, `Neg` marks the negated sign as boolean, and at that point nothing constrains the sign; the constraint comes with a product much later.
  `R1csFrame.lean` therefore proves that nothing on the way there makes the compiler believe the sign itself boolean without its constraint (an invariant on the record of booleans), so that the later constraint is emitted; the
  refinement of the whole is then stated for the empty system only (`RefAt` in `R1csCommit.lean`).
* C86: the seven circuits of `math_test.go` (`R1csMath.lean`) as in C83, with gnark's comparison of two variables (`mustBeLessOrEqVar`: canonical bits of the bound, free bits of the value, a running prefix) modelled bit by bit and
  shown by induction over the bits to compare the canonical representatives. A second decomposition of the value, which gnark makes and does not use, is left out, and bits are constrained where they are made. The accuracy results and
  attacks of C59 and C79 then hold of the systems.
* C87: `TestFloatCircuitConstraints` measures each operation once and multiplies. `R1csShift.lean` proves that the compiler commutes with renaming wires (an operation compiled elsewhere adds the renamed constraints), so the cost
  can depend only on what is already marked as boolean; `R1csAgain.lean` carries an invariant on these marks through any number of operations, and the two starts (a first operation, the measured circuit) are evaluated in the kernel.
  With the counters of C58 this gives the total for every `n`. `CountsText.lean` prints the files, compared with the 43 committed ones (`Spec/CountsFiles.lean`, copied by a script) by the kernel.
* C88: `LogDeriv.lean` proves the log-derivative argument over any field (a query outside of the table leaves a non-zero numerator, whose roots are the bad points; with the true multiplicities the sums agree at every point that is no
  query). `R1csLookup.lean` compiles both arguments to constraints; soundness quantifies over all commitments made before the challenge, completeness exhibits one. `R1csSized.lean` shows by one pass over all programs that all
  queries of powers of two use the size the table has. `R1csRows.lean` counts: own constraints + the gadget's two counters + 3.
* C89: with the exact count of C88 the estimate that `getOptimalBasewidth` minimises is compared with what is there. The difference is computed exactly (`C89_estimate`), the selected width is near optimal (`C89_near_optimal_partial`), and
  it is not optimal (finding 35).
* C90: `R1csCompress.lean` names partial sums by new wires; the value of each expression is unchanged (both directions by induction on terms and constraints), so the complete systems of C88 pass for the same inputs, commitments and
  challenges at every threshold. The number of splits is computed exactly.
* C91: `DrawGen.lean` has the two lists of ranges and the draw in double arithmetic. The error of the four roundings is bounded for nonnegative ranges and carried over to the negative ones by symmetry;
  the gaps follow from the smallest nonzero fraction `2^-53`.
* C92: π is enclosed to `2^-96` by the sine series, the doubles of the literals and of the converted angles are determined, and the interval check of C82 (with more terms of the series) places both locations
  inside the expected cells. Uniqueness of the cell gives the equivalence.
* C93: `Spec/Polygon.lean` defines sides (shortest ways) and boundary; the triangle inequality of great circle distances comes from Mathlib's one for angles.

Nothing in `properties.jsonl` was found inexpressible. Properties that the code violates are kept as stated, their negation is
proved with a witness and what does hold is proved as `_partial`.

## 5. Findings: places where the code does not do what a user would expect

Each is proved in Lean as a negative statement with a concrete witness unless marked (read only), and the positive
statement is proved with the exception excluded.

1. `IsPositive(0)`/`Abs(0)`: the sign bit is the prover's choice. Consequences: `Trunc`/`Floor`/`Ceil` on
   `|x| ∈ [1,2)` accept a wrong result (`Floor(1.5) = 0`); `fixOverflow` at exponent exactly `E_MAX` lets
   `Add/Mul/Div` output a malformed "finite" record instead of infinity; the sign of an exact-cancellation
   zero is the prover's choice.
2. Honest bug: `x - x` for `x` in the top binade gives `+Inf` instead of `0` (`fixOverflow` does not exclude the zero
   mantissa). Four rows of `/repo/data/f32/sub` contradict it.
3. `QueryPowerOf2` uses a Loose range check: if the table width does not divide the lookup size a wrong
   "power of two" is accepted. The automatically chosen widths of the location circuits are 9 and 11: wrong cells are accepted.
4. The location circuits with precompute hints do not tie the sine/cosine wires to the inputs, nor check them to be floats: one and
   the same cell is accepted for every in-range location.
5. `AssertIsEqualOrCustomULP` takes an absolute tolerance.
6. Latitude/longitude are only bounded from above; NaN is accepted.
7. `AssertIsEqualOrULP` rejects adjacent subnormals and accepts `Inf` vs the largest finite number.
8. `hex2dToCoordIJK` uses the sign bit, H3 uses `< 0` (differs on `-0`).
9. `Eval` and `EvalK` use opposite coefficient orders; `EvalK` with `k > 1` is another function. `SinTaylor` has the wrong sign
   above `π`; `AtanRemez(0) ≠ 0`; `AtanRemez(±Inf, NaN)` and `Atan2(y, 0)` give malformed records.
10. `SmallAbs` range check admits fractions (field inverses) at widths where the limb bound does not match.
11. Floor's ambiguity on [1,2) lets a prover change the hexagon.
12. At a face centre (28.2N 23.0E in single precision) the location circuit has no satisfying assignment at all (0/0 in the
    azimuth's normalisation).
13. `ResConst` is written 0.38196601125010500003 and is not `(3-√5)/2` beyond 1.5e-16 (as in H3; the double is still adjacent).
14. `proximity`: the boundary pattern `(\d+\.\d+)\s+(\d+\.\d+)` drops minus signs; with negative longitudes it pairs the longitude of one
    point with the latitude of the next; with both negative it finds nothing and the largest double is reported. `WriteHexCellsToFile` with `useFloat32` writes the bits of a double, which `HexToFloat32` cannot read back.
15. `BenchProof`, `BenchProofToFileGroth16`, `BenchProofMemoryGroth16` ignore the error of `groth16.Verify`: a rejected proof is recorded as a success (C60).
16. The circuits of `math_test.go` compare exponent and mantissa only: the sign of the claimed arc tangent or sine is free. The circuits with a
    tolerance use the exponent of the claimed output and the fractions of the bounds only; bounds in two binades (neighbours of a power of two)
    are always rejected. `PolynomialEvalCircuit` gets width 6 or 7 and accepts a wrong value under both back-ends. The vectors of
    `TestPolynomialEvalDegTen` are one and two units in the last place off and cannot be satisfied by any prover.
17. `generate_latex_table_tests.py` searches the log of `TestLoc2Index64` for `TestLoc2Index32`: the double-precision row of the table is green
    whatever the log says (C64, C78). The double-precision test cases are read and not used. Failures at resolution 0 appear nowhere.
18. `ScaledIntToFloat64` maps 2^53 and 2^53+1 to the same double (C66; coordinates have 38 bits).
19. At widths that do not divide the lookup size `AssertIsEqualOrCustomULP` can be made to pass differences up to twice the tolerance: the
    subtraction loses its significand and only exponents are compared (C30; width 9: 1966081 against 0 with tolerance 1048576).
20. `F64ConversionCircuit` with PLONK (width 5): the floor of `-(2^e + 2^-11)` is accepted as `-(2^(12+e) + 2)` for every `e` from 0 to 41
    (C41; `Floor` hands the dishonest lookup answer on as significand and `ToInt` does not check it).
21. The comparison tests read `data/f32/gt`, `ge`, `data/f64/gt`, `ge`, which do not exist; the error of `os.Open` is dropped and the loop over an empty scanner passes:
    nothing about `IsGt` and `IsGe` is tested (C67).
22. Rows of the repository's own tables fail the tests: `7F000000 - 7F000000 = 00000000` (data/f32/sub:19230, 19764, 20298, 20832) and the like in data/f64/sub and
    data/f64/add, where the circuit computes `+Inf` (finding 2, C15, C67).
23. `generate_remez_coefficients.py` prints the mean of the errors at the extremums as "Maximum Error" and says nothing when the rounds run out before the errors are level (C68).
24. The tests of the arc tangent and the sine with bounds compare fractions, which for negative outputs are in the other order: no correct row with a negative output can pass,
    and data/f64/sin_ulp:1, data/f64/atan_ulp:101, data/f32/atan_ulp:101 are such rows (C69, compare C59).
25. The tests without bounds ask for the correctly rounded result, which the circuits miss by a unit: data/f64/atan:2 and data/f64/sin:1 fail. `TestCircuitSin` leaves its loop after
    the first line (C69).
26. `Atan2` beyond the axis example of C34: for every `y` no prover obtains a number at `x = +0`, overflowing quotients give the same record, and to the left of the axis the
    result is `pi * 2^968` (`atan2(1, -0)`), because the cleared flag lets `Add` take the exponent of the special values for a number (C51).
27. `TestLoc2Index32` fails on lines 139 to 144 of its own table even with correctly rounded hint values: the listed cell is right for the location as given (proved to `2^-18` of the
    grid unit), but single precision obtains the cell next to it. `TestLoc2Index64` panics on every table with at least one line while /repo/h3-master is empty, although it only prints
    what the program answers. Every listed cell of both tables has `J = 0`, and a passing table says nothing about other provers (C70).
28. The circuit that computes sines and cosines itself is unsound at its automatically chosen table width 9: at `(-0.036073923, 1.5347224)` and every resolution a prover can claim
    two squares inside `SinTaylor32` to be zero (C19) and have a cell accepted that no location on Earth lies in, not even within `25 * sqrt(7)^res` of it (C48_far_cell32).
29. `generate_test_math.py` (and `generate_test_polynomial.py`, which has the same loop) evaluates the function at the double it drew and lists that number rounded to single, so that
    single precision sine rows for inputs from `2^28` list arbitrary numbers and contradict each other (C71).
30. `scripts/ulp.py` adds a leading bit to significands that have it and divides by the distance of both neighbours; it prints 0.5 for neighbouring doubles (C72).
31. The second check on the longitude of the double-precision circuit allows one unit in the last place where the one on the latitude has an absolute tolerance of 2. It rejects the best possible hint
    values for some longitudes (about one in 200 by sampling), for instance `0x3ff021a8aa4de5f7` (1.00821…), so that the honest prover cannot prove any cell there (C75). None of the
    repository's 144 rows is such a longitude.
32. The single precision tables of `generate_test_polynomial.py` have the same fault as finding 29: rows for the input 64 of the cubic can list 794693 or 794693.0625 (C80). The double precision
    tables are computed term by term and the circuits use Horner's rule, so that they agree within the bounds of C80 and not bit by bit (by counting, outside the proofs, 481 and 290 of the 1000 rows agree exactly). No test reads them.
33. The tables of runtimes cover the runs that succeeded and do not say how many failed (C81): `bench_ZKLP32_G16_BN254_results.txt` counts 137 of 144 entries. With Groth16 a run also counts if its proof is
    rejected (C60). The names of all columns but the first keep a leading blank, so that grouping by any other column fails.
34. The repository's tables of locations list the right cells, all 288 with a wide margin (C82). `TestLoc2Index64` passes on its table if the library is correctly rounded; `TestLoc2Index32` does not pass
    on its own, as lines 139-144 have a location that single precision puts into another cell (C70, C82).
35. The estimate by which the width of the range table is selected (`nbR1CSConstraints`, rangecheck.go:178-191) counts queries and recompositions that tight checks and single-limb values do not need, so the selected width is
    not always the best: the single-precision adder and multiplier have 311 and 282 constraints at the selected width 4, 305 and 277 at width 5 (C89).
36. The inputs of the sine and arc tangent tables are drawn uniformly, so that the classes declared as `1e10` to `1e100` and `1e-100` to `1e-10` hold only numbers from `1e84` and from `1e-26`
    (single precision: from `3e22`), except for one draw in 2^53 (C91). The repository's own tables bear this out (by reading them: nothing between `1e10` and `9e96` in data/f64/atan_ulp).
37. `proximity.go` prints the distance to the nearest corner as the distance to the boundary, too large by up to half a side (C93; a verifier on the boundary is told they are half a side away).

## 6. Seeded bugs

`seeded/LOG.jsonl` has one line per mutation of the model: definition edited, edit, claim it breaks, theorems that failed to build, theorems
tightened as a result.
