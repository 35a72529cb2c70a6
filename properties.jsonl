{"id": "C01", "title": "Native decoding is canonical", "statement": "Decoding any bit pattern into (sign, exponent, mantissa, abnormal) components always yields a canonical record: sign and abnormal are 0/1; a finite nonzero number has a mantissa in [2^M, 2^(M+1)) and an exponent in the documented range with the low bits of a subnormal mantissa zero; zero has mantissa 0 and the minimum exponent; infinity has mantissa 2^M and the maximum exponent; NaN has mantissa 0 and the maximum exponent. Every canonical record is reached.", "quantifier": "every bit pattern of 1+E+M bits, every format (E, M)", "why_tests_cant": "2^32 / 2^64 patterns; tests sample a few hundred", "anchors": ["/repo/util/util.go: ComponentsOf", "/repo/float/float.go: FloatVar"]}
{"id": "C02", "title": "Encode after decode is the identity", "statement": "Re-encoding the components of a bit pattern returns the same bit pattern, except that every NaN becomes the single NaN with fraction 1 and the same sign; encoding never panics on decoded components.", "quantifier": "every bit pattern of 1+E+M bits", "why_tests_cant": "the pattern space cannot be enumerated for f64, NaN payload and subnormal boundaries are easily missed by sampling", "anchors": ["/repo/util/util.go: ComponentsOf, ValueOf, ComponentsToF32, ComponentsToF64"]}
{"id": "C03", "title": "Decode after encode is the identity on canonical components", "statement": "Encoding succeeds (does not panic) on every canonical component record and decoding the result returns the record (NaN payload normalised); two canonical records with the same encoding are equal.", "quantifier": "every canonical component record", "why_tests_cant": "quantifies over all records, not over sampled floats", "anchors": ["/repo/util/util.go: ValueOf, ComponentsOf"]}
{"id": "C04", "title": "Decoding preserves the IEEE-754 value", "statement": "The components of a bit pattern denote exactly the real number (or infinity or NaN) that IEEE-754 assigns to that bit pattern: value = (-1)^sign * mantissa * 2^(exponent - M).", "quantifier": "every bit pattern of 1+E+M bits", "why_tests_cant": "needs exact real-number semantics for all patterns, including every subnormal", "anchors": ["/repo/util/util.go: ComponentsOf", "/repo/float/float.go: FloatVar, NewConstant"]}
{"id": "C05", "title": "Loose range check accepts exactly the padded range", "statement": "A range check of `bits` bits in Loose mode is satisfiable by some prover iff the value is below 2^(L*b), where L = ceil(bits/b) is the number of limbs of width b; in particular it is exact iff b divides bits.", "quantifier": "every field element, every bit length, every table width b", "why_tests_cant": "soundness is about all adversarial limb assignments", "anchors": ["/repo/gadget/rangecheck.go: commit, decompSize, Check", "/repo/gadget/gadget.go: AssertBitLength"]}
{"id": "C06", "title": "Unknown-range check is exact", "statement": "A range check in TightForUnknownRange mode is satisfiable iff the value is in [0, 2^bits), for any table width.", "quantifier": "every field element, every bit length, every table width", "why_tests_cant": "a malicious prover chooses the limbs; tests run only the honest limb assignment", "anchors": ["/repo/gadget/rangecheck.go: commit", "/repo/gadget/gadget.go: AssertBitLength"]}
{"id": "C07", "title": "Small-absolute-value range check", "statement": "A range check in TightForSmallAbs mode is satisfiable iff value*2^diff (mod p) is below 2^(L*b); for values known to be small in absolute value this is exactly [0, 2^bits), and for arbitrary field elements it additionally accepts field fractions.", "quantifier": "every field element, every bit length, every table width", "why_tests_cant": "the accepted set includes field elements no test would try", "anchors": ["/repo/gadget/rangecheck.go: commit", "/repo/gadget/gadget.go: AssertBitLength"]}
{"id": "C08", "title": "Deferred commitment checks every recorded entry", "statement": "Range checks and power-of-two lookups recorded during circuit definition are all enforced by the deferred commitment, whatever the order in which they were recorded; the result is the same as checking each immediately. Committing twice has no further effect and recording after commitment is refused.", "quantifier": "every circuit and every sequence of recorded checks", "why_tests_cant": "ranges over all circuits and schedules of deferred callbacks", "anchors": ["/repo/gadget/rangecheck.go: Check, commit, NewCommitRangechecker", "/repo/gadget/gadget.go: PowersOfTwo.commit, QueryPowerOf2"]}
{"id": "C09", "title": "Automatic table width is optimal and in range", "statement": "When no table width is configured, the chosen width is between 2 and 17 and its estimated constraint count is minimal among these widths (the smallest such width on ties), for both proof-system back-ends.", "quantifier": "every list of collected range checks", "why_tests_cant": "the collected list is unbounded", "anchors": ["/repo/gadget/rangecheck.go: optimalWidth, getOptimalBasewidth, nbR1CSConstraints, nbPLONKConstraints"]}
{"id": "C10", "title": "Cost counters equal the emitted lookups", "statement": "With an explicit table width, the reported number of lookup-query constraints equals the number of range-table queries plus limb recompositions plus power-of-two queries that the commitment really emits.", "quantifier": "every circuit", "why_tests_cant": "tests only print the counters", "anchors": ["/repo/gadget/gadget.go: LookupQueryConstraints, AssertBitLength, QueryPowerOf2", "/repo/gadget/rangecheck.go: commit"]}
{"id": "C11", "title": "Integer absolute value and sign test", "statement": "For an integer input of absolute value below the checked length, Abs returns the absolute value and IsPositive returns whether it is >= 0, for every prover - except at 0, where a prover may choose either answer for the sign.", "quantifier": "every integer in range, every prover", "why_tests_cant": "tests use the honest hint only; the ambiguity at 0 is invisible to them", "anchors": ["/repo/gadget/gadget.go: Abs, IsPositive", "/repo/hint/hint.go: AbsHint"]}
{"id": "C12", "title": "Integer Max and Min are exact", "statement": "Max and Min return the larger/smaller of two integers whose difference fits the given length, for every prover (the sign ambiguity at equality is harmless).", "quantifier": "all pairs of integers in range, every prover", "why_tests_cant": "adversarial hints", "anchors": ["/repo/gadget/gadget.go: Max, Min"]}
{"id": "C13", "title": "Power-of-two lookup", "statement": "The power-of-two lookup returns exactly 2^e for 0 <= e < table size and is unsatisfiable for other exponents, for every prover, whenever the table width divides the lookup size; otherwise the set of accepted wrong answers is exactly characterised (and is non-empty).", "quantifier": "every exponent, every prover, every table width", "why_tests_cant": "adversarial hint values and table widths are not exercised by tests", "anchors": ["/repo/gadget/gadget.go: QueryPowerOf2, NewPowersOfTwoTable", "/repo/hint/hint.go: PowerOfTwoHint"]}
{"id": "C14", "title": "Allocating a float in the circuit is sound and complete", "statement": "Allocating a float from a field element succeeds iff the element is a valid bit pattern (below 2^(1+E+M)), and then the resulting components are, for every prover, exactly the native decoding of that pattern.", "quantifier": "every field element, every prover, every table width", "why_tests_cant": "malicious decompositions (non-canonical exponent/mantissa splits, wrong normalisation shift) are never tried by tests", "anchors": ["/repo/float/float.go: NewFloat", "/repo/hint/hint.go: DecodeFloatHint, NormalizeHint"]}
{"id": "C15", "title": "Addition is complete and correctly rounded", "statement": "The honest prover can always prove an addition of two valid floats, and the result is the IEEE-754 round-to-nearest-even sum (with infinities, NaN and signed zeros). Exception in the code as written: an exact cancellation of two numbers of the top binade yields infinity.", "quantifier": "all pairs of valid floats, every format", "why_tests_cant": "2^64 / 2^128 pairs; rounding and cancellation corner cases", "anchors": ["/repo/float/float.go: Add, round, fixOverflow", "/repo/hint/hint.go: NormalizeHint, AbsHint, DecomposeMantissaForRoundingHint"]}
{"id": "C16", "title": "Addition is sound against malicious provers", "statement": "Whatever hints a prover supplies, the sum wire values are the IEEE-754 sum, up to the explicitly listed ambiguities: sign of an exact-cancellation zero, and an overflow landing exactly on the maximum exponent being left as a malformed finite record.", "quantifier": "all pairs of valid floats, every prover", "why_tests_cant": "tests only run the honest prover", "anchors": ["/repo/float/float.go: Add, round, fixOverflow"]}
{"id": "C17", "title": "Subtraction", "statement": "Subtraction is addition of the negated operand: complete, correctly rounded and sound with the same exceptions as addition.", "quantifier": "all pairs of valid floats, every prover", "why_tests_cant": "as for addition", "anchors": ["/repo/float/float.go: Sub, Neg"]}
{"id": "C18", "title": "Multiplication is complete and correctly rounded", "statement": "The honest prover can always prove a product of two valid floats and the result is the IEEE-754 round-to-nearest-even product, including gradual underflow, overflow, infinities, zeros and NaN.", "quantifier": "all pairs of valid floats, every format", "why_tests_cant": "input space; double-rounding and subnormal corner cases", "anchors": ["/repo/float/float.go: Mul, round, fixOverflow"]}
{"id": "C19", "title": "Multiplication is sound against malicious provers", "statement": "Whatever hints a prover supplies, the product wires are the IEEE-754 product, except that an overflow landing exactly on the maximum exponent may be left as a malformed finite record.", "quantifier": "all pairs of valid floats, every prover", "why_tests_cant": "tests only run the honest prover", "anchors": ["/repo/float/float.go: Mul, round, fixOverflow"]}
{"id": "C20", "title": "Division is complete and correctly rounded", "statement": "The honest prover can always prove a quotient of two valid floats and the result is the IEEE-754 round-to-nearest-even quotient, including division by zero, infinities and NaN.", "quantifier": "all pairs of valid floats, every format", "why_tests_cant": "input space; exactness of the remainder-based tie detection", "anchors": ["/repo/float/float.go: Div", "/repo/hint/hint.go: DivHint"]}
{"id": "C21", "title": "Division is sound against malicious provers", "statement": "Whatever quotient a prover supplies, the result wires are the IEEE-754 quotient, except that an overflow landing exactly on the maximum exponent may be left as a malformed finite record.", "quantifier": "all pairs of valid floats, every prover", "why_tests_cant": "tests only run the honest prover", "anchors": ["/repo/float/float.go: Div"]}
{"id": "C22", "title": "Square root is complete and correctly rounded", "statement": "The honest prover can always prove a square root of a valid float and the result is the IEEE-754 correctly rounded square root, NaN for negative nonzero arguments and NaN, -0 for -0. (The source says the chosen precision was found empirically.)", "quantifier": "every valid float, every format", "why_tests_cant": "the code comment itself says the precision is 'obtained by empirical analysis'", "anchors": ["/repo/float/float.go: Sqrt", "/repo/hint/hint.go: SqrtHint"]}
{"id": "C23", "title": "Square root is sound against malicious provers", "statement": "Whatever root and parity bit a prover supplies, the result wires are the IEEE-754 square root.", "quantifier": "every valid float, every prover", "why_tests_cant": "wrong roots modulo the field and wrong exponent parity are never tried by tests", "anchors": ["/repo/float/float.go: Sqrt"]}
{"id": "C24", "title": "Comparisons agree with IEEE-754", "statement": "IsLt, IsLe, IsGt, IsGe can always be proved and return 1 iff the IEEE-754 relation holds (false for NaN, +0 = -0, infinities ordered), for every prover.", "quantifier": "all pairs of valid floats, every prover", "why_tests_cant": "adversarial sign hints at equality; all pairs", "anchors": ["/repo/float/float.go: less, IsLt, IsLe, IsGt, IsGe"]}
{"id": "C25", "title": "Comparison results are boolean and form a total order on non-NaN values", "statement": "Comparison outputs are always 0 or 1 (the code marks them boolean without a constraint); on non-NaN floats Lt is a strict weak order, Le is total and transitive, exactly one of <, =, > holds, and Gt/Ge are the converses.", "quantifier": "all valid floats", "why_tests_cant": "transitivity and trichotomy quantify over triples", "anchors": ["/repo/float/float.go: less"]}
{"id": "C26", "title": "Trunc, Floor and Ceil", "statement": "The honest prover can always prove Trunc/Floor/Ceil of a valid float and obtains the IEEE-754 integral rounding. For every prover the result is that value unless the exponent is 0 (|x| in [1,2)), where the code also accepts the result of treating x as smaller than 1 (e.g. Floor(1.5) = 0).", "quantifier": "every valid float, every prover", "why_tests_cant": "the extra accepted results need a malicious hint", "anchors": ["/repo/float/float.go: Trunc, Floor, Ceil", "/repo/hint/hint.go: TruncHint, FloorHint"]}
{"id": "C27", "title": "Conversion to an integer", "statement": "ToInt of an integral float of small exponent returns the represented integer as a field element, for every prover (when the table width divides the lookup size); for other widths a wrong integer can be proved.", "quantifier": "every integral float, every prover, every table width", "why_tests_cant": "adversarial hints", "anchors": ["/repo/float/float.go: ToInt", "/repo/gadget/gadget.go: QueryPowerOf2"]}
{"id": "C28", "title": "Float equality assertion", "statement": "AssertIsEqual of two valid floats is satisfiable iff they are the same IEEE datum (same bits, or both NaN).", "quantifier": "all pairs of valid floats", "why_tests_cant": "completeness/soundness over all pairs", "anchors": ["/repo/float/float.go: AssertIsEqual"]}
{"id": "C29", "title": "Relaxed equality (1 ULP)", "statement": "AssertIsEqualOrULP accepts equal data and neighbouring normal floats of the same sign and rejects everything at distance more than one unit; the exact accepted set (including rejected adjacent subnormals and accepted max-finite/infinity) is characterised.", "quantifier": "all pairs of valid floats", "why_tests_cant": "the accepted relation is over all pairs", "anchors": ["/repo/float/float.go: AssertIsEqualOrULP"]}
{"id": "C30", "title": "Relaxed equality (custom tolerance)", "statement": "AssertIsEqualOrCustomULP accepts x, y only if they have the same sign (or one is NaN) and either are the same datum or |x - y| rounded is at most the given tolerance taken as an absolute value (not in units in the last place).", "quantifier": "all pairs of valid floats, every tolerance, every prover", "why_tests_cant": "accepted relation over all pairs", "anchors": ["/repo/float/float.go: AssertIsEqualOrCustomULP32, AssertIsEqualOrCustomULP64"]}
{"id": "C31", "title": "Expressions evaluate as IEEE-754 arithmetic", "statement": "Any composition of circuit operations (+, -, *, /, sqrt, abs, neg, floor, trunc, ceil, comparisons with select) run by the honest prover succeeds and yields the value of the same expression under the reference float semantics: intermediate results are always canonical, so operations compose.", "quantifier": "all expression trees, all inputs", "why_tests_cant": "unbounded program space", "anchors": ["/repo/float/float.go: Add, Sub, Mul, Div, Sqrt, Neg, Abs, Floor, Trunc, Ceil, Select, less"]}
{"id": "C32", "title": "Results do not depend on field or table width", "statement": "The honest results of all operations are independent of the scalar field (BN254, BLS12-381, ...) and of the range-check table width.", "quantifier": "every large enough prime field, every table width", "why_tests_cant": "tests run one field and one width", "anchors": ["/repo/float/float.go: NewContext", "/repo/gadget/gadget.go: New"]}
{"id": "C33", "title": "Polynomial evaluation", "statement": "EvalK with k=1 is Horner evaluation with the highest-order coefficient first; Eval is Horner evaluation with the lowest-order coefficient first; so Eval(p) = EvalK(reverse p, 1) for every polynomial and point.", "quantifier": "all coefficient lists, all points", "why_tests_cant": "unbounded lists", "anchors": ["/repo/math/math.go: Eval, EvalK"]}
{"id": "C34", "title": "Trigonometric approximations preserve sign and oddness", "statement": "AtanRemez and SinTaylor return a number whose sign bit is the sign bit of the argument and whose magnitude depends only on the magnitude of the argument (Atan) resp. for arguments of the same magnitude not above pi/2 (Sin): the approximations are exactly odd functions, for every argument.", "quantifier": "every valid argument", "why_tests_cant": "bit-exact symmetry over all arguments", "anchors": ["/repo/math/math.go: AtanRemez32, AtanRemez64, SinTaylor32, SinTaylor64"]}
{"id": "C35", "title": "Radius scaling by the grid resolution", "statement": "Scaling by resolution multiplies by the square-and-multiply power of the aperture constant selected by the four resolution bits; resolutions above 15 are rejected by every prover.", "quantifier": "every resolution value, every prover", "why_tests_cant": "adversarial bit decompositions", "anchors": ["/repo/loc2index32/loc2index32.go: scaleR", "/repo/loc2index32/loc2index32_test.go: loc2Index32Circuit.Define"]}
{"id": "C36", "title": "Closest face selection", "statement": "The face selection returns the data of the first face of minimal squared distance among the twenty faces (when some distance is below the start value), for every input vector.", "quantifier": "every input vector", "why_tests_cant": "argmin over all inputs", "anchors": ["/repo/loc2index32/loc2index32.go: closestFaceCalculations"]}
{"id": "C37", "title": "IJK normalisation is H3's normalisation", "statement": "NormalizeIJK computes, for every prover, the H3 normal form of the given signed coordinates: all components non-negative, at least one zero, same hexagon (equal up to adding a constant to all three).", "quantifier": "all integer triples within range, every prover", "why_tests_cant": "adversarial sign hints at ties, all triples", "anchors": ["/repo/loc2index32/loc2index32.go: NormalizeIJK", "/repo/loc2index64/loc2index64.go: NormalizeIJK"]}
{"id": "C38", "title": "Hex-coordinate rounding follows H3", "statement": "The conversion of planar hex coordinates to IJK follows H3's published reference algorithm `_hex2dToCoordIJK` (not part of /repo: the directory h3-master is empty) branch for branch, for every input; the only deviation is that the sign bit is used instead of `< 0`, which matters only for negative zero.", "quantifier": "all planar coordinates, every prover", "why_tests_cant": "case analysis over real-valued thresholds", "anchors": ["/repo/loc2index32/loc2index32.go: hex2dToCoordIJK", "/repo/loc2index64/loc2index64.go: hex2dToCoordIJK"]}
{"id": "C39", "title": "Latitude/longitude range check", "statement": "The circuit bounds latitude and longitude: accepted inputs satisfy not (lat > pi/2) and not (lng > pi). It does not reject NaN or values below the negative bounds.", "quantifier": "all inputs, every prover", "why_tests_cant": "absence of a check cannot be shown by passing tests", "anchors": ["/repo/loc2index32/loc2index32_test.go: loc2Index32Circuit.Define", "/repo/loc2index64/loc2index64_test.go: loc2Index64Circuit.Define"]}
{"id": "C40", "title": "The proved cell is bound to the secret location", "statement": "A proof for cell (I,J,K) should imply that the secret latitude/longitude lies in that cell. In the precompute-hint circuit this fails: the sine/cosine wires are unconstrained by the inputs, so whether (I,J,K) can be proved does not depend on latitude and longitude at all.", "quantifier": "all inputs and all provers", "why_tests_cant": "binding is a statement about all provers", "anchors": ["/repo/loc2index32/loc2index32_test.go: loc2Index32Circuit.Define", "/repo/hint/hint.go: PrecomputeHint32, PrecomputeHint64"]}
{"id": "C41", "title": "Tests' circuits accept exactly the IEEE result", "statement": "The unary/binary operation circuits (allocate operands and claimed result, assert equality) are satisfiable for claimed result Z iff Z is the IEEE result of the operation on X and Y (same bits or both NaN), with the exceptions listed for the individual operations.", "quantifier": "all triples of bit patterns, every prover", "why_tests_cant": "tests only show that the right Z is accepted, never that all wrong Z are rejected", "anchors": ["/repo/float/float_test.go: F32BinaryCircuit, F32UnaryCircuit, F32ComparisonCircuit", "/repo/float/float.go: Add, Mul, Div, Sqrt"]}
{"id": "C42", "title": "Negation, absolute value and selection", "statement": "Neg and Abs change only the sign bit (Neg is an involution, Abs is idempotent and ignores Neg); Select returns one of its operands, unchanged, according to the boolean condition.", "quantifier": "all valid floats", "why_tests_cant": "all inputs", "anchors": ["/repo/float/float.go: Neg, Abs, Select"]}
{"id": "C43", "title": "Algebraic laws of circuit arithmetic", "statement": "Addition and multiplication are commutative on the circuit wires (for every prover, up to the listed ambiguities); x - y = -(y - x) for distinct finite operands; 1*x = x; x + 0 = x; x/1 = x.", "quantifier": "all valid floats", "why_tests_cant": "laws quantify over all inputs", "anchors": ["/repo/float/float.go: Add, Sub, Mul, Div"]}
{"id": "C44", "title": "Geometry constants are correctly rounded and geometrically consistent", "statement": "The circuit constants of the location code (face centre points, sines and cosines of the face centres, sin 60, resolution constant, thresholds) are the IEEE round-to-nearest-even values of the decimals in the source, and the twenty face centres lie within the stated error of the unit sphere.", "quantifier": "every entry of the constant tables, both precisions", "why_tests_cant": "a wrong digit in one table entry affects only a small part of the globe", "anchors": ["/repo/util/util.go: FaceCenterPoint_32, FaceCenterPoint_64, SinFaceLat_32, CosFaceLat_32, Sin60_32, ResConst_32, Sqrt7_32 and the _64 versions"]}
{"id": "C45", "title": "The circuit's cell contains the location", "statement": "Given floats within tau of the sines and cosines of latitude and longitude, the cell (i,j,k) computed by the location circuit belongs to a face whose centre is the nearest up to 64 tau, and H3's exact gnomonic projection of the location onto that face lies in the hexagon of the cell enlarged by 768 tau sqrt(7)^res; a cell is computed for every location that is not within 20 tau of a face centre; and no other cell is accepted from any prover.", "quantifier": "all latitudes and longitudes, resolutions 0 to 15, both precisions, all provers", "why_tests_cant": "the tests compare a sample of locations; errors appear near face and cell borders and depend on rounding", "anchors": ["/repo/loc2index32/loc2index32.go: closestFaceCalculations, calculateR, calculateHex2d, hex2dToCoordIJK", "/repo/loc2index64/loc2index64.go"]}
{"id": "C46", "title": "Every location has a provable cell", "statement": "For every latitude and longitude in range the honest prover can prove the cell of the location. (Violated at the centres of the faces, where the code divides zero by zero.)", "quantifier": "all locations", "why_tests_cant": "the failing inputs are single points", "anchors": ["/repo/loc2index32/loc2index32.go:126-128"]}
{"id": "C47", "title": "Accuracy of SinTaylor", "statement": "For every argument x between -P and P (P the format's constant for pi), SinTaylor32 and SinTaylor64 return a float within 72 half units in the last place of 1 (72*2^-24, 72*2^-53) of sin x; the honest prover always succeeds and no prover can do otherwise.", "quantifier": "all finite floats in [-pi, pi], both precisions, all provers", "why_tests_cant": "the tests sample arguments", "anchors": ["/repo/math/math.go: SinTaylor32, SinTaylor64"]}
{"id": "C48", "title": "The location circuit proves the cell of its location", "statement": "loc2Index32CircuitWrapper: for every latitude in [-pi/2, pi/2] and longitude in [-pi, pi] given as single-precision bit patterns, and every resolution up to 15, a proved cell contains the location (nearest face up to 64 tau, hexagon enlarged by 768 tau sqrt(7)^res, tau = 96*2^-24); it exists unless the location is within 20 tau of a face centre; no prover can have another cell accepted.", "quantifier": "all latitudes, longitudes, resolutions, provers", "why_tests_cant": "the tests sample locations and use the honest prover only", "anchors": ["/repo/loc2index32/loc2index32_test.go:213-265"]}
{"id": "C49", "title": "The precompute circuits prove the cell of the location of their hints", "statement": "loc2Index32Circuit and loc2Index64Circuit: if the hint values are near the sines and cosines of the angles, every cell that the honest prover proves contains the location (same tolerances, tau down to 2^-20 and 2^-49).", "quantifier": "all locations, resolutions, hint values within the tolerance", "why_tests_cant": "the tests sample locations", "anchors": ["/repo/loc2index32/loc2index32_test.go:37-153", "/repo/loc2index64/loc2index64_test.go:35-168", "/repo/hint/hint.go: PrecomputeHint32, PrecomputeHint64"]}
{"id": "C50", "title": "The arc tangent is accurate", "statement": "AtanRemez32 and AtanRemez64 succeed for the honest prover on every finite input at every table width; the result is a finite number within 10 (single) and 25 (double) half units of the last place of 1 of the arc tangent; at widths dividing the lookup size no prover can have another result accepted.", "quantifier": "all finite inputs, widths, provers", "why_tests_cant": "tests sample inputs and allow an error; nothing relates the coefficients to the function on the whole range", "anchors": ["/repo/math/math.go: AtanRemez32, AtanRemez64"]}
{"id": "C51", "title": "Atan2 is the angle of the point", "statement": "Atan2(y, x) is within 33 half units of the last place of 1 of the angle of (x, y), for every finite pair.", "quantifier": "all finite pairs, widths, provers", "why_tests_cant": "tests sample pairs, not the axes and not quotients that overflow", "anchors": ["/repo/math/math.go: Atan2"]}
{"id": "C52", "title": "Hexadecimal bit patterns round trip", "statement": "HexToFloat and HexToFloat32 accept exactly the hexadecimal numbers of their width and read back what floatToHex writes; different coordinates are written as different lines; files written with useFloat32 can be read by HexToFloat32.", "quantifier": "all bit patterns and texts", "why_tests_cant": "the 2^64 patterns cannot be enumerated", "anchors": ["/repo/proximity/proximity.go:42-72", "/repo/util/util.go:388-410"]}
{"id": "C53", "title": "StrToIntSlice returns the bytes denoted", "statement": "With hexadecimal representation the bytes denoted by the text are returned and malformed text is rejected; without it, the characters, injectively.", "quantifier": "all ASCII texts", "why_tests_cant": "unbounded texts", "anchors": ["/repo/util/util.go:463-484"]}
{"id": "C54", "title": "The printed cell is parsed", "statement": "From any output that contains I: i, J: j, K: k after text without I, the parser returns (i, j, k); negative coordinates are rejected.", "quantifier": "all coordinates, all surrounding texts", "why_tests_cant": "unbounded texts and numbers", "anchors": ["/repo/util/util.go:431-445", "/repo/proximity/proximity.go:88-94"]}
{"id": "C55", "title": "The printed boundary is parsed", "statement": "cellToBoundary returns the points that the H3 program prints.", "quantifier": "all lists of points, all decimal numbers, signs, indentations", "why_tests_cant": "the only location in the code is in the north-eastern quadrant, where the pattern happens to work", "anchors": ["/repo/proximity/proximity.go:144-174"]}
{"id": "C56", "title": "The reported distance is the least one", "statement": "After any positive number of executions the reported distance is the least distance of a boundary point.", "quantifier": "all lists of distances, all numbers of executions", "why_tests_cant": "unbounded lists", "anchors": ["/repo/proximity/proximity.go:196-229"]}
{"id": "C57", "title": "OldHaversine is the great circle distance", "statement": "In exact arithmetic OldHaversine is the radius times the angle between the two directions; it is symmetric and lies between 0 and half the circumference.", "quantifier": "all real coordinates", "why_tests_cant": "real-valued identity", "anchors": ["/repo/proximity/proximity.go:22-33"]}
{"id": "C58", "title": "The published lookup-constraint counts are what the code counts", "statement": "For each operation of the constraint benchmark and each table size 8, 12, 16 in both precisions, the lookup query count is the published one, whatever operations were measured before; the counter never decreases, so the unsigned difference does not wrap.", "quantifier": "all provers, all previously executed operations, all published rows", "why_tests_cant": "the benchmark prints numbers but compares them with nothing, and measures each operation after one fixed history only", "anchors": ["/repo/float/float_constraints_test.go:27-74", "/repo/gadget/gadget.go", "/repo/benchmarks/float/constraints.csv"]}
{"id": "C59", "title": "What the math package's circuits prove", "statement": "As deployed (automatic width, every back-end, arbitrary hints) the arc tangent and sine circuits accept only outputs within a stated error of the true function value, every finite input has an accepted output, the circuits with a tolerance prove that the value lies between the bounds, and the polynomial circuits accept only the polynomial's value.", "quantifier": "all inputs, all hints, all back-ends", "why_tests_cant": "the tests run the honest prover on listed vectors, and one of the vectors cannot pass", "anchors": ["/repo/math/math_test.go:19-294"]}
{"id": "C60", "title": "A benchmark reports success only for a proof that verifies", "statement": "A run of a benchmark function (Groth16 or PLONK, to file or to memory) ends without an error only if every proof it produced was verified; in particular its row is written only then. The code violates this for Groth16, whose verification error is dropped.", "quantifier": "all environments (results of compile, setup, prove, verify), all previous file contents", "why_tests_cant": "the tests run with working back-ends, whose verification never fails", "anchors": ["/repo/util/util.go:491-806"]}
{"id": "C61", "title": "The result file contains exactly the rows of the successful runs", "statement": "After any sequence of benchmark runs the file is its previous content, with the header exactly once at the top if it was new, followed by one row per successful run in order; a row determines all its numbers.", "quantifier": "all sequences of runs, all measurements, all initial file contents", "why_tests_cant": "a test appends at most a few rows and does not read the file back", "anchors": ["/repo/util/util.go:525-700"]}
{"id": "C62", "title": "The index of a test vector counts its resolution", "statement": "The index attached to entry k is the number of earlier entries with the same resolution, so that (resolution, index) identifies an entry.", "quantifier": "all lists of entries", "why_tests_cant": "only the listed vectors are executed", "anchors": ["/repo/loc2index32/loc2index32_test.go:302-336"]}
{"id": "C63", "title": "Test vector files are read back as written", "statement": "The location entries that the generator writes are read back by the tests as the same numbers, for every list of entries; hexadecimal parsing agrees with positional notation on every string. The output of WriteHexCellsToFile is not readable this way.", "quantifier": "all entries, all strings", "why_tests_cant": "only the committed files are read", "anchors": ["/repo/loc2index32/loc2index32_test.go:302-336", "/repo/data/generate_test_loc2index.py:145", "/repo/util/util.go"]}
{"id": "C64", "title": "The published result table shows the outcomes of the log", "statement": "For every go test log the row of an operation is exactly the sequence of its outcomes. Violated for the double-precision location test: the script looks for the single-precision name in the double-precision log, so that this row is green whatever happened.", "quantifier": "all logs", "why_tests_cant": "the script is run on logs without failures", "anchors": ["/repo/scripts/generate_latex_table_tests.py:12-42", "/repo/scripts/generate_latex_table_tests.py:111-112"]}
{"id": "C65", "title": "The output of the H3 tools is parsed to what they print", "statement": "The parser of the cell index returns the printed word, for every word; the parser of the cell centre returns the two printed fields.", "quantifier": "all indices and coordinates", "why_tests_cant": "the tools are external and the tests use a few locations", "anchors": ["/repo/proximity/proximity.go:103-142"]}
{"id": "C66", "title": "Unit conversions are accurate and lose nothing", "statement": "Scaled integers of less than 52 bits are converted injectively, in order and with half a unit of relative error; radians and degrees are converted with relative error at most 2^-52 + 2^-106 and the round trip stays within 2^-50. Violated for larger integers: 2^53 and 2^53+1 collide.", "quantifier": "all integers, all angles", "why_tests_cant": "a numeric example does not bound the error elsewhere", "anchors": ["/repo/util/util.go:378-386", "/repo/proximity/proximity.go:31-33"]}
{"id": "C67", "title": "The floating-point tests pass exactly on tables of IEEE-754 results", "statement": "For every directory of test tables (rows of hexadecimal words, any length), the tests of float_test.go pass exactly if every row lists the IEEE-754 result of its operation; every operation named in the test is exercised. Violated: rows with exact cancellation in the top binade must list +Inf, so correct rows of the repository's own tables fail; IsGt and IsGe are never exercised because their tables do not exist and a missing file is silently empty.", "quantifier": "all tables, all rows, all fields", "why_tests_cant": "this is a statement about what the tests themselves establish", "anchors": ["/repo/float/float_test.go:166-428", "/repo/data/f32/sub:19230", "/repo/data/f64/add:19494"]}
{"id": "C68", "title": "The Remez script returns equioscillating, near-best coefficients", "statement": "In exact arithmetic: the bisection ends and finds a sign change to its tolerance; every round has one solution, keeps its points ordered and finds zeros separating them; the returned polynomial misses the function by the same amount with alternating signs at ordered points of the interval, and no polynomial of the degree does better than that amount; when the errors are level the result is near best. The printed maximum error is the maximum. Violated: it is the mean.", "quantifier": "all functions, degrees, intervals and numbers of rounds", "why_tests_cant": "the script is run by hand for two functions and has no tests; optimality compares with every polynomial", "anchors": ["/repo/scripts/generate_remez_coefficients.py:1-92"]}
{"id": "C69", "title": "The table tests of the arc tangent and the sine accept correct rows and only those", "statement": "For every table: a row that passes lists the function to the proved accuracy (exactly for the tests without bounds, within the bounds for the tests with bounds), and correct rows pass. Violated: no row of a negative output with its neighbours as bounds passes, so the repository's tables fail; the sine test reads one line only; rows of data/f64/atan and data/f64/sin fail by one unit.", "quantifier": "all tables, all rows", "why_tests_cant": "this is a statement about what the tests themselves establish", "anchors": ["/repo/math/math_test.go:291-426", "/repo/data/f64/sin_ulp:1", "/repo/data/f64/atan_ulp:101", "/repo/data/f32/atan_ulp:101", "/repo/data/f64/atan:2", "/repo/data/f64/sin:1"]}
{"id": "C70", "title": "The table tests of the location circuits establish the listed cells", "statement": "For every table and every hint function: a row that passes lists a cell at its location (up to C49's error), rows with equal input list equal cells, and rows outside the range do not pass. Violated: lines of the repository's single-precision table list the right cell and fail; without the external program no double-precision table passes; and for every row that passes the same circuit accepts the listed cell for every location in range.", "quantifier": "all tables, all rows, all hint functions", "why_tests_cant": "this is a statement about what the tests themselves establish", "anchors": ["/repo/loc2index32/loc2index32_test.go:155-196", "/repo/loc2index64/loc2index64_test.go:170-213", "/repo/data/f32/loc2index32.txt:139-144", "/repo/util/util.go:412-450"]}
{"id": "C71", "title": "Rows of the generated sine and arc tangent tables bracket the function at the listed input", "statement": "In every row the true value of the function at the listed input lies strictly between the two listed neighbours of the output, and rows with the same input agree. Holds for double precision (and for drawn numbers that are singles). Violated in single precision: the function is evaluated at the double that was drawn while the row lists it rounded, so that for every single from 2^28 to 9e9 and every s in [-1,1] some draw gives a row listing a sine within 2^-16 of s, and rows with the same input contradict each other.", "quantifier": "all functions, all drawn numbers, all listed inputs", "why_tests_cant": "the tables are the tests; their generator is random and untested", "anchors": ["/repo/data/generate_test_math.py:12-82"]}
{"id": "C72", "title": "scripts/ulp.py prints the distance of two doubles in units of the last place", "statement": "For significands of the same exponent the printed number is their distance. Violated for all unequal significands: a second leading bit is added and the unit is the distance of both neighbours, so the output is within 1/2 of a quarter of the distance; the script prints 0.5 for its own neighbouring numbers, which it reads as larger than 2^526.", "quantifier": "all exponents and significands in range", "why_tests_cant": "the script has no tests and is run on one pair", "anchors": ["/repo/scripts/ulp.py:4-49"]}
{"id": "C73", "title": "Points of the location table lie inside their cells", "statement": "In exact arithmetic and for every answer of the H3 programs: nine rows per resolution, each on the segment from the centre of the cell to its first corner at a fraction between 0.23 and 0.77, hence in every convex region with the centre and the corners, never nearer to the corner than 23 % of the way, with the index of that same point.", "quantifier": "all cells, resolutions and index functions", "why_tests_cant": "the generator is run once on one location", "anchors": ["/repo/data/generate_test_loc2index.py:75-115"]}
{"id": "C74", "title": "With the values of PrecomputeHint32/64 the location circuits prove the cell of their own inputs", "statement": "For every library with relative error at most 2^-28 (single precision) or any error up to 2^-20 (double), PrecomputeHint delivers values near the sines and cosines, the single precision checks accept them, every proved cell contains the location given by the inputs' bit patterns, and in single precision a cell is proved for every location in range that is not within 20*2^-20 of a face centre. A correctly rounded library exists and has relative error 2^-53.", "quantifier": "all bit patterns of angles in range, all resolutions up to 15, all libraries, all table widths", "why_tests_cant": "the tests sample 144 rows and one implementation of the sine", "anchors": ["/repo/hint/hint.go:26-106", "/repo/loc2index32/loc2index32_test.go:37-153", "/repo/loc2index64/loc2index64_test.go:35-168"]}
{"id": "C75", "title": "The double-precision circuit accepts the values of PrecomputeHint64", "statement": "The checks on latitude and longitude accept the values the hint function computes. Violated for the longitude: its second check passes exactly if the rounded product of the tangent and the cosine is the sine or a neighbour, and for the longitude 0x3ff021a8aa4de5f7 no cell can be proved although all values are correctly rounded. The latitude checks always pass, and under the exact condition the circuit is complete.", "quantifier": "all bit patterns of angles in range, all correctly rounded libraries; for other libraries with relative error at most 2^-20, angles that are zero or at least 2^-100", "why_tests_cant": "no row of the repository's table is such a longitude", "anchors": ["/repo/loc2index64/loc2index64_test.go:95-150", "/repo/hint/hint.go:26-65"]}
{"id": "C76", "title": "A proved cell is the exact cell of a location within a stated number of metres", "statement": "Every cell proved by an honest prover is the exact H3 cell (no enlargement of the hexagon) of a location near the one given by the inputs: within 4 micrometres in double precision with the values of PrecomputeHint64 and a correctly rounded library, within 2.1 km in single precision, within 12.4 km for the single-precision circuit without hints, and in general within 339 tau earth radii for inputs with error tau. At table widths that divide that of the shift table, and from resolution 6 on, the same holds for every prover with 0.442/sqrt(7)^n earth radii more. The distance is that of OldHaversine in exact arithmetic.", "quantifier": "all bit patterns of angles in range, all resolutions up to 15, all proved cells, all table widths (every prover: dividing widths)", "why_tests_cant": "the tests compare 144 rows with stored cells and measure no distance", "anchors": ["/repo/loc2index64/loc2index64.go", "/repo/loc2index32/loc2index32.go", "/repo/util/util.go"]}
{"id": "C77", "title": "For a location that is not near a border exactly its own cell is accepted", "statement": "If the location is inside the cell (i,j,k) of its strictly nearest face, with a margin of 768 tau sqrt(7)^n grid units to the sides and 64 tau to the next face, then the location circuits accept from an honest prover the cell (i,j,k) and no other; in single precision, with the hint function or without hints, it is accepted (location more than 20 tau from a face centre).", "quantifier": "all bit patterns of angles in range, all resolutions up to 15, all cells, all table widths", "why_tests_cant": "all locations inside all cells cannot be sampled, and the tests have no notion of the border", "anchors": ["/repo/loc2index64/loc2index64.go", "/repo/loc2index32/loc2index32.go"]}
{"id": "C78", "title": "The printed table of test results shows the outcomes of the tests", "statement": "For a table of test cases with nine entries for each of the 16 resolutions and logs that report every outcome, the LaTeX table printed by generate_latex_table_tests.py, read back, has for each of the three groups of five resolutions one row for each circuit (P6, P12, F32, F64), whose cells are green or red as the tests of the resolutions 1 to 15 passed or failed, in the order of the tests.", "quantifier": "all tables of test cases, all outcomes, all logs with further lines between the reports", "why_tests_cant": "the script has no tests", "anchors": ["/repo/scripts/generate_latex_table_tests.py:1-115"]}
{"id": "C79", "title": "Accuracy of the polynomial evaluation", "statement": "For every format, every list of coefficients and every input that are numbers, Eval and EvalK with k = 1 return the value of the polynomial with an error of at most ((1+u)^(2n) - 1) times the sum of the sizes of its terms plus an underflow term (u half a unit in the last place of one, n the number of coefficients), as long as that sum is away from the end of the range. For the two polynomials of math_test.go and inputs up to 2^16 that is 9 and 23 half units of that sum, and the test circuit of degree ten accepts, whatever the hints, only outputs with that magnitude, and some output for each such input.", "quantifier": "all formats, polynomials, inputs, table widths (honest prover), all hint values at widths that divide the lookup size", "why_tests_cant": "two vectors are tested", "anchors": ["/repo/math/math.go:12-57", "/repo/math/math_test.go:19-165"]}
{"id": "C80", "title": "The tables of polynomial values list values of the polynomials", "statement": "If the library's power is accurate to a unit in the last place, every row that generate_test_polynomial.py writes lists an input and the value of the polynomial at that input: in double precision up to 8 (cubic) and 15 (degree ten) half units in the last place of the sum of the sizes of the terms, in single precision the correctly rounded value; rows with the same input list the same output; and the circuits' value for a listed input of the double precision tables is within 17 and 38 such half units of the listed output.", "quantifier": "all draws of the random generator, all accurate power functions, all provers", "why_tests_cant": "the generator has no tests and no test reads its tables", "anchors": ["/repo/data/generate_test_polynomial.py:1-54", "/repo/math/math.go:12-57"]}
{"id": "C81", "title": "The published runtimes are the statistics of the successful benchmark runs", "statement": "For every sequence of benchmark runs on a new file, evaluate_runtime_ZKLP.py reads back exactly the measurements of the successful runs; its first table has the number, average, standard deviation, smallest and largest value and quartiles of each column, its second table the same for every resolution that occurs, in increasing order, where every measurement is in exactly one group. Runs that fail leave no trace in the tables.", "quantifier": "all sequences of benchmark runs, all measurements", "why_tests_cant": "the script has no tests; files and measurements are unbounded", "anchors": ["/repo/scripts/evaluate_runtime_ZKLP.py:1-24", "/repo/util/util.go:525-700", "/repo/benchmarks/raw"]}
{"id": "C82", "title": "The tables of locations list the right cells, and what the tests make of them", "statement": "Every line of data/f32/loc2index32.txt and data/f64/loc2index64.txt lists the face cell that contains its location in exact geometry, with a margin in squared face distance of 1/20 and in the grid of 2/25 and 1/10 of a unit. TestLoc2Index64 passes on its table if sine, cosine and tangent are correctly rounded, and for each line no other cell is accepted from the honest prover; TestLoc2Index32 passes the lines with resolution at most 5 for every library accurate to 2^-28.", "quantifier": "all lines of both files, all fields and widths, all libraries of the stated accuracy", "why_tests_cant": "the expected cells come from the same external program that generates them; a test sees one library, and cannot compare with exact geometry", "anchors": ["/repo/data/f32/loc2index32.txt", "/repo/data/f64/loc2index64.txt", "/repo/loc2index32/loc2index32_test.go:155-200", "/repo/loc2index64/loc2index64_test.go:170-214"]}
{"id": "C83", "title": "The compiled rank-1 systems have the meaning of the API calls", "statement": "Compiled the way gnark's R1CS builder compiles (constants folded, no constraint for expressions already known to be boolean, IsZero and hints as free wires, deferred range checks with limbs), each test circuit of float_test.go yields a system that has a solution for given inputs exactly if the circuit read with the documented meaning of the API calls is satisfiable, so exactly for the IEEE results (and the listed exceptions). Every expression marked as boolean is 0 or 1 in every solution. The numbers of native constraints of the seven operations are the published 13, 42, 42, 31, 38, 23, 26 in every row.", "quantifier": "all field elements as inputs, all assignments of all wires, all widths of the range table, both formats", "why_tests_cant": "assert.ProverSucceeded tries the honest assignment of a few inputs; the tests cannot enumerate assignments of the internal wires", "anchors": ["/repo/float/float_test.go:1-330", "/repo/float/float.go:1-1164", "/repo/float/float_constraints_test.go:43-74", "/repo/gadget/gadget.go:67-134", "/repo/gadget/rangecheck.go:63-120", "/repo/benchmarks/float/constraints.csv"]}
{"id": "C84", "title": "The compiled location circuits", "statement": "Compiled the way gnark's R1CS builder compiles, including ToBinary and AssertIsLessOrEqual, the location circuit without hints yields a system that has a solution for given inputs exactly if the circuit read with the documented meaning of the API calls is satisfiable. So the results on the circuit hold of the system: at a width of the range table that divides 32 no assignment of the internal wires yields a cell other than one of a location within 2820 km / sqrt(7)^n + 12.4 km, no resolution above 15 is accepted, and every location away from the face centres has a solution; at the width 9 that the code selects the system has solutions with two cells of one location and, at every resolution, with a cell that no location lies in.", "quantifier": "all field elements as inputs, all assignments of all wires, all widths of the range table (soundness: dividing widths), all locations and resolutions", "why_tests_cant": "the tests run the honest prover on some locations; assignments of about twenty thousand wires cannot be enumerated", "anchors": ["/repo/loc2index32/loc2index32_test.go:203-265", "/repo/loc2index32/loc2index32.go:13-266", "/repo/math/math.go:255-295", "/repo/gadget/rangecheck.go:63-120"]}
{"id": "C85", "title": "The compiled location circuits with hinted sines", "statement": "Compiled the way gnark's R1CS builder compiles, in the order of the code, each of the two location circuits whose sines and cosines are hinted yields a system that has a solution for given inputs exactly if the location passes the range check and the cell can be claimed, the latter independently of the location. What the compiler takes for booleans, including the signs of the hinted sines, is boolean in every solution. The code selects tables of width 9 and 11. A proof should bind the cell to the location: at every width it does not, and at the deployed width one fixed cell is accepted for every location in range. The honest single-precision prover has a solution with the cell of its location wherever the location is not at a face centre.", "quantifier": "all field elements as inputs, all assignments of all wires, all values of the hint functions, all widths of the range table, all locations and resolutions", "why_tests_cant": "the tests run the honest prover on 200 locations; they never choose the hinted wires", "anchors": ["/repo/loc2index32/loc2index32_test.go:28-153", "/repo/loc2index64/loc2index64_test.go:26-168", "/repo/gadget/rangecheck.go:63-120"]}
{"id": "C86", "title": "The compiled circuits of the math package's tests", "statement": "Compiled the way gnark's R1CS builder compiles, with its bitwise comparison of two variables, each of the seven circuits of math_test.go yields a system that has a solution for given inputs exactly if the circuit read with the documented meaning of the API calls is satisfiable; what the compiler takes for boolean is boolean in every solution. The code selects tables of width 8, except for the cubic polynomial, which gets 6 or 7. So no assignment of the internal wires makes the systems accept an arc tangent, sine or value of the polynomial of degree ten whose magnitude is off by more than the stated errors, and every finite input (in range) has a solution. Expected but false: the sign of the claimed output is compared, the cubic polynomial cannot be forged, the vectors of the degree-ten test are accepted, bounds around a power of two are usable.", "quantifier": "all field elements as inputs, all assignments of all wires, all widths of the range table", "why_tests_cant": "the tests run the honest prover on table rows; they never choose internal wires, and the bits of the comparison have non-canonical alternatives that only a malicious prover would use", "anchors": ["/repo/math/math_test.go:19-294", "/repo/math/math.go:13-295", "/repo/gadget/rangecheck.go:63-120"]}
{"id": "C87", "title": "The totals for many operations and the files of the constraint benchmark", "statement": "TestFloatCircuitConstraints measures every floating-point operation once and computes the totals for n operations by multiplication, noting that this is guaranteed to be accurate. It is: compiled the way gnark's R1CS builder compiles (without compressing long expressions), n operations on the same operands, for every n, have exactly n times the published number of native constraints; so have any sequence of the operations after the measured circuit, and any sequence of operations on any pairs of inputs. Together with the counters of the lookups the total column is the number of constraints of the circuit with n operations. The amortised column never rises and is the cost of one operation exactly from the first n above the one-time cost. The 43 files in /repo/benchmarks/float are, character by character, what the test writes.", "quantifier": "all numbers of operations, all sequences of the seven operations, all numbers of inputs and choices of operand pairs, all six parameter settings, all states of the gadget between operations", "why_tests_cant": "the test measures one operation and does not compile circuits with many, where operations could share what is already known to be boolean; nothing compares the committed files with what the code writes", "anchors": ["/repo/float/float_constraints_test.go:22-137", "/repo/benchmarks/float/constraints.csv:1-7", "/repo/gadget/gadget.go:40-65"]}
{"id": "C88", "title": "The lookups as constraints: what the complete systems say of inputs", "statement": "The circuits check ranges and powers of two by lookups, which gnark compiles to rank-1 constraints over committed values and a random challenge (the log-derivative argument). The complete systems mean what the circuits with ideal lookups mean, but for few challenges: inputs that the circuit rejects pass for at most 2*2^b + r + 2*(2*size + q) challenges whatever the prover commits to beforehand (r, q: numbers of queries of the two tables), and inputs that it accepts pass, after a suitable commitment, for all but r + 2*q. For single-precision arithmetic over BN254 that is IEEE 754 up to 512 challenges of about 2^254, for double precision 1024, for the deployed location circuit 2^16. The number of constraints is the circuit's own, plus what the gadget's two counters say, plus three.", "quantifier": "all input lists, all commitments of the prover and all challenges; all circuits of the float and math tests and the location circuits, all admissible primes and widths; for the counts all circuits", "why_tests_cant": "soundness is about all commitments and challenges; the tests run honest provers and gnark's test engine, which does not use the argument at all; nothing compares the counters with the constraints of the lookups", "anchors": ["/repo/gadget/rangecheck.go:59-120", "/repo/gadget/gadget.go:20-79", "/repo/gadget/rangecheck.go:150-191"]}
{"id": "C89", "title": "The automatic width gives the fewest constraints", "statement": "The range checker selects the width of its table so that the compiled circuit has as few constraints as possible. It does not: the estimate it minimises counts a second query for every check whose length is not a multiple of the width and a recomposition for every check, although tight checks need the first only and values of one limb need no recomposition. The single-precision adder and multiplier have 311 and 282 constraints at the selected width 4 and 305 and 277 at width 5. What holds: the estimate differs from the true number by exactly these two counts and a constant, so that no width between 2 and 17 saves more than the overcount, at most two constraints for each range check.", "quantifier": "all circuits, all numbers of inputs, all table sizes, all widths from 2 to 17", "why_tests_cant": "no test compares the selected width with another; the benchmarks record only the number at the selected one", "anchors": ["/repo/gadget/rangecheck.go:122-191", "/repo/gadget/rangecheck.go:84-117"]}
{"id": "C90", "title": "The compression threshold changes the number of constraints but not the meaning", "statement": "The benchmarks compile with WithCompressThreshold(1000): when a sum reaches that many terms the builder puts it on a wire of its own, with one more constraint. What a complete system says of inputs, commitments and challenges does not depend on the threshold. A sum of L terms is split (L-1)/(k-1) times at threshold k, below the threshold nothing changes, and if the circuit's own expressions are shorter than the threshold, only the four sums of the two lookup arguments are split.", "quantifier": "all complete rank-1 systems, all thresholds, all inputs, commitments and challenges", "why_tests_cant": "the tests compile without the threshold and the benchmarks with it, so the systems that are proved are not the ones that are tested; equality of meaning is over all assignments", "anchors": ["/repo/util/util.go:486-494", "/repo/util/util.go:556", "/repo/util/util.go:704", "/repo/float/float_constraints_test.go:113-116"]}
{"id": "C91", "title": "Which inputs the sine and arc tangent tables can contain", "statement": "generate_random_float draws from ten declared ranges, a hundred numbers each, described as reaching from 1e-100 to 1e100 (double) and over the whole single precision range. Every draw is the point of its range at the delivered fraction up to a relative error of 2^-49, every draw gives a row (singles never overflow when packed; double rows bracket the true value), and the generator fails from round 1000 on. But the draw is uniform and not logarithmic: unless the random number is exactly 0 (one case in 2^53), no double precision input lies between 1e10 and 1e84 or below 1e-26, and no single precision one between 1e10 and 3e22 or between 1e-38 and 1e-26; the last hundred single precision inputs are all subnormal or zero.", "quantifier": "all rounds, all 2^53 values of the random generator", "why_tests_cant": "the tables are the tests; nothing checks which inputs they leave out, and running the generator shows only a sample", "anchors": ["/repo/data/generate_test_math.py:22-59", "/repo/data/generate_test_math.py:84-106"]}
{"id": "C92", "title": "The expected cells in util_test.go are right and the tests decide correctness there", "statement": "The two locations of util_test.go lie in the cells the tests expect, in exact geometry and far from the borders (a quarter and a tenth of the grid unit), also after the conversion of radians to degrees in double arithmetic. For a program that prints some cell, each test passes exactly if that cell contains the location, whatever tolerance up to the margins is granted. A program that fails or prints no cell passes neither.", "quantifier": "all external programs, all texts around the printed cell, all tolerances up to the margins", "why_tests_cant": "the expected numbers are themselves taken from the program under test; only exact geometry can confirm them", "anchors": ["/repo/util/util_test.go:11-70", "/repo/util/util.go:412-446", "/repo/util/util.go:383-386"]}
{"id": "C93", "title": "The proximity program reports the distance to the boundary of the cell", "statement": "The program prints 'Closest distance to hexagon's boundary', the least distance to a corner. It is attained on the boundary, so it never is too small, and it exceeds the distance to the boundary by at most half of the longest side. It is not the distance to the boundary: for every w up to 30 degrees there is a hexagon with a side of 2w degrees whose midpoint, on the boundary, is reported w degrees away. Verifiers inside the cell are told a positive distance too, unless they stand on a corner. If all corners are within D metres of the prover, the true distance of verifier and prover differs from the report by at most D.", "quantifier": "all polygons, all verifier locations, all boundary locations", "why_tests_cant": "the program has no tests; the boundary is a continuum", "anchors": ["/repo/proximity/proximity.go:187-229", "/repo/proximity/proximity.go:22-33"]}
