import Verif.Circ

/-!
# Hint functions, /repo/hint/hint.go

Hint functions run outside the constraint system, on the canonical representatives `0 ≤ v < p` of
their input wires; their outputs are reduced modulo `p` when written to the output wires.
Native `uint64` conversions (`.Uint64()`) take the low 64 bits.
-/

namespace ZkLoc

/-- Low 64 bits, `(*big.Int).Uint64()`. -/
def u64 (n : ℕ) : ℕ := n % 2 ^ 64

/-- `DecodeFloatHint`, first output (sign), /repo/hint/hint.go:108-118. -/
def decodeSignHint {p : ℕ} (v : ZMod p) (E M : ℕ) : Option (ZMod p) :=
  some ((u64 v.val / 2 ^ (E + M) : ℕ) : ZMod p)

/-- `DecodeFloatHint`, second output (biased exponent), /repo/hint/hint.go:108-118. The `uint64`
subtraction cannot wrap: `(v >> (E+M)) << E ≤ v >> M`. -/
def decodeExpHint {p : ℕ} (v : ZMod p) (E M : ℕ) : Option (ZMod p) :=
  some ((u64 v.val / 2 ^ M - u64 v.val / 2 ^ (E + M) * 2 ^ E : ℕ) : ZMod p)

/-- `NthBitHint`, /repo/hint/hint.go:120-126. -/
def nthBitHint {p : ℕ} (v : ZMod p) (n : ℕ) : Option (ZMod p) :=
  some (if v.val.testBit n then 1 else 0)

/-- `PowerOfTwoHint`, /repo/hint/hint.go:128-131. Simplification: a shift by more than `2^20` bits is
treated as failure of the (honest) prover; the code would allocate the number (up to `2^64` bits). -/
def powerOfTwoHint {p : ℕ} (v : ZMod p) : Option (ZMod p) :=
  if u64 v.val ≤ 2 ^ 20 then some ((2 : ZMod p) ^ u64 v.val) else none

/-- The quotient `(mantissa << shift_max) / two_to_shift` of `DecomposeMantissaForRoundingHint`,
/repo/hint/hint.go:145 (division by zero panics). -/
def roundHintV {p : ℕ} (mantissa twoToShift : ZMod p) (shiftMax : ℕ) : Option ℕ :=
  if twoToShift.val = 0 then none else some (mantissa.val * 2 ^ shiftMax / twoToShift.val)

/-- `DecomposeMantissaForRoundingHint`, output `p`, /repo/hint/hint.go:147. -/
def roundHintP {p : ℕ} (m t : ZMod p) (shiftMax pIdx : ℕ) : Option (ZMod p) :=
  (roundHintV m t shiftMax).map (fun v => ((v / 2 ^ pIdx : ℕ) : ZMod p))

/-- `DecomposeMantissaForRoundingHint`, outputs `q` and `r`, /repo/hint/hint.go:148-149. -/
def roundHintBit {p : ℕ} (m t : ZMod p) (shiftMax idx : ℕ) : Option (ZMod p) :=
  (roundHintV m t shiftMax).map (fun v => if v.testBit idx then 1 else 0)

/-- `DecomposeMantissaForRoundingHint`, output `s`, /repo/hint/hint.go:150 (`v & (2^r_idx - 1)`). -/
def roundHintS {p : ℕ} (m t : ZMod p) (shiftMax rIdx : ℕ) : Option (ZMod p) :=
  (roundHintV m t shiftMax).map (fun v => ((v % 2 ^ rIdx : ℕ) : ZMod p))

/-- The loop of `NormalizeHint` (/repo/hint/hint.go:166-172) and of `ComponentsOf`
(/repo/util/util.go:305-311): number of zero bits of `m` from bit `n-1` downwards. -/
def leadingZeros (m : ℕ) : ℕ → ℕ
  | 0 => 0
  | n + 1 => if m.testBit n then 0 else leadingZeros m n + 1

/-- `NormalizeHint`, /repo/hint/hint.go:155-177. -/
def normalizeHint {p : ℕ} (m : ZMod p) (bits : ℕ) : Option (ZMod p) :=
  some (if m.val = 0 then 0 else ((leadingZeros m.val bits : ℕ) : ZMod p))

/-- `AbsHint`, first output (`mantissa_ge_0`), /repo/hint/hint.go:179-196. -/
def absHintSign {p : ℕ} (v : ZMod p) : Option (ZMod p) :=
  some (if v.val < p / 2 then 1 else 0)

/-- `AbsHint`, second output (absolute value), /repo/hint/hint.go:179-196. -/
def absHintAbs {p : ℕ} (v : ZMod p) : Option (ZMod p) :=
  some (if v.val < p / 2 then v else ((p - v.val : ℕ) : ZMod p))

/-- `DivHint`, /repo/hint/hint.go:198-210 (division by zero panics). -/
def divHint {p : ℕ} (x y : ZMod p) (Q : ℕ) : Option (ZMod p) :=
  if y.val = 0 then none else some ((x.val * 2 ^ Q / y.val : ℕ) : ZMod p)

/-- `SqrtHint`, /repo/hint/hint.go:212-222. -/
def sqrtHint {p : ℕ} (x : ZMod p) : Option (ZMod p) := some ((Nat.sqrt x.val : ℕ) : ZMod p)

/-- `TruncHint`, /repo/hint/hint.go:224-235. -/
def truncHint {p : ℕ} (x : ZMod p) (shift : ℕ) : Option (ZMod p) :=
  some ((x.val / 2 ^ shift : ℕ) : ZMod p)

/-- `FloorHint`, /repo/hint/hint.go:237-252. -/
def floorHint {p : ℕ} (x : ZMod p) (shift : ℕ) (sign : ZMod p) : Option (ZMod p) :=
  some ((if u64 sign.val = 1 ∧ x.val / 2 ^ shift * 2 ^ shift ≠ x.val
    then x.val / 2 ^ shift + 1 else x.val / 2 ^ shift : ℕ) : ZMod p)

end ZkLoc
