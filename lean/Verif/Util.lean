import Verif.Hint

/-!
# Native encoding helpers, /repo/util/util.go:287-360
-/

namespace ZkLoc

/-- Components `{sign, exponent, mantissa, is_abnormal}` of a float as (big) integers. -/
structure Components where
  sign : ℕ
  exponent : ℤ
  mantissa : ℕ
  abnormal : ℕ
deriving DecidableEq, Repr

/-- `uint64` subtraction (wrapping). -/
def sub64 (a b : ℕ) : ℕ := (a + 2 ^ 64 - b % 2 ^ 64) % 2 ^ 64

/-- `ComponentsOf` after the field extraction, /repo/util/util.go:292-331. The conversions `int64(s)`,
`int64(e)`, `int64(m)` are the identity (all three values are below `2^63` when `M ≤ 63` and `1 ≤ E + M`). -/
def componentsCore (s e m E M : ℕ) : Components :=
  let expMax : ℤ := 2 ^ (E - 1)
  let expMin : ℤ := 1 - expMax
  let exponent : ℤ := e + expMin
  let shift := leadingZeros m M
  if exponent = expMin then
    ⟨s, exponent - shift, m * 2 ^ shift * 2, if exponent = expMax then 1 else 0⟩
  else if exponent = expMax ∧ m ≠ 0 then
    ⟨s, exponent, 0, 1⟩
  else
    ⟨s, exponent, m + 2 ^ M, if exponent = expMax then 1 else 0⟩

/-- `ComponentsOf`, /repo/util/util.go:287-331. `v` is a `uint64`; the field extraction (lines 288-290) uses
wrapping `uint64` arithmetic. -/
def componentsOf (v E M : ℕ) : Components :=
  let s := v / 2 ^ (E + M)
  let e := sub64 (v / 2 ^ M) (u64 (s * 2 ^ E))
  let m := sub64 (sub64 v (u64 (s * 2 ^ (E + M)))) (u64 (e * 2 ^ M))
  componentsCore s e m E M

/-- `ValueOf`, /repo/util/util.go:333-360; `none` where the code panics. All `uint64` arithmetic wraps
modulo `2^64`; `(*big.Int).Uint64()` returns the low 64 bits of the absolute value. -/
def valueOf (c : Components) (E M : ℕ) : Option ℕ :=
  let s := u64 c.sign
  let e := u64 (c.exponent + (2 ^ (E - 1) - 1 + M)).natAbs
  let m := u64 c.mantissa
  let isAbnormal : Bool := u64 c.abnormal = 1
  if e ≤ M then
    if isAbnormal || (decide (e = 0) != decide (m = 0)) then none
    else
      let delta := M + 1 - e
      if u64 (m / 2 ^ delta * 2 ^ delta) ≠ m then none
      else some (u64 (u64 (s * 2 ^ (M + E)) + m / 2 ^ delta))
  else
    let e := e - M
    if decide (e = 2 ^ E - 1) != isAbnormal then none
    else
      let m := if isAbnormal && decide (m = 0) then 1 else sub64 m (2 ^ M)
      some (u64 (u64 (u64 (s * 2 ^ (M + E)) + u64 (e * 2 ^ M)) + m))

end ZkLoc
