import Verif.AssertVal

/-!
# Trunc, Floor, Ceil and ToInt: circuit level
-/

namespace ZkLoc

variable {p : ℕ} [Fact p.Prime] {b : ℕ} {f : Fmt} {H : Prop}

/-- Quotient rounded down or up. -/
def dq (up : Bool) (m K : ℕ) : ℕ := if up then (m + K - 1) / K else m / K

theorem dq_unique {up : Bool} {m K n : ℕ} (hK : 0 < K)
    (h1 : 0 ≤ (if up then -((m:ℤ) - n * K) else (m:ℤ) - n * K)) (h2 : (if up then -((m:ℤ) - n * K) else (m:ℤ) - n * K) < K) :
    n = dq up m K := by
  unfold dq
  cases up
  · simp only [Bool.false_eq_true, if_false] at h1 h2 ⊢
    symm
    rw [Nat.div_eq_iff hK]
    generalize hj : n * K = j
    have hj' : (n:ℤ) * K = j := by exact_mod_cast hj
    rw [hj'] at h1 h2
    omega
  · simp only [if_true] at h1 h2 ⊢
    symm
    rw [Nat.div_eq_iff hK]
    generalize hj : n * K = j
    have hj' : (n:ℤ) * K = j := by exact_mod_cast hj
    rw [hj'] at h1 h2
    omega

theorem dq_bounds {up : Bool} {m K : ℕ} (hK : 0 < K) :
    0 ≤ (if up then -((m:ℤ) - (dq up m K : ℕ) * K) else (m:ℤ) - (dq up m K : ℕ) * K) ∧
    (if up then -((m:ℤ) - (dq up m K : ℕ) * K) else (m:ℤ) - (dq up m K : ℕ) * K) < K := by
  unfold dq
  cases up
  · simp only [Bool.false_eq_true, if_false]
    have h1 := Nat.div_mul_le_self m K
    have h2 := Nat.lt_div_mul_add (a := m) hK
    generalize hj : m / K * K = j at *
    have hj' : ((m / K : ℕ):ℤ) * K = j := by exact_mod_cast hj
    rw [hj']
    omega
  · simp only [if_true]
    have h1 := Nat.div_mul_le_self (m + K - 1) K
    have h2 := Nat.lt_div_mul_add (a := m + K - 1) hK
    generalize hj : (m + K - 1) / K * K = j at *
    have hj' : (((m + K - 1) / K : ℕ):ℤ) * K = j := by exact_mod_cast hj
    rw [hj']
    omega

theorem floorHint_val {m s : ℕ} : (if m / 2 ^ s * 2 ^ s ≠ m then m / 2 ^ s + 1 else m / 2 ^ s) = dq true m (2 ^ s) := by
  have hK : 0 < 2 ^ s := by positivity
  generalize 2 ^ s = K at *
  have h1 := Nat.div_mul_le_self m K
  have h2 := Nat.lt_div_mul_add (a := m) hK
  generalize m / K = q at *
  generalize hj : q * K = j at *
  have hj' : (q:ℤ) * K = j := by exact_mod_cast hj
  apply dq_unique hK
  · simp only [if_true]
    split
    · push_cast; rw [add_mul, hj']; omega
    · rw [hj']; omega
  · simp only [if_true]
    split
    · push_cast; rw [add_mul, hj']; omega
    · rw [hj']; omega

theorem quot_abs {up : Bool} {m n K W : ℕ} (h4 : n * K < 2 ^ W) (h5 : m < 2 ^ W) :
    |(if up then -((m:ℤ) - n * (K : ℕ)) else (m:ℤ) - n * (K : ℕ))| ≤ 2 ^ W := by
  have h6 : |(m:ℤ) - n * K| ≤ 2 ^ W := by
    zify at h4 h5
    have : 0 ≤ (n : ℤ) * K := by positivity
    rw [abs_le]; constructor <;> linarith
  cases up
  · simpa using h6
  · simp only [if_true, abs_neg]; exact h6

/-- The quotient and remainder checks of `Trunc`/`Floor` determine the quotient. -/
theorem quot_sound (G : Good p b f) {up : Bool} {m : ℕ} (hm : m < 2 ^ (2 * f.M + 2)) {v : ZMod p}
    (h1 : CheckSat b v (f.M + 1) .loose)
    (h2 : CheckSat b (if up then -(((m : ℕ) : ZMod p) - v * tw (f.M + 1)) else ((m : ℕ) : ZMod p) - v * tw (f.M + 1)) (f.M + 1) .smallAbs) :
    v = ((dq up m (2 ^ (f.M + 1)) : ℕ) : ZMod p) := by
  have hb17 := G.width.le
  have hE := G.hE
  have hEM := G.hEM
  rw [checkSat_loose_iff G.bpos (by omega)] at h1
  have h3 : v.val < 2 ^ (f.M + 17) :=
    lt_of_lt_of_le h1 (Nat.pow_le_pow_right (by norm_num) (by have := G.width.mul_le (bits := f.M + 1) (by omega); omega))
  obtain ⟨n, hn⟩ : ∃ n, n = v.val := ⟨_, rfl⟩
  rw [← hn] at h3
  have hv : v = ((n : ℕ) : ZMod p) := by rw [hn, ZMod.natCast_val, ZMod.cast_id', id]
  rw [hv] at h2 ⊢
  obtain ⟨K, hK⟩ : ∃ K, K = 2 ^ (f.M + 1) := ⟨_, rfl⟩
  have e : (if up then -(((m : ℕ) : ZMod p) - ((n : ℕ) : ZMod p) * tw (f.M + 1)) else ((m : ℕ) : ZMod p) - ((n : ℕ) : ZMod p) * tw (f.M + 1)) =
      (((if up then -((m:ℤ) - n * (2 ^ (f.M + 1) : ℕ)) else (m:ℤ) - n * (2 ^ (f.M + 1) : ℕ)) : ℤ) : ZMod p) := by
    cases up <;> simp
  rw [e, checkSat_smallAbs_int G.bpos (by omega) (C := 2 * f.M + 18) ?_ (by omega) (G.pow_le (by omega))] at h2
  · rw [show ((2:ℤ) ^ (f.M + 1)) = ((2 ^ (f.M + 1) : ℕ) : ℤ) by push_cast; rfl] at h2
    have h7 : 0 < 2 ^ (f.M + 1) := by positivity
    have := dq_unique (up := up) (K := 2 ^ (f.M + 1)) h7 h2.1 h2.2
    rw [← this]
  · have h4 : n * 2 ^ (f.M + 1) < 2 ^ (2 * f.M + 18) := by
      rw [show 2 * f.M + 18 = f.M + 17 + (f.M + 1) by ring, pow_add 2 (f.M + 17)]
      exact Nat.mul_lt_mul_of_pos_right h3 (by positivity)
    have h5 : m < 2 ^ (2 * f.M + 18) := lt_of_lt_of_le hm (Nat.pow_le_pow_right (by norm_num) (by omega))
    exact quot_abs h4 h5

/-- Shift of `Trunc`/`Floor`; `c` is the prover's answer to "exponent not negative". -/
def intShift (f : Fmt) (x : Flt) (c : Bool) : ℕ := ((f.M : ℤ) - (if c then x.exp else -1)).toNat

/-- Integer-level quotient of `Trunc`/`Floor`. -/
def intQuot (f : Fmt) (x : Flt) (c up : Bool) : ℕ := dq up (x.man * 2 ^ (f.M + 1 - intShift f x c)) (2 ^ (f.M + 1))

/-- Integer-level `Trunc`. -/
def truncZ (f : Fmt) (x : Flt) (c : Bool) : Flt :=
  ⟨x.sign, if c then x.exp else f.eMin, intQuot f x c false * 2 ^ intShift f x c, x.abn⟩

/-- Integer-level `Floor`. -/
def floorZ (f : Fmt) (x : Flt) (c : Bool) : Flt :=
  let n := intQuot f x c x.sign * 2 ^ intShift f x c
  let ov : Bool := decide (n = 2 ^ (f.M + 1))
  let m := if ov then 2 ^ f.M else n
  ⟨x.sign, if m = 0 ∧ x.abn = false then f.eMin else (if c then x.exp else -1) + (if ov then 1 else 0), m, x.abn⟩

theorem tw_mul_inv (G : Good p b f) {k : ℕ} (hk : k ≤ f.M + 1) :
    (tw (f.M + 1) : ZMod p) * ((2 : ZMod p) ^ k)⁻¹ = ((2 ^ (f.M + 1 - k) : ℕ) : ZMod p) := by
  have h2 := two_ne_zero G
  have : (tw (f.M + 1) : ZMod p) = 2 ^ (f.M + 1 - k) * 2 ^ k := by
    rw [← pow_add, Nat.sub_add_cancel hk, tw]
  rw [this, mul_assoc, mul_inv_cancel₀ (pow_ne_zero _ h2), mul_one]; push_cast; rfl

theorem intShift_le (G : Good p b f) {x : Flt} {c : Bool} (hc : c = true → 0 ≤ x.exp) : intShift f x c ≤ f.M + 1 := by
  unfold intShift
  cases c
  · simp
  · have := hc rfl
    simp; omega

theorem int_m_lt {f : Fmt} {x : Flt} {k : ℕ} (hx : x.man < 2 ^ (f.M + 1)) : x.man * 2 ^ (f.M + 1 - k) < 2 ^ (2 * f.M + 2) := by
  have h1 : 2 ^ (f.M + 1 - k) ≤ 2 ^ (f.M + 1) := Nat.pow_le_pow_right (by norm_num) (by omega)
  calc x.man * 2 ^ (f.M + 1 - k) ≤ x.man * 2 ^ (f.M + 1) := Nat.mul_le_mul_left _ h1
    _ < 2 ^ (f.M + 1) * 2 ^ (f.M + 1) := Nat.mul_lt_mul_of_pos_right hx (by positivity)
    _ = 2 ^ (2 * f.M + 2) := by rw [← pow_add]; congr 1; ring

theorem dq_lt {up : Bool} {m M : ℕ} (hm : m ≤ (2 ^ M - 1) * 2 ^ M) : dq up m (2 ^ M) < 2 ^ M := by
  have hK : 0 < 2 ^ M := by positivity
  generalize 2 ^ M = K at *
  have : dq up m K ≤ K - 1 := by
    unfold dq
    cases up
    · simp only [Bool.false_eq_true, if_false]
      exact Nat.div_le_of_le_mul (by rw [mul_comm]; exact hm)
    · simp only [if_true]
      rw [Nat.div_le_iff_le_mul_add_pred hK]
      rw [mul_comm]; omega
  omega

theorem intQuot_lt {f : Fmt} {x : Flt} {c up : Bool} (hx : x.man < 2 ^ (f.M + 1)) : intQuot f x c up < 2 ^ (f.M + 1) := by
  apply dq_lt
  have h1 : 2 ^ (f.M + 1 - intShift f x c) ≤ 2 ^ (f.M + 1) := Nat.pow_le_pow_right (by norm_num) (by omega)
  exact Nat.mul_le_mul (by omega) h1

/-- The part of `Trunc` after the lookup. -/
def truncRest (f : Fmt) (x : FloatVar p) (eGe0 twoToE : ZMod p) : Circ p (FloatVar p) := do
  let inv ← inverse twoToE
  let m := x.mantissa * tw (f.M + 1) * inv
  let q ← newHint (truncHint m (f.M + 1))
  let r := m - q * tw (f.M + 1)
  assertBitLength q (f.M + 1) .loose
  assertBitLength r (f.M + 1) .smallAbs
  let e' ← select eGe0 x.exponent ((f.eMin : ℤ) : ZMod p)
  pure ⟨x.sign, e', q * twoToE, x.isAbnormal⟩

theorem fTrunc_eq (f : Fmt) (x : FloatVar p) : fTrunc f x = (do
    let eGe0 ← gIsPositive x.exponent f.E
    let e ← select eGe0 x.exponent (-1)
    let k ← gMax ((f.M : ZMod p) - e) 0 f.E
    let twoToE ← queryPowerOf2 f.pow2Size k
    truncRest f x eGe0 twoToE) := rfl

theorem truncRest_spec (G : Good p b f) {x : Flt} (hx : x.Bdd f) (c : Bool) (hk : intShift f x c ≤ f.M + 1) :
    Det b H (truncRest f (x.toVar : FloatVar p) (B c) (2 ^ intShift f x c)) (truncZ f x c).toVar := by
  have hE := G.hE
  have hEM := G.hEM
  have hps : f.pow2Size = f.M + f.E + 1 := rfl
  obtain ⟨hx1, hx2, hx3⟩ := hx
  unfold truncRest
  simp only [Circ.bind_eq, Circ.pure_eq, Flt.toVar]
  refine Spec.det_bind (inverse_spec (pow_ne_zero _ (two_ne_zero G))) ?_
  rw [mul_assoc, tw_mul_inv G hk, ← Nat.cast_mul]
  have hmlt := int_m_lt (k := intShift f x c) hx1
  have hq : dq false (x.man * 2 ^ (f.M + 1 - intShift f x c)) (2 ^ (f.M + 1)) = intQuot f x c false := rfl
  have hqlt := intQuot_lt (c := c) (up := false) hx1
  refine Spec.hint_det (v0 := ((intQuot f x c false : ℕ) : ZMod p)) ?_ ?_ ?_
  · unfold truncHint; rw [ZMod.val_natCast_of_lt (G.lt_of_lt_pow hmlt (by omega))]; rfl
  · intro _ v r hs
    simp only [assertBitLength, Circ.bind, Circ.Sat] at hs
    have := quot_sound G (up := false) hmlt hs.1 (by simpa using hs.2.1)
    rw [this, hq]
  refine Spec.det_bind (check_loose_spec G.width (by omega) hqlt) ?_
  have hb := dq_bounds (up := false) (m := x.man * 2 ^ (f.M + 1 - intShift f x c)) (K := 2 ^ (f.M + 1)) (by positivity)
  rw [hq] at hb
  simp only [Bool.false_eq_true, if_false] at hb
  obtain ⟨n, hn⟩ := Int.eq_ofNat_of_zero_le hb.1
  have er : ((x.man * 2 ^ (f.M + 1 - intShift f x c) : ℕ) : ZMod p) - ((intQuot f x c false : ℕ) : ZMod p) * tw (f.M + 1) = ((n : ℕ) : ZMod p) := by
    rw [← Int.cast_natCast (R := ZMod p) n, ← hn]; simp [tw]
  rw [er]
  refine Spec.det_bind (assertBitLength_spec (checkRun_smallAbs_nat G.width (by omega) (G.pow_le (by omega)) (by rw [hn] at hb; exact_mod_cast hb.2))) ?_
  refine Spec.det_bind (select_spec _ _ _) ?_
  have hfin : (⟨B x.sign, if c = true then ((x.exp : ℤ) : ZMod p) else ((f.eMin : ℤ) : ZMod p),
      ((intQuot f x c false : ℕ) : ZMod p) * 2 ^ intShift f x c, B x.abn⟩ : FloatVar p) = (truncZ f x c).toVar := by
    unfold truncZ Flt.toVar
    cases c <;> simp
  rw [hfin]
  exact Spec.pure _

/-- `Trunc` up to the lookup. -/
theorem fTrunc_front (G : Good p b f) {x : Flt} (hx : x.Bdd f) {T : Bool → FloatVar p → Prop}
    (hq : ∀ c, intShift f x c ≤ f.M + 1 → Spec b H (Circ.bind (queryPowerOf2 f.pow2Size ((intShift f x c : ℕ) : ZMod p))
      (truncRest f (x.toVar : FloatVar p) (B c))) (truncZ f x c).toVar (T c)) :
    Spec b H (fTrunc f (x.toVar : FloatVar p)) (truncZ f x (decide (0 ≤ x.exp))).toVar
      (fun r => ∃ c : Bool, (0 < x.exp → c = true) ∧ (x.exp < 0 → c = false) ∧ T c r) := by
  have hE := G.hE
  have hEM := G.hEM
  have hM := G.hMz
  have hM2 := G.hM2
  have hmn := f.eMin_eq
  have hps : f.pow2Size = f.M + f.E + 1 := rfl
  have hzE := G.zE
  obtain ⟨hx1, hx2, hx3⟩ := hx
  rw [fTrunc_eq]
  simp only [Circ.bind_eq]
  show Spec b H (Circ.bind (gIsPositive ((x.exp : ℤ) : ZMod p) f.E) _) _ _
  refine Spec.bind_pos (z := x.exp) (len := f.E) (w := fun c => (truncZ f x c).toVar) (T := T) G.width (by omega) (by rw [hzE, abs_lt]; constructor <;> omega) (G.pow_le (by omega)) ?_
  intro c hc1 hc2
  have hc0 : c = true → 0 ≤ x.exp := by
    intro h; by_contra hn; rw [hc2 (by omega)] at h; cases h
  have hk := intShift_le G hc0
  refine Spec.det_bind (select_spec _ _ _) ?_
  have e0 : ((f.M : ℕ) : ZMod p) - (if c = true then ((x.exp : ℤ) : ZMod p) else -1) = (((f.M : ℤ) - (if c then x.exp else -1) : ℤ) : ZMod p) := by
    cases c <;> simp
  have hd : |(f.M : ℤ) - (if c then x.exp else -1) - 0| < 2 ^ f.E := by
    rw [hzE, abs_lt]
    cases c
    · simp; omega
    · have := hc0 rfl
      simp; omega
  have hmax := gMax_spec (p := p) (b := b) (H := H) G.width (x := (f.M : ℤ) - (if c then x.exp else -1)) (y := 0) (len := f.E) (by omega) hd (G.pow_le (by omega))
  rw [Int.cast_zero] at hmax
  have e1 : ((max ((f.M : ℤ) - (if c then x.exp else -1)) 0 : ℤ) : ZMod p) = ((intShift f x c : ℕ) : ZMod p) := by
    unfold intShift; rw [← Int.cast_natCast (R := ZMod p) (Int.toNat _), Int.ofNat_toNat]
  rw [e1] at hmax
  have hxe : (x.toVar : FloatVar p).exponent = ((x.exp : ℤ) : ZMod p) := rfl
  rw [hxe, e0]
  refine Spec.det_bind hmax ?_
  exact hq c hk

theorem fTrunc_spec (G : Good p b f) {x : Flt} (hx : x.Bdd f) (hH : H → b ∣ f.pow2Size) :
    Spec b H (fTrunc f (x.toVar : FloatVar p)) (truncZ f x (decide (0 ≤ x.exp))).toVar
      (fun r => ∃ c : Bool, (0 < x.exp → c = true) ∧ (x.exp < 0 → c = false) ∧ r = (truncZ f x c).toVar) := by
  have hE := G.hE
  have hEM := G.hEM
  have hM2 := G.hM2
  have hps : f.pow2Size = f.M + f.E + 1 := rfl
  exact fTrunc_front G hx fun c hk =>
    Spec.det_bind (queryPowerOf2_spec (size := f.pow2Size) G.width (by omega) (by norm_num; omega) (G.pow_le (by omega)) hH (by omega))
      (truncRest_spec G hx c hk)

/-- The part of `Floor` after the lookup. -/
def floorRest (f : Fmt) (x : FloatVar p) (e twoToE : ZMod p) : Circ p (FloatVar p) := do
  let inv ← inverse twoToE
  let m := x.mantissa * tw (f.M + 1) * inv
  let q ← newHint (floorHint m (f.M + 1) x.sign)
  let r := m - q * tw (f.M + 1)
  assertBitLength q (f.M + 1) .loose
  let ar ← select x.sign (-r) r
  assertBitLength ar (f.M + 1) .smallAbs
  let mantissa := q * twoToE
  let mantissaOverflow := gIsEq mantissa (tw (f.M + 1))
  let mantissa ← select mantissaOverflow (tw f.M) mantissa
  let e := e + mantissaOverflow
  let z ← and' (isZero mantissa) (1 - x.isAbnormal)
  let e' ← select z ((f.eMin : ℤ) : ZMod p) e
  pure ⟨x.sign, e', mantissa, x.isAbnormal⟩

theorem fFloor_eq (f : Fmt) (x : FloatVar p) : fFloor f x = (do
    let eGe0 ← gIsPositive x.exponent f.E
    let e ← select eGe0 x.exponent (-1)
    let k ← gMax ((f.M : ZMod p) - e) 0 f.E
    let twoToE ← queryPowerOf2 f.pow2Size k
    floorRest f x e twoToE) := rfl

/-- The exponent `Floor` works with. -/
def floorExp (x : Flt) (c : Bool) : ℤ := if c then x.exp else -1

theorem floorRest_spec (G : Good p b f) {x : Flt} (hx : x.Bdd f) (c : Bool) (hk : intShift f x c ≤ f.M + 1) :
    Det b H (floorRest f (x.toVar : FloatVar p) ((floorExp x c : ℤ) : ZMod p) (2 ^ intShift f x c)) (floorZ f x c).toVar := by
  have hE := G.hE
  have hEM := G.hEM
  have hps : f.pow2Size = f.M + f.E + 1 := rfl
  obtain ⟨hx1, hx2, hx3⟩ := hx
  unfold floorRest floorExp
  simp only [Circ.bind_eq, Circ.pure_eq, Flt.toVar]
  refine Spec.det_bind (inverse_spec (pow_ne_zero _ (two_ne_zero G))) ?_
  rw [mul_assoc, tw_mul_inv G hk, ← Nat.cast_mul]
  have hmlt := int_m_lt (k := intShift f x c) hx1
  have hq : dq x.sign (x.man * 2 ^ (f.M + 1 - intShift f x c)) (2 ^ (f.M + 1)) = intQuot f x c x.sign := rfl
  have hqlt := intQuot_lt (c := c) (up := x.sign) hx1
  refine Spec.hint_det (v0 := ((intQuot f x c x.sign : ℕ) : ZMod p)) ?_ ?_ ?_
  · unfold floorHint; rw [ZMod.val_natCast_of_lt (G.lt_of_lt_pow hmlt (by omega)), ← hq]
    congr 2
    have hp1 : 1 < p := (Fact.out : p.Prime).one_lt
    cases hs : x.sign
    · rw [if_neg (by simp [B, u64])]; rfl
    · have : u64 (B true : ZMod p).val = 1 := by
        haveI : Fact (1 < p) := ⟨hp1⟩
        simp [B, ZMod.val_one, u64]
      rw [this, ← floorHint_val]; simp
  · intro _ v r hs
    simp only [assertBitLength, select, softBool, Circ.bind_eq, Circ.pure_eq, Circ.bind, Circ.Sat] at hs
    obtain ⟨h1, -, h2, -⟩ := hs
    rw [sel_B] at h2
    rw [quot_sound G (up := x.sign) hmlt h1 h2, hq]
  refine Spec.det_bind (check_loose_spec G.width (by omega) hqlt) ?_
  refine Spec.det_bind (select_spec _ _ _) ?_
  have hb := dq_bounds (up := x.sign) (m := x.man * 2 ^ (f.M + 1 - intShift f x c)) (K := 2 ^ (f.M + 1)) (by positivity)
  rw [hq] at hb
  obtain ⟨n, hn⟩ := Int.eq_ofNat_of_zero_le hb.1
  have er : (if x.sign = true then -(((x.man * 2 ^ (f.M + 1 - intShift f x c) : ℕ) : ZMod p) - ((intQuot f x c x.sign : ℕ) : ZMod p) * tw (f.M + 1))
      else ((x.man * 2 ^ (f.M + 1 - intShift f x c) : ℕ) : ZMod p) - ((intQuot f x c x.sign : ℕ) : ZMod p) * tw (f.M + 1)) = ((n : ℕ) : ZMod p) := by
    rw [← Int.cast_natCast (R := ZMod p) n, ← hn]
    cases x.sign <;> simp [tw]
  rw [er]
  refine Spec.det_bind (assertBitLength_spec (checkRun_smallAbs_nat G.width (by omega) (G.pow_le (by omega)) (by rw [hn] at hb; exact_mod_cast hb.2))) ?_
  obtain ⟨N, hN⟩ : ∃ N, N = intQuot f x c x.sign * 2 ^ intShift f x c := ⟨_, rfl⟩
  have hNc : ((intQuot f x c x.sign : ℕ) : ZMod p) * 2 ^ intShift f x c = ((N : ℕ) : ZMod p) := by rw [hN]; push_cast; rfl
  have hNp : N < 2 ^ (2 * f.M + 2) := by
    rw [hN]
    calc intQuot f x c x.sign * 2 ^ intShift f x c < 2 ^ (f.M + 1) * 2 ^ intShift f x c := Nat.mul_lt_mul_of_pos_right hqlt (by positivity)
      _ ≤ 2 ^ (f.M + 1) * 2 ^ (f.M + 1) := Nat.mul_le_mul_left _ (Nat.pow_le_pow_right (by norm_num) hk)
      _ = _ := by rw [← pow_add]; congr 1; ring
  have hNp' := G.lt_of_lt_pow hNp (by omega)
  have eov : gIsEq ((N : ℕ) : ZMod p) (tw (f.M + 1)) = B (decide (N = 2 ^ (f.M + 1))) := by
    have : (tw (f.M + 1) : ZMod p) = ((2 ^ (f.M + 1) : ℕ) : ZMod p) := by simp [tw]
    rw [this]; exact gIsEq_nat hNp' (G.pow_lt (by omega))
  rw [hNc, eov]
  refine Spec.det_bind (select_spec _ _ _) ?_
  obtain ⟨ov, hov⟩ : ∃ ov, ov = decide (N = 2 ^ (f.M + 1)) := ⟨_, rfl⟩
  rw [← hov]
  obtain ⟨m', hm'⟩ : ∃ m', m' = if ov then 2 ^ f.M else N := ⟨_, rfl⟩
  have em : (if ov = true then (tw f.M : ZMod p) else ((N : ℕ) : ZMod p)) = ((m' : ℕ) : ZMod p) := by
    rw [hm']; cases ov <;> simp [tw]
  have hm'p : m' < p := by
    rw [hm']; cases ov
    · exact hNp'
    · exact G.pow_lt (by omega)
  rw [em, isZero_nat G hm'p, not_B]
  refine Spec.det_bind (and_spec _ _) ?_
  refine Spec.det_bind (select_spec _ _ _) ?_
  have hfin : (⟨B x.sign, if (decide (m' = 0) && !x.abn) = true then ((f.eMin : ℤ) : ZMod p) else (((if c then x.exp else -1) : ℤ) : ZMod p) + B ov,
      ((m' : ℕ) : ZMod p), B x.abn⟩ : FloatVar p) = (floorZ f x c).toVar := by
    have e3 : (floorZ f x c) = ⟨x.sign, if m' = 0 ∧ x.abn = false then f.eMin else (if c then x.exp else -1) + (if ov then 1 else 0), m', x.abn⟩ := by
      unfold floorZ
      simp only
      rw [← hN, ← hov, ← hm']
    rw [e3]
    unfold Flt.toVar
    simp only [FloatVar.mk.injEq, true_and, and_true]
    by_cases h0 : m' = 0 ∧ x.abn = false
    · rw [if_pos h0, if_pos (by simp [h0])]
    · rw [if_neg h0, if_neg (by simpa using h0), B_int, ← Int.cast_add]
  rw [hfin]
  exact Spec.pure _

/-- `Floor` up to the lookup. -/
theorem fFloor_front (G : Good p b f) {x : Flt} (hx : x.Bdd f) {T : Bool → FloatVar p → Prop}
    (hq : ∀ c, intShift f x c ≤ f.M + 1 → Spec b H (Circ.bind (queryPowerOf2 f.pow2Size ((intShift f x c : ℕ) : ZMod p))
      (floorRest f (x.toVar : FloatVar p) ((floorExp x c : ℤ) : ZMod p))) (floorZ f x c).toVar (T c)) :
    Spec b H (fFloor f (x.toVar : FloatVar p)) (floorZ f x (decide (0 ≤ x.exp))).toVar
      (fun r => ∃ c : Bool, (0 < x.exp → c = true) ∧ (x.exp < 0 → c = false) ∧ T c r) := by
  have hE := G.hE
  have hEM := G.hEM
  have hM := G.hMz
  have hM2 := G.hM2
  have hmn := f.eMin_eq
  have hps : f.pow2Size = f.M + f.E + 1 := rfl
  have hzE := G.zE
  obtain ⟨hx1, hx2, hx3⟩ := hx
  rw [fFloor_eq]
  simp only [Circ.bind_eq]
  show Spec b H (Circ.bind (gIsPositive ((x.exp : ℤ) : ZMod p) f.E) _) _ _
  refine Spec.bind_pos (z := x.exp) (len := f.E) (w := fun c => (floorZ f x c).toVar) (T := T) G.width (by omega) (by rw [hzE, abs_lt]; constructor <;> omega) (G.pow_le (by omega)) ?_
  intro c hc1 hc2
  have hc0 : c = true → 0 ≤ x.exp := by
    intro h; by_contra hn; rw [hc2 (by omega)] at h; cases h
  have hk := intShift_le G hc0
  refine Spec.det_bind (select_spec _ _ _) ?_
  have ee : (if c = true then ((x.exp : ℤ) : ZMod p) else -1) = (((if c then x.exp else -1) : ℤ) : ZMod p) := by
    cases c <;> simp
  have hxe : (x.toVar : FloatVar p).exponent = ((x.exp : ℤ) : ZMod p) := rfl
  rw [hxe, ee]
  have e0 : ((f.M : ℕ) : ZMod p) - (((if c then x.exp else -1) : ℤ) : ZMod p) = (((f.M : ℤ) - (if c then x.exp else -1) : ℤ) : ZMod p) := by
    push_cast; rfl
  have hd : |(f.M : ℤ) - (if c then x.exp else -1) - 0| < 2 ^ f.E := by
    rw [hzE, abs_lt]
    cases c
    · simp; omega
    · have := hc0 rfl
      simp; omega
  have hmax := gMax_spec (p := p) (b := b) (H := H) G.width (x := (f.M : ℤ) - (if c then x.exp else -1)) (y := 0) (len := f.E) (by omega) hd (G.pow_le (by omega))
  rw [Int.cast_zero] at hmax
  have e1 : ((max ((f.M : ℤ) - (if c then x.exp else -1)) 0 : ℤ) : ZMod p) = ((intShift f x c : ℕ) : ZMod p) := by
    unfold intShift; rw [← Int.cast_natCast (R := ZMod p) (Int.toNat _), Int.ofNat_toNat]
  rw [e1] at hmax
  rw [e0]
  refine Spec.det_bind hmax ?_
  exact hq c hk

theorem fFloor_spec (G : Good p b f) {x : Flt} (hx : x.Bdd f) (hH : H → b ∣ f.pow2Size) :
    Spec b H (fFloor f (x.toVar : FloatVar p)) (floorZ f x (decide (0 ≤ x.exp))).toVar
      (fun r => ∃ c : Bool, (0 < x.exp → c = true) ∧ (x.exp < 0 → c = false) ∧ r = (floorZ f x c).toVar) := by
  have hE := G.hE
  have hEM := G.hEM
  have hM2 := G.hM2
  have hps : f.pow2Size = f.M + f.E + 1 := rfl
  exact fFloor_front G hx fun c hk =>
    Spec.det_bind (queryPowerOf2_spec (size := f.pow2Size) G.width (by omega) (by norm_num; omega) (G.pow_le (by omega)) hH (by omega))
      (floorRest_spec G hx c hk)

end ZkLoc
