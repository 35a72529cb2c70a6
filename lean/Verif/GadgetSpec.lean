import Verif.RangeCheck

/-!
# Helper lemmas: specifications of the integer gadgets
-/

namespace ZkLoc

variable {p : ℕ} [Fact p.Prime] {b : ℕ} {H : Prop}

/-- Conditions on the range-check table width (`1 ≤ b ≤ 17`, the range of `optimalWidth`). -/
structure Width (b : ℕ) : Prop where
  pos : 0 < b
  le : b ≤ 17

theorem Width.mul_le (hb : Width b) {bits : ℕ} (hn : 0 < bits) : decompSize bits b * b ≤ bits + 16 := by
  have := decompSize_mul_lt hb.pos hn
  have := hb.le
  omega

theorem two_pow_lt_p {k n : ℕ} (hp : 2 ^ k ≤ p) (h : n < k) : 2 ^ n < p :=
  lt_of_lt_of_le (Nat.pow_lt_pow_right (by norm_num) h) hp

/-! ### Range-check nodes -/

theorem checkSat_loose_nat (hb : Width b) {n bits : ℕ} (hn : 0 < bits) (h : n < 2 ^ bits) :
    CheckSat b ((n : ℕ) : ZMod p) bits .loose :=
  Circ.checkSat_of_checkRun (checkRun_loose hb.pos hn (lt_of_le_of_lt (val_natCast_le n) h))

/-- Soundness of a loose check on a small integer: it is non-negative. -/
theorem checkSat_loose_int (hb : Width b) {z : ℤ} {bits : ℕ} (hn : 0 < bits)
    (hz : |z| < 2 ^ (bits + 17)) (hp : 2 ^ (bits + 18) ≤ p)
    (h : CheckSat b ((z : ℤ) : ZMod p) bits .loose) : 0 ≤ z ∧ z < 2 ^ (bits + 16) := by
  rw [checkSat_loose_iff hb.pos hn] at h
  have h2 := hb.mul_le hn
  have h3 : ((z : ZMod p)).val < 2 ^ (bits + 16) :=
    lt_of_lt_of_le h (Nat.pow_le_pow_right (by norm_num) h2)
  have h3' : (((z : ZMod p)).val : ℤ) < 2 ^ (bits + 16) := by exact_mod_cast h3
  have hp' : (2:ℤ) ^ (bits + 18) ≤ p := by exact_mod_cast hp
  have e1 : (2:ℤ) ^ (bits + 18) = 4 * 2 ^ (bits + 16) := by ring
  have e2 : (2:ℤ) ^ (bits + 17) = 2 * 2 ^ (bits + 16) := by ring
  have e3 : (0:ℤ) < 2 ^ (bits + 16) := by positivity
  rw [e1] at hp'
  rw [e2] at hz
  clear e1 e2 h3 h hp
  generalize (2:ℤ) ^ (bits + 16) = P at *
  rcases lt_or_ge z 0 with hneg | hpos
  · exfalso
    rw [abs_of_neg hneg] at hz
    rw [val_intCast_neg hneg (by linarith)] at h3'
    linarith
  · refine ⟨hpos, ?_⟩
    rw [abs_of_nonneg hpos] at hz
    rwa [val_intCast_nonneg hpos (by linarith)] at h3'

theorem assertBitLength_spec {v : ZMod p} {bits : ℕ} {m : Mode} (h : checkRun b v bits m = true) :
    Det b H (assertBitLength v bits m) () := by
  refine ⟨?_, fun _ st r => ?_⟩
  · simp [assertBitLength, Circ.run, h]
  · simp [assertBitLength, Circ.Sat, Circ.checkSat_of_checkRun h]

theorem check_loose_spec (hb : Width b) {n bits : ℕ} (hn : 0 < bits) (h : n < 2 ^ bits) :
    Det b H (assertBitLength ((n : ℕ) : ZMod p) bits .loose) () :=
  assertBitLength_spec (checkRun_loose hb.pos hn (lt_of_le_of_lt (val_natCast_le n) h))

/-! ### `Abs`, `IsPositive`, `Max`, `Min` -/

theorem absHintSign_int {z : ℤ} (h : 2 * |z| + 2 ≤ p) :
    absHintSign ((z : ℤ) : ZMod p) = some (B (decide (0 ≤ z))) := by
  unfold absHintSign
  rcases lt_or_ge z 0 with hneg | hpos
  · have hz := abs_of_neg hneg
    have h1 := val_intCast_neg (p := p) hneg (by omega)
    have : ¬ ((z : ZMod p)).val < p / 2 := by omega
    have h0 : ¬ 0 ≤ z := by omega
    simp [this, h0]
  · have hz := abs_of_nonneg hpos
    have h1 := val_intCast_nonneg (p := p) hpos (by omega)
    have : ((z : ZMod p)).val < p / 2 := by omega
    simp [this, hpos]

theorem absHintAbs_some (v : ZMod p) : ∃ a, absHintAbs v = some a := ⟨_, rfl⟩

theorem absHintAbs_int {z : ℤ} (h : 2 * |z| + 2 ≤ p) :
    absHintAbs ((z : ℤ) : ZMod p) = some ((z.natAbs : ℕ) : ZMod p) := by
  unfold absHintAbs
  rcases lt_or_ge z 0 with hneg | hpos
  · have hz := abs_of_neg hneg
    have h1 := val_intCast_neg (p := p) hneg (by omega)
    have : ¬ ((z : ZMod p)).val < p / 2 := by omega
    simp only [this, if_false, Option.some.injEq]
    congr 1
    omega
  · have hz := abs_of_nonneg hpos
    have h1 := val_intCast_nonneg (p := p) hpos (by omega)
    have : ((z : ZMod p)).val < p / 2 := by omega
    simp only [this, if_true, Option.some.injEq]
    obtain ⟨n, rfl⟩ := Int.eq_ofNat_of_zero_le hpos
    simp

/-- Results of `Abs` that some prover can produce: the sign of 0 is free. -/
def AbsOut (z : ℤ) (r : ZMod p × ZMod p) : Prop :=
  ∃ c : Bool, (0 < z → c = true) ∧ (z < 0 → c = false) ∧ r = (((|z| : ℤ) : ZMod p), B c)

theorem gAbs_spec (hb : Width b) {z : ℤ} {len : ℕ} (hlen : 0 < len) (hz : |z| < 2 ^ len)
    (hp : 2 ^ (len + 18) ≤ p) :
    Spec b H (gAbs ((z : ℤ) : ZMod p) len) (((|z| : ℤ) : ZMod p), B (decide (0 ≤ z))) (AbsOut z) := by
  have hp' : (2:ℤ) ^ (len + 18) ≤ p := by exact_mod_cast hp
  have e1 : (2:ℤ) ^ (len + 18) = 262144 * 2 ^ len := by ring
  have e3 : (0:ℤ) < 2 ^ len := by positivity
  have h2 : 2 * |z| + 2 ≤ p := by linarith
  obtain ⟨n, hn⟩ : ∃ n : ℕ, |z| = (n : ℤ) := Int.eq_ofNat_of_zero_le (abs_nonneg z)
  have hn2 : n < 2 ^ len := by
    have : (n : ℤ) < 2 ^ len := by rw [← hn]; exact hz
    exact_mod_cast this
  have hselT : 0 ≤ z → (z : ZMod p) = ((|z| : ℤ) : ZMod p) := fun h => by rw [abs_of_nonneg h]
  have hselF : z ≤ 0 → -(z : ZMod p) = ((|z| : ℤ) : ZMod p) := fun h => by rw [abs_of_nonpos h]; push_cast; rfl
  have hchk : checkRun b (((|z| : ℤ) : ZMod p)) len .loose = true := by
    rw [hn, Int.cast_natCast]
    exact checkRun_loose hb.pos hlen (lt_of_le_of_lt (val_natCast_le n) hn2)
  refine ⟨?_, fun _ st r => ?_⟩
  · simp only [gAbs, newHint, absHintSign_int h2, Circ.bind_eq, Circ.bind, absHintAbs_int h2,
      assertIsBoolean, select, softBool, assertBitLength, Circ.run, isBool_B, if_true, sel_B,
      Circ.pure_eq]
    have : (if decide (0 ≤ z) = true then (z : ZMod p) else -(z : ZMod p)) = ((|z| : ℤ) : ZMod p) := by
      by_cases h : 0 ≤ z
      · simp [h, hselT h]
      · simp [h, ← hselF (by omega)]
    rw [this, hchk]; simp
  · simp only [gAbs, newHint, Circ.bind_eq, Circ.bind, assertIsBoolean, select, softBool,
      assertBitLength, Circ.Sat, Circ.pure_eq, AbsOut]
    constructor
    · rintro ⟨c, _, h1, _, h3, rfl⟩
      obtain ⟨c, rfl⟩ := (isBool_iff c).1 h1
      rw [sel_B] at h3 ⊢
      refine ⟨c, ?_⟩
      cases c
      · simp only [Bool.false_eq_true, if_false] at h3 ⊢
        have h4 := (checkSat_loose_int hb (z := -z) hlen (by rw [abs_neg]; refine lt_trans hz ?_; exact pow_lt_pow_right₀ (by norm_num) (by omega)) hp (by push_cast; exact h3)).1
        exact ⟨by omega, by simp, by rw [hselF (by omega)]⟩
      · simp only [if_true] at h3 ⊢
        have h4 := (checkSat_loose_int hb (z := z) hlen (by refine lt_trans hz ?_; exact pow_lt_pow_right₀ (by norm_num) (by omega)) hp h3).1
        exact ⟨by simp, by omega, by rw [hselT h4]⟩
    · rintro ⟨c, h1, h2, rfl⟩
      refine ⟨B c, 0, isBool_B c, fun _ => isBool_B c, ?_, ?_⟩
      · rw [sel_B]
        have : (if c = true then (z : ZMod p) else -(z : ZMod p)) = ((|z| : ℤ) : ZMod p) := by
          cases c
          · simp [← hselF (by by_contra h; simp at h; simpa using h1 h)]
          · simp [hselT (by by_contra h; simp at h; simpa using h2 h)]
        rw [this]; exact Circ.checkSat_of_checkRun hchk
      · rw [sel_B]
        cases c
        · simp [← hselF (by by_contra h; simp at h; simpa using h1 h)]
        · simp [hselT (by by_contra h; simp at h; simpa using h2 h)]

/-- Results of `IsPositive` that some prover can produce. -/
def PosOut (z : ℤ) (r : ZMod p) : Prop :=
  ∃ c : Bool, (0 < z → c = true) ∧ (z < 0 → c = false) ∧ r = B c

theorem gIsPositive_spec (hb : Width b) {z : ℤ} {len : ℕ} (hlen : 0 < len) (hz : |z| < 2 ^ len)
    (hp : 2 ^ (len + 18) ≤ p) :
    Spec b H (gIsPositive ((z : ℤ) : ZMod p) len) (B (decide (0 ≤ z))) (PosOut z) := by
  unfold gIsPositive
  simp only [Circ.bind_eq, Circ.pure_eq]
  refine (Spec.bind (w := fun a => a.2) (T := fun a r => r = a.2) (gAbs_spec hb hlen hz hp) ?_
    (fun a _ => Spec.pure _)).congr rfl ?_
  · exact ⟨decide (0 ≤ z), by intro h; simp; omega, by intro h; simp; omega, rfl⟩
  · intro r
    constructor
    · rintro ⟨a, ⟨c, h1, h2, rfl⟩, rfl⟩; exact ⟨c, h1, h2, rfl⟩
    · rintro ⟨c, h1, h2, rfl⟩; exact ⟨_, ⟨c, h1, h2, rfl⟩, rfl⟩

theorem posOut_honest (z : ℤ) : PosOut (p := p) z (B (decide (0 ≤ z))) :=
  ⟨decide (0 ≤ z), by intro h; simp; omega, by intro h; simp; omega, rfl⟩

theorem absOut_honest (z : ℤ) : AbsOut (p := p) z (((|z| : ℤ) : ZMod p), B (decide (0 ≤ z))) :=
  ⟨decide (0 ≤ z), by intro h; simp; omega, by intro h; simp; omega, rfl⟩

theorem decide_B (c : Bool) : decide ((B c : ZMod p) = 1) = c := by cases c <;> simp

/-- Sequencing after `IsPositive`. -/
theorem Spec.bind_pos {α : Type} (hb : Width b) {z : ℤ} {len : ℕ} (hlen : 0 < len) (hz : |z| < 2 ^ len)
    (hp : 2 ^ (len + 18) ≤ p) {f : ZMod p → Circ p α} {w : Bool → α} {T : Bool → α → Prop}
    (hf : ∀ c : Bool, (0 < z → c = true) → (z < 0 → c = false) → Spec b H (f (B c)) (w c) (T c)) :
    Spec b H (Circ.bind (gIsPositive ((z : ℤ) : ZMod p) len) f) (w (decide (0 ≤ z)))
      (fun r => ∃ c : Bool, (0 < z → c = true) ∧ (z < 0 → c = false) ∧ T c r) := by
  refine (Spec.bind (gIsPositive_spec (H := H) hb hlen hz hp) (posOut_honest _)
    (w := fun a => w (decide (a = 1))) (T := fun a => T (decide (a = 1))) ?_).congr ?_ ?_
  · rintro _ ⟨c, h1, h2, rfl⟩
    rw [decide_B]; exact hf c h1 h2
  · rw [decide_B]
  · intro r
    constructor
    · rintro ⟨_, ⟨c, h1, h2, rfl⟩, h3⟩
      rw [decide_B] at h3; exact ⟨c, h1, h2, h3⟩
    · rintro ⟨c, h1, h2, h3⟩
      exact ⟨_, ⟨c, h1, h2, rfl⟩, by rw [decide_B]; exact h3⟩

/-- Sequencing after `Abs`. -/
theorem Spec.bind_abs {α : Type} (hb : Width b) {z : ℤ} {len : ℕ} (hlen : 0 < len) (hz : |z| < 2 ^ len)
    (hp : 2 ^ (len + 18) ≤ p) {f : ZMod p × ZMod p → Circ p α} {w : Bool → α} {T : Bool → α → Prop}
    (hf : ∀ c : Bool, (0 < z → c = true) → (z < 0 → c = false) →
      Spec b H (f (((|z| : ℤ) : ZMod p), B c)) (w c) (T c)) :
    Spec b H (Circ.bind (gAbs ((z : ℤ) : ZMod p) len) f) (w (decide (0 ≤ z)))
      (fun r => ∃ c : Bool, (0 < z → c = true) ∧ (z < 0 → c = false) ∧ T c r) := by
  refine (Spec.bind (gAbs_spec (H := H) hb hlen hz hp) (absOut_honest _)
    (w := fun a => w (decide (a.2 = 1))) (T := fun a => T (decide (a.2 = 1))) ?_).congr ?_ ?_
  · rintro _ ⟨c, h1, h2, rfl⟩
    rw [decide_B]; exact hf c h1 h2
  · dsimp only; rw [decide_B]
  · intro r
    constructor
    · rintro ⟨_, ⟨c, h1, h2, rfl⟩, h3⟩
      rw [decide_B] at h3; exact ⟨c, h1, h2, h3⟩
    · rintro ⟨c, h1, h2, h3⟩
      exact ⟨_, ⟨c, h1, h2, rfl⟩, by rw [decide_B]; exact h3⟩

theorem gMax_spec (hb : Width b) {x y : ℤ} {len : ℕ} (hlen : 0 < len) (hz : |x - y| < 2 ^ len)
    (hp : 2 ^ (len + 18) ≤ p) :
    Det b H (gMax ((x : ℤ) : ZMod p) ((y : ℤ) : ZMod p) len) ((max x y : ℤ) : ZMod p) := by
  unfold gMax
  simp only [Circ.bind_eq]
  rw [← Int.cast_sub]
  refine Spec.bind_irrel (gIsPositive_spec hb hlen hz hp) (posOut_honest _) ?_
  rintro _ ⟨c, h1, h2, rfl⟩
  have : (if c = true then (x : ZMod p) else (y : ZMod p)) = ((max x y : ℤ) : ZMod p) := by
    cases c
    · have : x ≤ y := by by_contra h; simpa using h1 (by omega)
      simp [max_eq_right this]
    · have : y ≤ x := by by_contra h; simpa using h2 (by omega)
      simp [max_eq_left this]
  rw [← this]; exact select_spec c _ _

theorem gMin_spec (hb : Width b) {x y : ℤ} {len : ℕ} (hlen : 0 < len) (hz : |x - y| < 2 ^ len)
    (hp : 2 ^ (len + 18) ≤ p) :
    Det b H (gMin ((x : ℤ) : ZMod p) ((y : ℤ) : ZMod p) len) ((min x y : ℤ) : ZMod p) := by
  unfold gMin
  simp only [Circ.bind_eq]
  rw [← Int.cast_sub]
  refine Spec.bind_irrel (gIsPositive_spec hb hlen hz hp) (posOut_honest _) ?_
  rintro _ ⟨c, h1, h2, rfl⟩
  have : (if c = true then (y : ZMod p) else (x : ZMod p)) = ((min x y : ℤ) : ZMod p) := by
    cases c
    · have : x ≤ y := by by_contra h; simpa using h1 (by omega)
      simp [min_eq_left this]
    · have : y ≤ x := by by_contra h; simpa using h2 (by omega)
      simp [min_eq_right this]
  rw [← this]; exact select_spec c _ _

/-! ### `QueryPowerOf2` -/

theorem pow2Query_iff (size : ℕ) (v : ZMod p) :
    pow2Query size v = true ↔ ∃ i, i < size ∧ v = ((i * 2 ^ size + 2 ^ i : ℕ) : ZMod p) := by
  simp [pow2Query, List.any_eq_true]

/-- What a prover can make `QueryPowerOf2` return: for some table index `i`,
`exponent * 2^size + result = i * 2^size + 2^i` and `result` passes the loose range check. -/
theorem sat_queryPowerOf2 (hb : Width b) {size : ℕ} (hs : 0 < size) (e : ZMod p) (st : Bool) (r : ZMod p) :
    (queryPowerOf2 size e).Sat b st r ↔ r.val < 2 ^ (decompSize size b * b) ∧
      ∃ i, i < size ∧ e * 2 ^ size + r = ((i * 2 ^ size + 2 ^ i : ℕ) : ZMod p) := by
  simp only [queryPowerOf2, newHint, assertBitLength, Circ.bind_eq, Circ.bind, Circ.Sat, Circ.pure_eq,
    pow2Query_iff, checkSat_loose_iff hb.pos hs]
  constructor
  · rintro ⟨v, h1, h2, rfl⟩; exact ⟨h1, h2⟩
  · rintro ⟨h1, h2⟩; exact ⟨r, h1, h2, rfl⟩

theorem run_queryPowerOf2 (hb : Width b) {size : ℕ} (hp : 2 ^ (size + 17) ≤ p)
    {k : ℕ} (hk : k < size) (hk2 : size ≤ 2 ^ 20) :
    (queryPowerOf2 size ((k : ℕ) : ZMod p)).run b = some (2 ^ k) := by
  have hkp : k < p := by
    have : k < 2 ^ (size + 17) := lt_trans Nat.lt_two_pow_self (Nat.pow_lt_pow_right (by norm_num) (by omega))
    omega
  have hk64 : u64 k = k := by unfold u64; apply Nat.mod_eq_of_lt; norm_num at hk2 ⊢; omega
  have h1 : powerOfTwoHint ((k : ℕ) : ZMod p) = some (2 ^ k) := by
    unfold powerOfTwoHint
    rw [ZMod.val_natCast_of_lt hkp, hk64, if_pos (by omega)]
  have h2 : checkRun b ((2 : ZMod p) ^ k) size .loose = true := by
    have : (2 : ZMod p) ^ k = ((2 ^ k : ℕ) : ZMod p) := by push_cast; rfl
    rw [this]
    exact checkRun_loose hb.pos (by omega) (lt_of_le_of_lt (val_natCast_le _)
      (Nat.pow_lt_pow_right (by norm_num) hk))
  have h3 : pow2Query size (((k : ℕ) : ZMod p) * 2 ^ size + 2 ^ k) = true := by
    rw [pow2Query_iff]; exact ⟨k, hk, by push_cast; ring⟩
  simp only [queryPowerOf2, newHint, h1, assertBitLength, Circ.bind_eq, Circ.bind, Circ.run, h2, if_true,
    h3, Circ.pure_eq]

/-- Complete description of the answers a prover can give for exponent `k`: the true power `2^k`, or,
using the slack of the loose range check, `2^(k+t) + t * 2^size` with `0 < t < 2^slack`. -/
theorem sat_queryPowerOf2_nat (hb : Width b) {size : ℕ} (hs : 5 ≤ size) (hp : 2 ^ (2 * size + 18) ≤ p)
    {k : ℕ} (hk : k < 2 ^ size) (st : Bool) (r : ZMod p) :
    (queryPowerOf2 size ((k : ℕ) : ZMod p)).Sat b st r ↔
      ∃ t, t < 2 ^ slack b size ∧ k + t < size ∧ r = ((2 ^ (k + t) + t * 2 ^ size : ℕ) : ZMod p) := by
  rw [sat_queryPowerOf2 hb (by omega)]
  have hsl := slack_add size hb.pos
  have hLle := hb.mul_le (bits := size) (by omega)
  have hS : size ≤ 2 ^ size := Nat.lt_two_pow_self.le
  have hSS : 2 ^ (2 * size + 18) = 2 ^ size * 2 ^ size * 2 ^ 18 := by rw [pow_add, two_mul, pow_add]
  have hSpos : 0 < 2 ^ size := by positivity
  have hpow : 2 ^ (decompSize size b * b) = 2 ^ size * 2 ^ slack b size := by rw [← hsl, pow_add]
  have hLle' : 2 ^ size * 2 ^ slack b size ≤ 2 ^ size * 2 ^ 16 := by
    rw [← hpow, ← pow_add]; exact Nat.pow_le_pow_right (by norm_num) hLle
  have hS5 : 2 ^ 5 ≤ 2 ^ size := Nat.pow_le_pow_right (by norm_num) hs
  rw [hSS] at hp
  have hpw : ∀ i, i < size → 2 ^ i < 2 ^ size := fun i hi => Nat.pow_lt_pow_right (by norm_num) hi
  rw [hpow]
  have hcast : ((2 : ZMod p) ^ size) = ((2 ^ size : ℕ) : ZMod p) := by push_cast; rfl
  rw [hcast]
  clear hSS hpow hLle hsl hcast
  have hpos : ∀ i, 0 < 2 ^ i := fun i => by positivity
  generalize 2 ^ slack b size = T at *
  generalize 2 ^ size = S at *
  have hP : S * 2 ^ 16 + S * S * 4 ≤ p := by
    have h1 : S * 1 ≤ S * S := Nat.mul_le_mul_left _ (by omega)
    have h2 : (2:ℕ) ^ 18 = 262144 := by norm_num
    have h3 : (2:ℕ) ^ 16 = 65536 := by norm_num
    have h4 : (2:ℕ) ^ 5 = 32 := by norm_num
    rw [h2] at hp
    rw [h3]
    generalize S * S = SS at *
    clear h2 h3 h4 hLle' hS5 hpw hpos
    linarith
  constructor
  · rintro ⟨hr, i, hi, heq⟩
    have hrc : r = ((r.val : ℕ) : ZMod p) := by simp
    have hi2 := hpw i hi
    have hi3 := hpos i
    have hii : (i + 1) * S ≤ S * S := Nat.mul_le_mul_right _ (by omega)
    have hkk : (k + 1) * S ≤ S * S := Nat.mul_le_mul_right _ (by omega)
    have hii' : (i + 1) * S = i * S + S := by ring
    have hkk' : (k + 1) * S = k * S + S := by ring
    have heq2 : ((k * S + r.val : ℕ) : ZMod p) = ((i * S + 2 ^ i : ℕ) : ZMod p) := by
      rw [← heq]; push_cast; simp
    rw [natCast_inj (by omega) (by omega)] at heq2
    -- `i ≥ k` since `2^i < 2^size`
    have hik : k ≤ i := by
      by_contra h
      have : (i + 1) * S ≤ k * S := Nat.mul_le_mul_right _ (by omega)
      omega
    obtain ⟨t, rfl⟩ := Nat.exists_eq_add_of_le hik
    have h2 : (k + t) * S = k * S + t * S := by ring
    refine ⟨t, ?_, hi, ?_⟩
    · by_contra ht
      have h1 : S * T ≤ S * t := Nat.mul_le_mul_left _ (by omega)
      rw [mul_comm S t] at h1
      omega
    · rw [hrc]; congr 1
      omega
  · rintro ⟨t, ht, hkt, rfl⟩
    have hi2 := hpw _ hkt
    constructor
    · refine lt_of_le_of_lt (val_natCast_le _) ?_
      calc 2 ^ (k + t) + t * S < S + t * S := by omega
        _ = S * (t + 1) := by ring
        _ ≤ _ := Nat.mul_le_mul_left _ ht
    · exact ⟨k + t, hkt, by push_cast; ring⟩

/-- With a table width dividing the lookup size the lookup is exact. -/
theorem queryPowerOf2_spec (hb : Width b) {size : ℕ} (hs : 5 ≤ size) (hs2 : size ≤ 2 ^ 20)
    (hp : 2 ^ (2 * size + 18) ≤ p) (hH : H → b ∣ size) {k : ℕ} (hk : k < size) :
    Det b H (queryPowerOf2 size ((k : ℕ) : ZMod p)) (2 ^ k) := by
  refine ⟨run_queryPowerOf2 hb (le_trans (Nat.pow_le_pow_right (by norm_num) (by omega)) hp) hk hs2, ?_⟩
  intro h st r
  rw [sat_queryPowerOf2_nat hb hs hp (lt_trans hk Nat.lt_two_pow_self)]
  have h0 : slack b size = 0 := by
    have := slack_add size hb.pos
    have := decompSize_of_dvd hb.pos (hH h)
    omega
  rw [h0]
  constructor
  · rintro ⟨t, ht, _, rfl⟩
    have : t = 0 := by simpa using ht
    subst this; push_cast; simp
  · rintro rfl; exact ⟨0, by simp, by omega, by push_cast; simp⟩

/-- A lookup with an exponent outside the table fails for every prover (table width dividing the
lookup size or not). -/
theorem sat_queryPowerOf2_out (hb : Width b) {size : ℕ} (hs : 5 ≤ size) (hp : 2 ^ (2 * size + 18) ≤ p)
    {k : ℕ} (hk : k < 2 ^ size) (hk2 : size ≤ k) (st : Bool) (r : ZMod p) :
    ¬ (queryPowerOf2 size ((k : ℕ) : ZMod p)).Sat b st r := by
  rw [sat_queryPowerOf2_nat hb hs hp hk]
  rintro ⟨t, _, h, _⟩; omega

end ZkLoc
