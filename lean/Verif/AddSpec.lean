import Verif.SqrtSpec
import Mathlib.Data.Nat.Size

/-!
# Helper lemmas: circuit-level specification of `Add`
-/

namespace ZkLoc

theorem leadingZeros_spec {m n : ℕ} (h0 : 0 < m) (h : m < 2 ^ n) :
    leadingZeros m n < n ∧ 2 ^ (n - 1) ≤ m * 2 ^ leadingZeros m n ∧ m * 2 ^ leadingZeros m n < 2 ^ n := by
  induction n with
  | zero => simp at h; omega
  | succ n ih =>
    unfold leadingZeros
    rw [nthBit_top h]
    by_cases hb : 2 ^ n ≤ m
    · simp [hb, h]
    · have hlt : m < 2 ^ n := by omega
      obtain ⟨h1, h2, h3⟩ := ih hlt
      simp only [hb, decide_false, Bool.false_eq_true, if_false, Nat.add_sub_cancel]
      obtain ⟨n', rfl⟩ : ∃ n', n = n' + 1 := ⟨n - 1, by omega⟩
      rw [Nat.add_sub_cancel] at h2
      have e1 : m * 2 ^ (leadingZeros m (n' + 1) + 1) = 2 * (m * 2 ^ leadingZeros m (n' + 1)) := by
        rw [pow_succ]; ring
      rw [e1]
      have e2 : 2 ^ (n' + 1) = 2 * 2 ^ n' := by ring
      have e3 : 2 ^ (n' + 1 + 1) = 2 * 2 ^ (n' + 1) := by ring
      refine ⟨by omega, by omega, by omega⟩

/-- A normalising shift is unique. -/
theorem norm_unique {m n k k' : ℕ} (h1 : 2 ^ n ≤ m * 2 ^ k) (h2 : m * 2 ^ k < 2 ^ (n + 1))
    (h3 : 2 ^ n ≤ m * 2 ^ k') (h4 : m * 2 ^ k' < 2 ^ (n + 1)) : k = k' := by
  have key : ∀ a c, a < c → 2 ^ n ≤ m * 2 ^ a → m * 2 ^ c < 2 ^ (n + 1) → False := by
    intro a c hac ha hc
    have : m * 2 ^ a * 2 ≤ m * 2 ^ c := by
      rw [mul_assoc, ← pow_succ]
      exact Nat.mul_le_mul_left _ (Nat.pow_le_pow_right (by norm_num) hac)
    rw [pow_succ] at hc
    omega
  rcases lt_trichotomy k k' with h | h | h
  · exact (key _ _ h h1 h4).elim
  · exact h
  · exact (key _ _ h h3 h2).elim

theorem bitLen_le {n k : ℕ} (h : n < 2 ^ k) : bitLen n ≤ k := Nat.size_le.2 h
theorem lt_bitLen (n : ℕ) : n < 2 ^ bitLen n := Nat.lt_size_self n

variable {p : ℕ} [Fact p.Prime] {b : ℕ} {H : Prop} {f : Fmt}

/-- The normalisation part of `Add`, /repo/float/float.go:503-566 (a sub-sequence of `fAdd`; used only
to structure the proof). -/
def addNorm (f : Fmt) (s : ZMod p) (mbl : ℕ) : Circ p (ZMod p × ZMod p × ZMod p) := do
  let mantissaGe0 ← newHint (absHintSign s)
  let mantissaAbs ← newHint (absHintAbs s)
  assertIsBoolean mantissaGe0
  let shift ← newHint (normalizeHint mantissaAbs mbl)
  assertBitLength shift (bitLen mbl) .loose
  let twoToShift ← queryPowerOf2 f.pow2Size shift
  let sAbs ← select mantissaGe0 s (-s)
  assertBitLength (sAbs * twoToShift - (1 - isZero (sAbs * twoToShift)) * tw (mbl - 1)) (mbl - 1) .smallAbs
  pure (mantissaGe0, sAbs * twoToShift, shift)

/-- The part of `Add` after normalisation. -/
def addBack (f : Fmt) (x y : FloatVar p) (e xx yy : ZMod p) (t : ZMod p × ZMod p × ZMod p) :
    Circ p (FloatVar p) := do
  let mantissaIsZero := isZero t.2.1
  let exponent := e - t.2.2
  let sign ← select (gIsEq x.sign y.sign) x.sign (1 - t.1)
  let mantissa ← round f t.2.1 ((f.M + 3) + (f.M + 1) + 1) 0 0 1
  let anyAbnormal ← or' x.isAbnormal y.isAbnormal
  let r ← fixOverflow f mantissa mantissaIsZero exponent anyAbnormal
  let yIsNotAbnormal := 1 - y.isAbnormal
  let keepX ← or' yIsNotAbnormal (gIsEq xx yy)
  let mx ← select keepX x.mantissa 0
  let my ← select y.isAbnormal y.mantissa r.1
  let m ← select x.isAbnormal mx my
  pure ⟨sign, r.2.1, m, r.2.2⟩

/-- Results of the normalisation part available to a prover. For `S ≠ 0` unique; for `S = 0` sign and
shift are free. -/
def NormOut (b : ℕ) (f : Fmt) (S : ℤ) (mbl : ℕ) (r : ZMod p × ZMod p × ZMod p) : Prop :=
  ∃ (c : Bool) (k : ℕ), (S ≠ 0 → c = decide (0 < S) ∧ k = leadingZeros S.natAbs mbl) ∧
    (S = 0 → k < f.pow2Size ∧ CheckSat b ((k : ℕ) : ZMod p) (bitLen mbl) .loose) ∧
    r = (B c, ((S.natAbs * 2 ^ k : ℕ) : ZMod p), ((k : ℕ) : ZMod p))

/-- Honest shift. -/
def lzShift (S : ℤ) (mbl : ℕ) : ℕ := if S = 0 then 0 else leadingZeros S.natAbs mbl

/-- Bounds on the answers the power-of-two lookup accepts. -/
theorem pow2Answer_bound {size k t sl : ℕ} (h1 : t < 2 ^ sl) (h2 : k + t < size) :
    0 < 2 ^ (k + t) + t * 2 ^ size ∧ 2 ^ (k + t) + t * 2 ^ size < 2 ^ (size + sl) ∧
    (0 < t → 2 ^ size ≤ 2 ^ (k + t) + t * 2 ^ size) := by
  have a0 : 0 < 2 ^ (k + t) := by positivity
  have a1 : 2 ^ (k + t) < 2 ^ size := Nat.pow_lt_pow_right (by norm_num) h2
  have a3 : (t + 1) * 2 ^ size ≤ 2 ^ sl * 2 ^ size := Nat.mul_le_mul_right _ h1
  rw [pow_add _ size, mul_comm (2 ^ size)]
  rw [add_mul] at a3
  refine ⟨by omega, by omega, fun h => ?_⟩
  have a2 : 1 * 2 ^ size ≤ t * 2 ^ size := Nat.mul_le_mul_right _ h
  omega

theorem addNorm_spec (G : Good p b f) {S : ℤ} {mbl : ℕ} (hmbl : mbl = 2 * f.M + 5) (hS : S.natAbs < 2 ^ mbl)
    (hS2 : S ≠ 0 → 2 ^ f.M ≤ S.natAbs) :
    Spec b H (addNorm f ((S : ℤ) : ZMod p) mbl)
      (B (decide (0 ≤ S)), ((S.natAbs * 2 ^ lzShift S mbl : ℕ) : ZMod p), ((lzShift S mbl : ℕ) : ZMod p))
      (NormOut b f S mbl) := by
  have hE := G.hE
  have hEM := G.hEM
  have hM2 := G.hM2
  have hME := G.hME
  have hb17 := G.width.le
  have hps : f.pow2Size = f.M + f.E + 1 := rfl
  have hbl : bitLen mbl ≤ 11 := bitLen_le (by norm_num; omega)
  have hbl0 : 0 < bitLen mbl := by
    have := lt_bitLen mbl
    by_contra h
    have h0 : bitLen mbl = 0 := by omega
    rw [h0, pow_zero] at this; omega
  have hSz : |S| < 2 ^ mbl := by
    rw [Int.abs_eq_natAbs]; exact_mod_cast hS
  have hSp : 2 * |S| + 2 ≤ p := by
    have h1 : (2:ℤ) ^ (mbl + 2) ≤ p := by exact_mod_cast G.pow_le (k := mbl + 2) (by omega)
    rw [show (2:ℤ) ^ (mbl + 2) = 4 * 2 ^ mbl by ring] at h1
    have : (1:ℤ) ≤ 2 ^ mbl := one_le_pow₀ (by norm_num)
    linarith
  have hSnp : S.natAbs < p := G.lt_of_lt_pow hS (by omega)
  -- the honest shift
  obtain ⟨k, hk⟩ : ∃ k, k = lzShift S mbl := ⟨_, rfl⟩
  have hk1 : S ≠ 0 → 2 ^ (mbl - 1) ≤ S.natAbs * 2 ^ k ∧ S.natAbs * 2 ^ k < 2 ^ mbl ∧ k ≤ f.M + 4 := by
    intro h0
    have := leadingZeros_spec (by omega : 0 < S.natAbs) hS
    rw [hk, lzShift, if_neg h0]
    refine ⟨this.2.1, this.2.2, ?_⟩
    by_contra hgt
    have h1 : 2 ^ f.M * 2 ^ (f.M + 5) ≤ S.natAbs * 2 ^ leadingZeros S.natAbs mbl :=
      Nat.mul_le_mul (hS2 h0) (Nat.pow_le_pow_right (by norm_num) (by omega))
    rw [← pow_add, show f.M + (f.M + 5) = mbl by omega] at h1
    omega
  have hk2 : k ≤ f.M + 4 := by
    by_cases h0 : S = 0
    · rw [hk, lzShift, if_pos h0]; omega
    · exact (hk1 h0).2.2
  have hkbl : k < 2 ^ bitLen mbl := by
    have := lt_bitLen mbl
    omega
  have hsel : ∀ c : Bool, (0 < S → c = true) → (S < 0 → c = false) →
      (if c = true then ((S : ℤ) : ZMod p) else -((S : ℤ) : ZMod p)) = ((S.natAbs : ℕ) : ZMod p) := by
    intro c h1 h2
    have e : ((S.natAbs : ℕ) : ZMod p) = ((|S| : ℤ) : ZMod p) := by
      rw [Int.abs_eq_natAbs, Int.cast_natCast]
    rw [e]
    cases c
    · rw [abs_of_nonpos (by by_contra h; simpa using h1 (by omega))]; simp
    · rw [abs_of_nonneg (by by_contra h; simpa using h2 (by omega))]; simp
  have hfinal : checkRun b (((S.natAbs * 2 ^ k : ℕ) : ZMod p) - (1 - isZero (((S.natAbs * 2 ^ k : ℕ) : ZMod p))) * tw (mbl - 1)) (mbl - 1) .smallAbs = true := by
    by_cases h0 : S = 0
    · have : ((S.natAbs * 2 ^ k : ℕ) : ZMod p) = ((0 : ℕ) : ZMod p) := by rw [h0]; simp
      rw [this]
      have e : ((0 : ℕ) : ZMod p) - (1 - isZero ((0 : ℕ) : ZMod p)) * tw (mbl - 1) = ((0 : ℕ) : ZMod p) := by simp [isZero]
      rw [e]
      exact checkRun_smallAbs_nat G.width (by omega) (G.pow_le (by omega)) (by positivity)
    · obtain ⟨g1, g2, g3⟩ := hk1 h0
      have hne : S.natAbs * 2 ^ k ≠ 0 := by positivity
      rw [isZero_nat G (G.lt_of_lt_pow g2 (by omega)), decide_eq_false hne]
      have e : ((S.natAbs * 2 ^ k : ℕ) : ZMod p) - (1 - B false) * tw (mbl - 1) = ((S.natAbs * 2 ^ k - 2 ^ (mbl - 1) : ℕ) : ZMod p) := by
        rw [Nat.cast_sub g1]; push_cast; simp
      rw [e]
      refine checkRun_smallAbs_nat G.width (by omega) (G.pow_le (by omega)) ?_
      have : 2 ^ mbl = 2 * 2 ^ (mbl - 1) := by rw [← pow_succ']; congr 1; omega
      omega
  refine ⟨?_, ?_⟩
  · -- honest run
    have hq := run_queryPowerOf2 (p := p) (b := b) (size := f.pow2Size) G.width (G.pow_le (by omega)) (k := k) (by omega) (by norm_num; omega)
    have hns : normalizeHint (((S.natAbs : ℕ) : ZMod p)) mbl = some ((k : ℕ) : ZMod p) := by
      unfold normalizeHint
      rw [ZMod.val_natCast_of_lt hSnp, hk, lzShift]
      by_cases h0 : S = 0
      · simp [h0]
      · simp [h0]
    have hcl := checkRun_loose (p := p) (b := b) (bits := bitLen mbl) (v := ((k : ℕ) : ZMod p)) G.bpos hbl0
      (lt_of_le_of_lt (val_natCast_le _) hkbl)
    rw [← hk]
    simp only [addNorm, newHint, absHintSign_int hSp, absHintAbs_int hSp, Circ.bind_eq, Circ.bind, Circ.pure_eq,
      assertIsBoolean, assertBitLength, Circ.run, isBool_B, if_true, hns, hcl]
    rw [Circ.run_bind, hq]
    simp only [Option.bind_some, select, softBool, Circ.bind_eq, Circ.bind, Circ.pure_eq, Circ.run, isBool_B, if_true, sel_B]
    have e := hsel (decide (0 ≤ S)) (by intro h; simp; omega) (by intro h; simp; omega)
    rw [e]
    have e2 : ((S.natAbs : ℕ) : ZMod p) * 2 ^ k = ((S.natAbs * 2 ^ k : ℕ) : ZMod p) := by push_cast; rfl
    rw [e2, hfinal]; simp
  · intro hHH st r
    simp only [addNorm, newHint, Circ.bind_eq, Circ.bind, Circ.pure_eq, assertIsBoolean, assertBitLength,
      Circ.Sat, Circ.sat_bind, select, softBool, sel_B]
    constructor
    · rintro ⟨c, -, hc, sh, hsh, t, ht, -, hchk, rfl⟩
      obtain ⟨c, rfl⟩ := (isBool_iff c).1 hc
      rw [sel_B] at hchk ⊢
      have hsh' := hsh
      rw [checkSat_loose_iff G.bpos hbl0] at hsh
      have hsh2 : sh.val < 2 ^ f.pow2Size := lt_of_lt_of_le hsh
        (Nat.pow_le_pow_right (by norm_num) (by have := G.width.mul_le hbl0; omega))
      obtain ⟨k', hk', hk'lt⟩ : ∃ k' : ℕ, sh = ((k' : ℕ) : ZMod p) ∧ k' < 2 ^ f.pow2Size := ⟨_, by simp, hsh2⟩
      subst hk'
      have hk'sz : k' < f.pow2Size := by
        by_contra h
        exact sat_queryPowerOf2_out G.width (by omega) (G.pow_le (by omega)) hk'lt (by omega) st t ht
      rw [sat_queryPowerOf2_nat G.width (by omega) (G.pow_le (by omega)) hk'lt] at ht
      obtain ⟨t0, ht0, hts, rfl⟩ := ht
      by_cases h0 : S = 0
      · refine ⟨c, k', by simp [h0], fun _ => ⟨hk'sz, hsh'⟩, ?_⟩
        rw [h0]; cases c <;> simp
      · -- the integer value of the scaled mantissa
        obtain ⟨hT1, hT2, hT3⟩ := pow2Answer_bound ht0 hts
        generalize hTT : 2 ^ (k' + t0) + t0 * 2 ^ f.pow2Size = T at hT1 hT2 hT3 hchk ⊢
        have hTpos : 0 < T := hT1
        obtain ⟨Z, hZ⟩ : ∃ Z : ℤ, Z = (if c then S else -S) * (T : ℤ) := ⟨_, rfl⟩
        have hZc : (if c = true then ((S : ℤ) : ZMod p) else -((S : ℤ) : ZMod p)) * ((T : ℕ) : ZMod p) = ((Z : ℤ) : ZMod p) := by
          rw [hZ]; cases c <;> simp
        rw [hZc] at hchk ⊢
        have hZ0 : Z ≠ 0 := by
          rw [hZ]; apply mul_ne_zero
          · cases c <;> simp [h0]
          · exact_mod_cast hTpos.ne'
        have hsl : slack b f.pow2Size ≤ 16 := by have := slack_lt G.bpos (show 0 < f.pow2Size by omega); omega
        have hZabs : |Z| < 2 ^ (mbl + (f.pow2Size + 16)) := by
          rw [hZ, abs_mul, pow_add]
          have h1 : |(if c = true then S else -S)| < 2 ^ mbl := by cases c <;> simp [hSz]
          have h2 : |(T : ℤ)| ≤ 2 ^ (f.pow2Size + 16) := by
            rw [abs_of_nonneg (by positivity)]
            exact_mod_cast (le_trans hT2.le (Nat.pow_le_pow_right (by norm_num) (by omega)))
          have h3 : 0 < |(T : ℤ)| := by rw [abs_pos]; exact_mod_cast hTpos.ne'
          calc _ < 2 ^ mbl * |(T : ℤ)| := mul_lt_mul_of_pos_right h1 h3
            _ ≤ _ := mul_le_mul_of_nonneg_left h2 (by positivity)
        have hZp : |Z| < p := by
          have h1 : (2:ℤ) ^ (mbl + (f.pow2Size + 16)) ≤ p := by exact_mod_cast G.pow_le (k := mbl + (f.pow2Size + 16)) (by omega)
          linarith
        have hiz : isZero (((Z : ℤ) : ZMod p)) = 0 := by
          rw [isZero_eq]
          have : ¬ ((Z : ℤ) : ZMod p) = 0 := by
            intro h
            have := (intCast_inj (p := p) (a := Z) (c := 0) (by simpa using hZp)).1 (by simpa using h)
            exact hZ0 this
          simp [this]
        rw [hiz] at hchk
        have e : ((Z : ℤ) : ZMod p) - (1 - 0) * tw (mbl - 1) = ((Z - 2 ^ (mbl - 1) : ℤ) : ZMod p) := by push_cast; ring
        rw [e, checkSat_smallAbs_int G.bpos (by omega) (C := mbl + (f.pow2Size + 16) + 1) ?_ (by omega) (G.pow_le (by omega))] at hchk
        · obtain ⟨g1, g2⟩ := hchk
          have hZpos : 0 < Z := by
            have : (0:ℤ) < 2 ^ (mbl - 1) := by positivity
            linarith
          have h2k : (0:ℤ) < (T : ℤ) := by exact_mod_cast hTpos
          have hin : 0 < (if c then S else -S) := by
            rw [hZ] at hZpos
            exact pos_of_mul_pos_left hZpos h2k.le
          have hcS : c = decide (0 < S) := by
            cases c <;> simp at hin ⊢ <;> omega
          have hnat : (if c then S else -S) = (S.natAbs : ℤ) := by
            cases c <;> simp only [Bool.false_eq_true, if_false, if_true] at hin ⊢ <;> omega
          have hZn : Z = ((S.natAbs * T : ℕ) : ℤ) := by rw [hZ, hnat]; push_cast; rfl
          have hmm : 2 ^ mbl = 2 * 2 ^ (mbl - 1) := by rw [← pow_succ']; congr 1; omega
          have b1 : 2 ^ (mbl - 1) ≤ S.natAbs * T := by
            have : ((2 ^ (mbl - 1) : ℕ) : ℤ) ≤ ((S.natAbs * T : ℕ) : ℤ) := by
              rw [← hZn]; push_cast; linarith
            exact_mod_cast this
          have b2 : S.natAbs * T < 2 ^ mbl := by
            have : ((S.natAbs * T : ℕ) : ℤ) < ((2 * 2 ^ (mbl - 1) : ℕ) : ℤ) := by
              rw [← hZn]; push_cast; linarith
            rw [hmm]; exact_mod_cast this
          -- a dishonest answer of the lookup would make the product too large
          have ht00 : t0 = 0 := by
            by_contra hne
            have h1 : 2 ^ f.M * 2 ^ f.pow2Size ≤ S.natAbs * T := Nat.mul_le_mul (hS2 h0) (hT3 (by omega))
            rw [← pow_add] at h1
            have h2 : 2 ^ mbl ≤ 2 ^ (f.M + f.pow2Size) := Nat.pow_le_pow_right (by norm_num) (by omega)
            omega
          have hTk : T = 2 ^ k' := by rw [← hTT, ht00]; simp
          rw [hTk] at b1 b2 hZn
          obtain ⟨g3, g4, -⟩ := hk1 h0
          have hkk : k' = k := by
            have hm1 : mbl - 1 + 1 = mbl := by omega
            exact norm_unique (n := mbl - 1) b1 (by rw [hm1]; exact b2) g3 (by rw [hm1]; exact g4)
          refine ⟨c, k', fun _ => ⟨hcS, by rw [hkk, hk, lzShift, if_neg h0]⟩, fun h => absurd h h0, ?_⟩
          rw [hZn, Int.cast_natCast]
        · rw [pow_succ]
          have h1 : (2:ℤ) ^ (mbl - 1) ≤ 2 ^ (mbl + (f.pow2Size + 16)) := pow_le_pow_right₀ (by norm_num) (by omega)
          have h2 : (0:ℤ) < 2 ^ (mbl - 1) := by positivity
          rw [abs_lt] at hZabs
          rw [abs_le]; constructor <;> linarith
    · rintro ⟨c, k', h1, h2, rfl⟩
      have hk'sz : k' < f.pow2Size := by
        by_cases h0 : S = 0
        · exact (h2 h0).1
        · have : k' = k := by rw [(h1 h0).2, hk, lzShift, if_neg h0]
          omega
      refine ⟨B c, 0, isBool_B c, ((k' : ℕ) : ZMod p), ?_, 2 ^ k', ?_, fun _ => isBool_B c, ?_, ?_⟩
      · by_cases h0 : S = 0
        · exact (h2 h0).2
        · have : k' = k := by rw [(h1 h0).2, hk, lzShift, if_neg h0]
          rw [this]
          exact checkSat_loose_nat G.width hbl0 hkbl
      · rw [sat_queryPowerOf2_nat G.width (by omega) (G.pow_le (by omega)) (lt_trans hk'sz Nat.lt_two_pow_self)]
        exact ⟨0, by positivity, by omega, by simp⟩
      · rw [sel_B]
        by_cases h0 : S = 0
        · have e : (if c = true then ((S : ℤ) : ZMod p) else -((S : ℤ) : ZMod p)) * 2 ^ k' = ((0:ℕ) : ZMod p) := by rw [h0]; cases c <;> simp
          rw [e]
          have e : ((0 : ℕ) : ZMod p) - (1 - isZero ((0 : ℕ) : ZMod p)) * tw (mbl - 1) = ((0 : ℕ) : ZMod p) := by simp [isZero]
          rw [e]
          exact Circ.checkSat_of_checkRun (checkRun_smallAbs_nat G.width (by omega) (G.pow_le (by omega)) (by positivity))
        · have hkk : k' = k := by rw [(h1 h0).2, hk, lzShift, if_neg h0]
          have hc := (h1 h0).1
          rw [hsel c (by intro h; simp [hc, h]) (by intro h; rw [hc]; simp; omega), hkk]
          have e2 : ((S.natAbs : ℕ) : ZMod p) * 2 ^ k = ((S.natAbs * 2 ^ k : ℕ) : ZMod p) := by push_cast; rfl
          rw [e2]
          exact Circ.checkSat_of_checkRun hfinal
      · rw [sel_B]
        by_cases h0 : S = 0
        · rw [h0]; cases c <;> simp
        · have hc := (h1 h0).1
          rw [hsel c (by intro h; simp [hc, h]) (by intro h; rw [hc]; simp; omega)]
          push_cast; rfl

/-- A sum outside the expected range does not pass the normalisation, whatever the prover answers. -/
theorem addNorm_reject (G : Good p b f) {S : ℤ} {mbl : ℕ} (hmbl : mbl = 2 * f.M + 5) (hS : 2 ^ mbl ≤ S.natAbs)
    (hS2 : S.natAbs < 2 ^ (2 * f.M + f.E + 3 + slack b f.pow2Size)) (hpw : 2 ^ (3 * f.M + 2 * f.E + 6 + 3 * b) ≤ p)
    (st : Bool) (r : ZMod p × ZMod p × ZMod p) : ¬ (addNorm f ((S : ℤ) : ZMod p) mbl).Sat b st r := by
  have hE := G.hE
  have hEM := G.hEM
  have hM2 := G.hM2
  have hME := G.hME
  have hb17 := G.width.le
  have hb0 := G.bpos
  have hps : f.pow2Size = f.M + f.E + 1 := rfl
  have hbl : bitLen mbl ≤ 11 := bitLen_le (by norm_num; omega)
  have hbl0 : 0 < bitLen mbl := by
    have := lt_bitLen mbl
    by_contra h
    have h0 : bitLen mbl = 0 := by omega
    rw [h0, pow_zero] at this; omega
  have hsl : slack b f.pow2Size ≤ b - 1 := by have := slack_lt hb0 (show 0 < f.pow2Size by omega); omega
  have hpw' : ∀ {k : ℕ}, k ≤ 3 * f.M + 2 * f.E + 6 + 3 * b → 2 ^ k ≤ p := fun h =>
    le_trans (Nat.pow_le_pow_right (by norm_num) h) hpw
  have h0 : S ≠ 0 := by
    rintro rfl
    have : 0 < 2 ^ mbl := by positivity
    simp at hS
  simp only [addNorm, newHint, Circ.bind_eq, Circ.bind, Circ.pure_eq, assertIsBoolean, assertBitLength,
    Circ.Sat, Circ.sat_bind, select, softBool]
  rintro ⟨c, -, hc, sh, hsh, t, ht, -, hchk, -⟩
  obtain ⟨c, rfl⟩ := (isBool_iff c).1 hc
  rw [sel_B] at hchk
  rw [checkSat_loose_iff G.bpos hbl0] at hsh
  have hsh2 : sh.val < 2 ^ f.pow2Size := lt_of_lt_of_le hsh
    (Nat.pow_le_pow_right (by norm_num) (by have := G.width.mul_le hbl0; omega))
  obtain ⟨k', hk', hk'lt⟩ : ∃ k' : ℕ, sh = ((k' : ℕ) : ZMod p) ∧ k' < 2 ^ f.pow2Size := ⟨_, by simp, hsh2⟩
  subst hk'
  rw [sat_queryPowerOf2_nat G.width (by omega) (G.pow_le (by omega)) hk'lt] at ht
  obtain ⟨t0, ht0, hts, rfl⟩ := ht
  obtain ⟨hT1, hT2, -⟩ := pow2Answer_bound ht0 hts
  generalize 2 ^ (k' + t0) + t0 * 2 ^ f.pow2Size = T at hT1 hT2 hchk
  obtain ⟨A, hA⟩ : ∃ A, A = 2 * f.M + f.E + 3 + slack b f.pow2Size + (f.pow2Size + slack b f.pow2Size) := ⟨_, rfl⟩
  obtain ⟨Z, hZ⟩ : ∃ Z : ℤ, Z = (if c then S else -S) * (T : ℤ) := ⟨_, rfl⟩
  have hZc : (if c = true then ((S : ℤ) : ZMod p) else -((S : ℤ) : ZMod p)) * ((T : ℕ) : ZMod p) = ((Z : ℤ) : ZMod p) := by
    rw [hZ]; cases c <;> simp
  rw [hZc] at hchk
  have hcn : (if c then S else -S).natAbs = S.natAbs := by cases c <;> simp
  have hZabs : Z.natAbs = S.natAbs * T := by rw [hZ, Int.natAbs_mul, hcn, Int.natAbs_natCast]
  have hZlt : Z.natAbs < 2 ^ A := by
    rw [hZabs, hA, pow_add _ (2 * f.M + f.E + 3 + slack b f.pow2Size)]
    exact Nat.mul_lt_mul'' hS2 hT2
  have hZge : 2 ^ mbl ≤ Z.natAbs := by rw [hZabs]; exact le_trans hS (Nat.le_mul_of_pos_right _ hT1)
  have hZa : |Z| < 2 ^ A := by rw [Int.abs_eq_natAbs]; exact_mod_cast hZlt
  have hZ0 : Z ≠ 0 := by
    rintro rfl
    have : 0 < 2 ^ mbl := by positivity
    simp at hZge
  have hiz : isZero (((Z : ℤ) : ZMod p)) = 0 := by
    rw [isZero_eq]
    have : ¬ ((Z : ℤ) : ZMod p) = 0 := by
      intro h
      refine hZ0 ((intCast_inj (p := p) (a := Z) (c := 0) ?_).1 (by simpa using h))
      have h1 : (2:ℤ) ^ A ≤ p := by exact_mod_cast hpw' (k := A) (by omega)
      simpa using lt_of_lt_of_le hZa h1
    simp [this]
  rw [hiz] at hchk
  have e : ((Z : ℤ) : ZMod p) - (1 - 0) * tw (mbl - 1) = ((Z - 2 ^ (mbl - 1) : ℤ) : ZMod p) := by push_cast; ring
  have hmm : 2 ^ mbl = 2 * 2 ^ (mbl - 1) := by rw [← pow_succ']; congr 1; omega
  rw [e, checkSat_smallAbs_int G.bpos (by omega) (C := A + 1) ?_ (by omega) (hpw' (by omega))] at hchk
  · obtain ⟨g1, g2⟩ := hchk
    have hp : (0:ℤ) < 2 ^ (mbl - 1) := by positivity
    have g3 : ((2 ^ mbl : ℕ) : ℤ) ≤ |Z| := by rw [Int.abs_eq_natAbs]; exact_mod_cast hZge
    rw [hmm] at g3
    push_cast at g3
    rw [abs_of_nonneg (by linarith)] at g3
    linarith
  · rw [pow_succ]
    have h1 : (2:ℤ) ^ (mbl - 1) ≤ 2 ^ A := pow_le_pow_right₀ (by norm_num) (by omega)
    have h2 : (0:ℤ) < 2 ^ (mbl - 1) := by positivity
    rw [abs_lt] at hZa
    rw [abs_le]; constructor <;> linarith

/-- The signed significand. -/
def Flt.smant (x : Flt) : ℤ := if x.sign then -(x.man : ℤ) else x.man

/-- Exponent gap. -/
def expGap (x y : Flt) : ℕ := (y.exp - x.exp).natAbs

/-- The aligned sum of the two significands, scaled by `2^(M+3)` relative to the larger exponent. -/
def addS (f : Fmt) (x y : Flt) : ℤ :=
  if x.exp ≤ y.exp then x.smant * 2 ^ (f.M + 3 - expGap x y) + y.smant * 2 ^ (f.M + 3)
  else y.smant * 2 ^ (f.M + 3 - expGap x y) + x.smant * 2 ^ (f.M + 3)

/-- `Add` after normalisation, on integers: `c` is the prover's `mantissa_ge_0`, `k` the shift. -/
def addTail (f : Fmt) (x y : Flt) (c : Bool) (k : ℕ) (c2 : Bool) : Flt :=
  let N := (addS f x y).natAbs * 2 ^ k
  let r := fixZ f (rnd N (f.M + 4) true) (decide (N = 0)) (max x.exp y.exp + 1 - k) (x.abn || y.abn) c2
  ⟨if x.sign = y.sign then x.sign else !c, r.2.1,
    if x.abn then (if !y.abn || decide (x.smant = y.smant) then x.man else 0)
      else if y.abn then y.man else r.1, r.2.2⟩

/-- The same when `round` returns the significand `m`. -/
def addFin (f : Fmt) (x y : Flt) (m : ℕ) (c : Bool) (k : ℕ) (c2 : Bool) : Flt :=
  let N := (addS f x y).natAbs * 2 ^ k
  let r := fixZ f m (decide (N = 0)) (max x.exp y.exp + 1 - k) (x.abn || y.abn) c2
  ⟨if x.sign = y.sign then x.sign else !c, r.2.1,
    if x.abn then (if !y.abn || decide (x.smant = y.smant) then x.man else 0)
      else if y.abn then y.man else r.1, r.2.2⟩

theorem addTail_eq (f : Fmt) (x y : Flt) (c : Bool) (k : ℕ) (c2 : Bool) : addTail f x y c k c2 =
    addFin f x y (rnd ((addS f x y).natAbs * 2 ^ k) (f.M + 4) true) c k c2 := rfl

/-- Integer-level `Add`; `c1` resolves the sign of an exact zero sum, `c2` the overflow test at exactly
`E_MAX`. -/
def addZ (f : Fmt) (x y : Flt) (c1 c2 : Bool) : Flt :=
  let S := addS f x y
  addTail f x y (if S = 0 then c1 else decide (0 < S)) (lzShift S (2 * f.M + 5)) c2

/-- The normalised sum of the significands. -/
def addN (f : Fmt) (x y : Flt) : ℕ := (addS f x y).natAbs * 2 ^ lzShift (addS f x y) (2 * f.M + 5)

/-- Integer-level `Add` when `round` returns zero. -/
def addZ0 (f : Fmt) (x y : Flt) (c1 c2 : Bool) : Flt :=
  let S := addS f x y
  addFin f x y 0 (if S = 0 then c1 else decide (0 < S)) (lzShift S (2 * f.M + 5)) c2

/-- The rounding in `Add` can be forged. -/
def AddForge (b : ℕ) (f : Fmt) (x y : Flt) : Prop := RoundForge b f (addN f x y) (2 * f.M + 5) 0 0

theorem smant_abs (x : Flt) : x.smant.natAbs = x.man := by unfold Flt.smant; split <;> simp

theorem natAbs_lt_iff {z : ℤ} {n : ℕ} : z.natAbs < n ↔ -(n:ℤ) < z ∧ z < n := by omega

theorem addS_bound {x y : Flt} (hx : x.man < 2 ^ (f.M + 1)) (hy : y.man < 2 ^ (f.M + 1)) :
    (addS f x y).natAbs < 2 ^ (2 * f.M + 5) := by
  have key : ∀ (z w : ℤ) (δ : ℕ), z.natAbs < 2 ^ (f.M + 1) → w.natAbs < 2 ^ (f.M + 1) → δ ≤ f.M + 3 →
      (z * 2 ^ δ + w * 2 ^ (f.M + 3)).natAbs < 2 ^ (2 * f.M + 5) := by
    intro z w δ hz hw hδ
    have h1 : (z * 2 ^ δ).natAbs < 2 ^ (2 * f.M + 4) := by
      rw [Int.natAbs_mul, Int.natAbs_pow]
      calc _ < 2 ^ (f.M + 1) * 2 ^ δ := Nat.mul_lt_mul_of_pos_right hz (by positivity)
        _ ≤ 2 ^ (f.M + 1) * 2 ^ (f.M + 3) := Nat.mul_le_mul_left _ (Nat.pow_le_pow_right (by norm_num) hδ)
        _ = _ := by rw [← pow_add]; congr 1; omega
    have h2 : (w * 2 ^ (f.M + 3)).natAbs < 2 ^ (2 * f.M + 4) := by
      rw [Int.natAbs_mul, Int.natAbs_pow]
      calc _ < 2 ^ (f.M + 1) * 2 ^ (f.M + 3) := Nat.mul_lt_mul_of_pos_right hw (by positivity)
        _ = _ := by rw [← pow_add]; congr 1; omega
    have h3 := Int.natAbs_add_le (z * 2 ^ δ) (w * 2 ^ (f.M + 3))
    have h4 : 2 ^ (2 * f.M + 5) = 2 * 2 ^ (2 * f.M + 4) := by ring
    omega
  rw [← smant_abs] at hx hy
  unfold addS
  split
  · exact key _ _ _ hx hy (by omega)
  · exact key _ _ _ hy hx (by omega)

theorem addS_ge {x y : Flt} (hx : x.man = 0 ∨ 2 ^ f.M ≤ x.man) (hy : y.man = 0 ∨ 2 ^ f.M ≤ y.man)
    (hx1 : x.man < 2 ^ (f.M + 1)) (hy1 : y.man < 2 ^ (f.M + 1)) (h : addS f x y ≠ 0) :
    2 ^ f.M ≤ (addS f x y).natAbs := by
  have key : ∀ (z w : ℤ) (d : ℕ), (z.natAbs = 0 ∨ 2 ^ f.M ≤ z.natAbs) → (w.natAbs = 0 ∨ 2 ^ f.M ≤ w.natAbs) →
      z.natAbs < 2 ^ (f.M + 1) → (z * 2 ^ (f.M + 3 - d) + w * 2 ^ (f.M + 3)) ≠ 0 →
      2 ^ f.M ≤ (z * 2 ^ (f.M + 3 - d) + w * 2 ^ (f.M + 3)).natAbs := by
    intro z w d hz hw hzlt hne
    by_cases hd : d ≤ 1
    · -- both summands are multiples of `2^(M+2)`
      have hdvd : ((2:ℤ) ^ (f.M + 2)) ∣ z * 2 ^ (f.M + 3 - d) + w * 2 ^ (f.M + 3) :=
        dvd_add (Dvd.dvd.mul_left (pow_dvd_pow _ (by omega)) _) (Dvd.dvd.mul_left (pow_dvd_pow _ (by omega)) _)
      have h1 := Int.le_of_dvd (abs_pos.2 hne) ((dvd_abs _ _).2 hdvd)
      rw [Int.abs_eq_natAbs] at h1
      have h2 : 2 ^ (f.M + 2) ≤ (z * 2 ^ (f.M + 3 - d) + w * 2 ^ (f.M + 3)).natAbs := by exact_mod_cast h1
      have : 2 ^ f.M ≤ 2 ^ (f.M + 2) := Nat.pow_le_pow_right (by norm_num) (by omega)
      omega
    · rcases hw with hw | hw
      · have hw0 : w = 0 := by omega
        subst hw0
        rw [zero_mul, add_zero] at hne ⊢
        have hz0 : z.natAbs ≠ 0 := by
          intro h0; apply hne; rw [Int.natAbs_eq_zero.1 h0, zero_mul]
        have hz : 2 ^ f.M ≤ z.natAbs := by omega
        rw [Int.natAbs_mul, Int.natAbs_pow]
        exact le_trans hz (Nat.le_mul_of_pos_right _ (by positivity))
      · have h1 : 2 ^ f.M * 2 ^ (f.M + 3) ≤ (w * 2 ^ (f.M + 3)).natAbs := by
          rw [Int.natAbs_mul, Int.natAbs_pow]; exact Nat.mul_le_mul_right _ hw
        have h2 : (z * 2 ^ (f.M + 3 - d)).natAbs < 2 ^ (f.M + 1) * 2 ^ (f.M + 1) := by
          rw [Int.natAbs_mul, Int.natAbs_pow]
          calc _ < 2 ^ (f.M + 1) * 2 ^ (f.M + 3 - d) := Nat.mul_lt_mul_of_pos_right hzlt (by positivity)
            _ ≤ _ := Nat.mul_le_mul_left _ (Nat.pow_le_pow_right (by norm_num) (by omega))
        have e1 : 2 ^ f.M * 2 ^ (f.M + 3) = 8 * (2 ^ f.M * 2 ^ f.M) := by ring
        have e2 : 2 ^ (f.M + 1) * 2 ^ (f.M + 1) = 4 * (2 ^ f.M * 2 ^ f.M) := by ring
        have e3 : 2 ^ f.M * 1 ≤ 2 ^ f.M * 2 ^ f.M := Nat.mul_le_mul_left _ (Nat.one_le_two_pow)
        rw [e1] at h1
        rw [e2] at h2
        generalize 2 ^ f.M * 2 ^ f.M = Q at *
        generalize z * 2 ^ (f.M + 3 - d) = A at *
        generalize w * 2 ^ (f.M + 3) = C at *
        omega
  rw [← smant_abs] at hx hy hx1 hy1
  unfold addS at h ⊢
  split at h
  · rw [if_pos (by assumption)]; exact key _ _ _ hx hy hx1 h
  · rw [if_neg (by assumption)]; exact key _ _ _ hy hx hy1 h

theorem rnd_zero (q : ℕ) (h : Bool) : rnd 0 q h = 0 := by
  unfold rnd
  have : 0 < 2 ^ (q - 1) := by positivity
  simp

theorem sub_B_toVar (x y : Flt) : gIsEq (B x.sign : ZMod p) (B y.sign) = B (decide (x.sign = y.sign)) := by
  rw [gIsEq_B]; congr 1

theorem smant_var (x : Flt) : (if x.sign = true then -((x.man : ℕ) : ZMod p) else ((x.man : ℕ) : ZMod p)) =
    ((x.smant : ℤ) : ZMod p) := by
  unfold Flt.smant; cases x.sign <;> simp

theorem addBack_spec (G : Good p b f) {x y : Flt} (hx : x.Bdd f) (hy : y.Bdd f) {Fz : Prop}
    (c : Bool) (k : ℕ) (hk : k < f.pow2Size) (hN : (addS f x y).natAbs * 2 ^ k < 2 ^ (2 * f.M + 5))
    (hround : RoundOut p b H f ((addS f x y).natAbs * 2 ^ k) (2 * f.M + 5) 0 0 true Fz) :
    Spec b H (addBack f (x.toVar : FloatVar p) y.toVar ((max x.exp y.exp + 1 : ℤ) : ZMod p)
        ((x.smant : ℤ) : ZMod p) ((y.smant : ℤ) : ZMod p)
        (B c, (((addS f x y).natAbs * 2 ^ k : ℕ) : ZMod p), ((k : ℕ) : ZMod p)))
      (addTail f x y c k true).toVar
      (fun r => (∃ c2, r = (addTail f x y c k c2).toVar) ∨ (Fz ∧ ∃ c2, r = (addFin f x y 0 c k c2).toVar)) := by
  have hE := G.hE
  have hEM := G.hEM
  have hM := G.hMz
  have hmn := f.eMin_eq
  have hps : f.pow2Size = f.M + f.E + 1 := rfl
  have hEz : (f.E : ℤ) ≤ f.M := by exact_mod_cast hEM
  obtain ⟨hx1, hx2, hx3⟩ := hx
  obtain ⟨hy1, hy2, hy3⟩ := hy
  obtain ⟨N, hNd⟩ : ∃ N, N = (addS f x y).natAbs * 2 ^ k := ⟨_, rfl⟩
  have hres : ∀ m c2, addFin f x y m c k c2 = ⟨if x.sign = y.sign then x.sign else !c,
    (fixZ f m (decide (N = 0)) (max x.exp y.exp + 1 - k) (x.abn || y.abn) c2).2.1,
    if x.abn then (if !y.abn || decide (x.smant = y.smant) then x.man else 0)
      else if y.abn then y.man else (fixZ f m (decide (N = 0)) (max x.exp y.exp + 1 - k) (x.abn || y.abn) c2).1,
    (fixZ f m (decide (N = 0)) (max x.exp y.exp + 1 - k) (x.abn || y.abn) c2).2.2⟩ := by
    intro m c2; rw [hNd]; rfl
  simp only [addTail_eq, hres]
  rw [← hNd]
  rw [← hNd] at hN hround
  unfold addBack
  simp only [Circ.bind_eq, Circ.pure_eq, Flt.toVar]
  rw [sub_B_toVar, not_B, not_B]
  refine Spec.det_bind (select_spec _ _ _) ?_
  unfold RoundOut at hround
  have hmb : f.M + 3 + (f.M + 1) + 1 = 2 * f.M + 5 := by omega
  rw [hmb]
  rw [show 0 + (2 * f.M + 5) - f.M - 1 = f.M + 4 by omega, Nat.cast_zero, Nat.sub_zero, pow_zero, mul_one, mul_one, B_true] at hround
  have he : ((max x.exp y.exp + 1 : ℤ) : ZMod p) - ((k : ℕ) : ZMod p) = ((max x.exp y.exp + 1 - k : ℤ) : ZMod p) := by push_cast; rfl
  have hsm : gIsEq ((x.smant : ℤ) : ZMod p) ((y.smant : ℤ) : ZMod p) = B (decide (x.smant = y.smant)) := by
    rw [gIsEq_eq]; congr 1; rw [decide_eq_decide]
    apply intCast_inj
    have hp := G.pow_le (k := f.M + 1 + 1) (by omega)
    rw [pow_succ] at hp
    have a1 := smant_abs x
    have a2 := smant_abs y
    rw [abs_lt]; constructor <;> omega
  have hmlt : rnd N (f.M + 4) true < p := by
    refine lt_of_le_of_lt (rnd_le (k := f.M + 1) ?_) (G.pow_lt (by omega))
    rw [show f.M + 4 + (f.M + 1) = 2 * f.M + 5 by omega]; exact hN
  rw [isZero_nat G (G.lt_of_lt_pow hN (by omega)), he, hsm]
  have tail : ∀ m, m < p → Spec b H (Circ.bind (or' (B x.abn) (B y.abn)) fun anyAbnormal =>
      Circ.bind (fixOverflow f ((m : ℕ) : ZMod p) (B (decide (N = 0))) ((max x.exp y.exp + 1 - k : ℤ) : ZMod p) anyAbnormal) fun r =>
      Circ.bind (or' (B (!y.abn)) (B (decide (x.smant = y.smant)))) fun keepX =>
      Circ.bind (select keepX ((x.man : ℕ) : ZMod p) 0) fun mx =>
      Circ.bind (select (B y.abn) ((y.man : ℕ) : ZMod p) r.1) fun my =>
      Circ.bind (select (B x.abn) mx my) fun m' =>
        Circ.pure (⟨if decide (x.sign = y.sign) = true then B x.sign else B (!c), r.2.1, m', r.2.2⟩ : FloatVar p))
      (Flt.toVar ⟨if x.sign = y.sign then x.sign else !c,
        (fixZ f m (decide (N = 0)) (max x.exp y.exp + 1 - k) (x.abn || y.abn) true).2.1,
        if x.abn then (if !y.abn || decide (x.smant = y.smant) then x.man else 0)
        else if y.abn then y.man else (fixZ f m (decide (N = 0)) (max x.exp y.exp + 1 - k) (x.abn || y.abn) true).1,
        (fixZ f m (decide (N = 0)) (max x.exp y.exp + 1 - k) (x.abn || y.abn) true).2.2⟩)
      (fun r => ∃ c2, r = Flt.toVar ⟨if x.sign = y.sign then x.sign else !c,
        (fixZ f m (decide (N = 0)) (max x.exp y.exp + 1 - k) (x.abn || y.abn) c2).2.1,
        if x.abn then (if !y.abn || decide (x.smant = y.smant) then x.man else 0)
        else if y.abn then y.man else (fixZ f m (decide (N = 0)) (max x.exp y.exp + 1 - k) (x.abn || y.abn) c2).1,
        (fixZ f m (decide (N = 0)) (max x.exp y.exp + 1 - k) (x.abn || y.abn) c2).2.2⟩) := by
    intro m hm
    refine Spec.det_bind (or_spec _ _) ?_
    refine Spec.bind_fix G hm (by omega) (by omega)
      (w := fun t => Flt.toVar ⟨if x.sign = y.sign then x.sign else !c, t.2.1,
        if x.abn then (if !y.abn || decide (x.smant = y.smant) then x.man else 0)
          else if y.abn then y.man else t.1, t.2.2⟩) (fun c2 => ?_)
    generalize fixZ f m (decide (N = 0)) (max x.exp y.exp + 1 - k) (x.abn || y.abn) c2 = t
    refine Spec.det_bind (or_spec _ _) (Spec.det_bind (select_spec _ _ _) (Spec.det_bind (select_spec _ _ _)
      (Spec.det_bind (select_spec _ _ _) ?_)))
    have : (⟨if decide (x.sign = y.sign) = true then B x.sign else B (!c), (fixOut t : ZMod p × ZMod p × ZMod p).2.1,
        if x.abn = true then (if (!y.abn || decide (x.smant = y.smant)) = true then ((x.man : ℕ) : ZMod p) else 0)
        else if y.abn = true then ((y.man : ℕ) : ZMod p) else (fixOut t : ZMod p × ZMod p × ZMod p).1,
        (fixOut t : ZMod p × ZMod p × ZMod p).2.2⟩ : FloatVar p) =
        Flt.toVar ⟨if x.sign = y.sign then x.sign else !c, t.2.1,
      if x.abn then (if !y.abn || decide (x.smant = y.smant) then x.man else 0)
        else if y.abn then y.man else t.1, t.2.2⟩ := by
      unfold Flt.toVar fixOut
      ext
      · by_cases h : x.sign = y.sign <;> simp [h]
      · rfl
      · cases x.abn
        · cases y.abn <;> simp
        · cases (!y.abn || decide (x.smant = y.smant)) <;> simp
      · rfl
    rw [← this]
    exact Spec.pure _
  exact Spec.bind_forge hround (tail _ hmlt) (tail 0 (by omega))

/-- Sequencing after a power-of-two lookup when the continuation can deal with the dishonest answers. -/
theorem Spec.bind_query {α : Type} (G : Good p b f) {k : ℕ} (hk : k < f.pow2Size) {g : ZMod p → Circ p α} {w : α} {S : α → Prop}
    (hg : Spec b H (g (2 ^ k)) w S)
    (hf : Spec b H (g (2 ^ k)) w S → H → ∀ t, 0 < t → t < 2 ^ slack b f.pow2Size → k + t < f.pow2Size → ∀ st r,
      (g ((2 ^ (k + t) + t * 2 ^ f.pow2Size : ℕ) : ZMod p)).Sat b st r → S r) :
    Spec b H (Circ.bind (queryPowerOf2 f.pow2Size ((k : ℕ) : ZMod p)) g) w S := by
  have hE := G.hE
  have hEM := G.hEM
  have hM2 := G.hM2
  have hME := G.hME
  have hps : f.pow2Size = f.M + f.E + 1 := rfl
  refine ⟨?_, fun hH st r => ?_⟩
  · rw [Circ.run_bind, run_queryPowerOf2 (p := p) (b := b) (size := f.pow2Size) G.width (G.pow_le (by omega)) (k := k) (by omega) (by norm_num; omega)]
    exact hg.run
  · rw [Circ.sat_bind]
    simp only [sat_queryPowerOf2_nat G.width (show 5 ≤ f.pow2Size by omega) (G.pow_le (show 2 * f.pow2Size + 18 ≤ _ by omega))
      (lt_trans hk Nat.lt_two_pow_self)]
    constructor
    · rintro ⟨_, ⟨t, ht, hts, rfl⟩, hsat⟩
      rcases Nat.eq_zero_or_pos t with rfl | h0
      · rw [add_zero, zero_mul, add_zero, Nat.cast_pow, Nat.cast_ofNat] at hsat
        exact (hg.sat hH st r).1 hsat
      · exact hf hg hH t h0 ht hts st r hsat
    · intro hr
      exact ⟨2 ^ k, ⟨0, by positivity, by omega, by simp⟩, (hg.sat hH st r).2 hr⟩

theorem Circ.sat_det_bind {α β : Type} {c : Circ p α} {v : α} (h : Det b True c v) (k : α → Circ p β) (st : Bool) (r : β) :
    (Circ.bind c k).Sat b st r ↔ (k v).Sat b st r := by
  rw [Circ.sat_bind]
  constructor
  · rintro ⟨a, h1, h2⟩
    rw [(h.sat trivial st a).1 h1] at h2; exact h2
  · intro h2; exact ⟨v, (h.sat trivial st v).2 rfl, h2⟩

/-- A dishonest answer to the alignment lookup pushes the sum out of the range of the normalisation. -/
theorem forged_align {M E sl T : ℕ} (hE : 5 ≤ E) {z w : ℤ} (hz : 2 ^ M ≤ z.natAbs) (hz2 : z.natAbs < 2 ^ (M + 1))
    (hw : w.natAbs < 2 ^ (M + 1)) (hT : 2 ^ (M + E + 1) ≤ T) (hT2 : T < 2 ^ (M + E + 1 + sl)) :
    2 ^ (2 * M + 5) ≤ (z * T + w * 2 ^ (M + 3)).natAbs ∧
    (z * T + w * 2 ^ (M + 3)).natAbs < 2 ^ (2 * M + E + 3 + sl) := by
  have h1 : 2 ^ (2 * M + E + 1) ≤ (z * T).natAbs := by
    rw [Int.natAbs_mul, Int.natAbs_natCast]
    refine le_trans (le_of_eq ?_) (Nat.mul_le_mul hz hT)
    rw [← pow_add]; congr 1; omega
  have h2 : (z * T).natAbs < 2 ^ (2 * M + E + 2 + sl) := by
    rw [Int.natAbs_mul, Int.natAbs_natCast]
    refine lt_of_lt_of_le (Nat.mul_lt_mul'' hz2 hT2) (le_of_eq ?_)
    rw [← pow_add]; congr 1; omega
  have h3 : (w * 2 ^ (M + 3)).natAbs < 2 ^ (2 * M + 4) := by
    rw [Int.natAbs_mul, Int.natAbs_pow]
    calc _ < 2 ^ (M + 1) * 2 ^ (M + 3) := Nat.mul_lt_mul_of_pos_right hw (by positivity)
      _ = _ := by rw [← pow_add]; congr 1; omega
  have h4 : 2 ^ (2 * M + 6) ≤ 2 ^ (2 * M + E + 1) := Nat.pow_le_pow_right (by norm_num) (by omega)
  have h5 : 2 ^ (2 * M + 6) = 4 * 2 ^ (2 * M + 4) := by ring
  have h6 : 2 ^ (2 * M + 5) = 2 * 2 ^ (2 * M + 4) := by ring
  have h7 : 2 ^ (2 * M + E + 3 + sl) = 2 * 2 ^ (2 * M + E + 2 + sl) := by ring
  have h8 : 2 ^ (2 * M + 4) ≤ 2 ^ (2 * M + E + 2 + sl) := Nat.pow_le_pow_right (by norm_num) (by omega)
  generalize z * T = a at *
  generalize w * 2 ^ (M + 3) = c at *
  generalize 2 ^ (2 * M + 4) = q at *
  generalize 2 ^ (2 * M + E + 2 + sl) = q2 at *
  generalize 2 ^ (2 * M + E + 1) = q3 at *
  omega

theorem fAdd_eq (x y : FloatVar p) : fAdd f x y =
    Circ.bind (gAbs (y.exponent - x.exponent) (f.E + 1)) fun d =>
    Circ.bind (select d.2 y.exponent x.exponent) fun e0 =>
    Circ.bind (gMax ((f.M + 3 : ℕ) - d.1) 0 f.E) fun delta =>
    Circ.bind (queryPowerOf2 f.pow2Size delta) fun twoToDelta =>
    Circ.bind (select x.sign (-x.mantissa) x.mantissa) fun xx =>
    Circ.bind (select y.sign (-y.mantissa) y.mantissa) fun yy =>
    Circ.bind (select d.2 xx yy) fun zz =>
    Circ.bind (addNorm f (zz * twoToDelta + ((xx + yy) - zz) * tw (f.M + 3)) ((f.M + 3) + (f.M + 1) + 1)) fun t =>
    addBack f x y (e0 + 1) xx yy t := rfl

theorem fAdd_core (G : Good p b f) {x y : Flt} (hx : x.Bdd f) (hy : y.Bdd f)
    (hxm : x.man = 0 ∨ 2 ^ f.M ≤ x.man) (hym : y.man = 0 ∨ 2 ^ f.M ≤ y.man)
    (hab : x.exp = f.eMax ∨ y.exp = f.eMax → x.abn = true ∨ y.abn = true)
    (hH : H → b ∣ f.pow2Size ∨ (5 ≤ f.E ∧ 2 ^ (3 * f.M + 2 * f.E + 6 + 3 * b) ≤ p)) {Fz : ℕ → Prop}
    (hround : ∀ N, N < 2 ^ (2 * f.M + 5) → RoundOut p b H f N (2 * f.M + 5) 0 0 true (Fz N)) :
    Spec b H (fAdd f (x.toVar : FloatVar p) y.toVar) (addZ f x y true true).toVar
      (fun r => (∃ c1 c2, r = (addZ f x y c1 c2).toVar) ∨ (Fz (addN f x y) ∧ ∃ c1 c2, r = (addZ0 f x y c1 c2).toVar)) := by
  have hE := G.hE
  have hEM := G.hEM
  have hM := G.hMz
  have hM2 := G.hM2
  have hmn := f.eMin_eq
  have hps : f.pow2Size = f.M + f.E + 1 := rfl
  have hEz : (f.E : ℤ) ≤ f.M := by exact_mod_cast hEM
  have hSb := addS_bound hx.man hy.man
  have hSg := addS_ge (f := f) hxm hym hx.man hy.man
  have hxb := hx
  have hyb := hy
  obtain ⟨hx1, hx2, hx3⟩ := hx
  obtain ⟨hy1, hy2, hy3⟩ := hy
  obtain ⟨S, hS⟩ : ∃ S, S = addS f x y := ⟨_, rfl⟩
  -- shift facts
  have hk1 : S ≠ 0 → S.natAbs * 2 ^ lzShift S (2 * f.M + 5) < 2 ^ (2 * f.M + 5) ∧ lzShift S (2 * f.M + 5) ≤ f.M + 4 := by
    intro h0
    rw [← hS] at hSb hSg
    have := leadingZeros_spec (by omega : 0 < S.natAbs) hSb
    rw [lzShift, if_neg h0]
    refine ⟨this.2.2, ?_⟩
    by_contra hgt
    have h1 : 2 ^ f.M * 2 ^ (f.M + 5) ≤ S.natAbs * 2 ^ leadingZeros S.natAbs (2 * f.M + 5) :=
      Nat.mul_le_mul (hSg h0) (Nat.pow_le_pow_right (by norm_num) (by omega))
    rw [← pow_add, show f.M + (f.M + 5) = 2 * f.M + 5 by omega] at h1
    omega
  rw [fAdd_eq]
  simp only [Flt.toVar]
  rw [← Int.cast_sub]
  have hd : |y.exp - x.exp| < 2 ^ (f.E + 1) := by rw [G.zE1, abs_lt]; constructor <;> omega
  -- everything after `Abs` is the same for both choices of the sign
  refine Spec.bind_irrel (gAbs_spec G.width (by omega) hd (G.pow_le (by omega))) (absOut_honest _) ?_
  rintro _ ⟨c, hc1, hc2, rfl⟩
  refine Spec.det_bind (select_spec _ _ _) ?_
  have he0 : (if c = true then ((y.exp : ℤ) : ZMod p) else ((x.exp : ℤ) : ZMod p)) = ((max x.exp y.exp : ℤ) : ZMod p) := by
    cases c
    · rw [max_eq_left (by by_contra h; simpa using hc1 (by omega))]; simp
    · rw [max_eq_right (by by_contra h; simpa using hc2 (by omega))]; simp
  rw [he0]
  have hmax := gMax_spec (p := p) (b := b) (H := H) (x := ((f.M + 3 : ℕ) : ℤ) - |y.exp - x.exp|) (y := 0) (len := f.E) G.width
    (by omega) (by
      rw [G.zE, sub_zero, abs_lt]
      have := abs_nonneg (y.exp - x.exp)
      have : |y.exp - x.exp| ≤ 2 * f.eMax + f.M - 1 := by rw [abs_le]; constructor <;> omega
      push_cast
      constructor <;> omega) (G.pow_le (by omega))
  rw [Int.cast_sub, Int.cast_natCast, Int.cast_zero] at hmax
  refine Spec.det_bind hmax ?_
  have hδ : max (((f.M + 3 : ℕ) : ℤ) - |y.exp - x.exp|) 0 = ((f.M + 3 - expGap x y : ℕ) : ℤ) := by
    unfold expGap; rw [Int.abs_eq_natAbs]; omega
  rw [hδ, Int.cast_natCast]
  have hmb : f.M + 3 + (f.M + 1) + 1 = 2 * f.M + 5 := by omega
  rw [hmb]
  refine Spec.bind_query G (by omega) ?main ?forged
  case forged =>
    intro hmain hHH t ht0 ht1 ht2 st r hsat
    rcases hH hHH with hd | ⟨hE5, hpw⟩
    · rw [slack_of_dvd G.bpos hd] at ht1; omega
    obtain ⟨hT1, hT2, hT3⟩ := pow2Answer_bound ht1 ht2
    have hT3 := hT3 ht0
    generalize 2 ^ (f.M + 3 - expGap x y + t) + t * 2 ^ f.pow2Size = T at hT2 hT3 hsat
    obtain ⟨z, hz⟩ : ∃ z : ℤ, z = if c = true then x.smant else y.smant := ⟨_, rfl⟩
    obtain ⟨w, hw⟩ : ∃ w : ℤ, w = if c = true then y.smant else x.smant := ⟨_, rfl⟩
    have hzc : (if c = true then ((x.smant : ℤ) : ZMod p) else ((y.smant : ℤ) : ZMod p)) = ((z : ℤ) : ZMod p) := by
      rw [hz]; cases c <;> rfl
    have hwc : ((x.smant : ℤ) : ZMod p) + ((y.smant : ℤ) : ZMod p) - ((z : ℤ) : ZMod p) = ((w : ℤ) : ZMod p) := by
      rw [hz, hw]; cases c <;> simp
    have hzn : z.natAbs = 0 ∨ 2 ^ f.M ≤ z.natAbs := by
      rw [hz]; cases c
      · simpa [smant_abs] using hym
      · simpa [smant_abs] using hxm
    have hzb : z.natAbs < 2 ^ (f.M + 1) := by
      rw [hz]; cases c
      · simpa [smant_abs] using hy1
      · simpa [smant_abs] using hx1
    have hwb : w.natAbs < 2 ^ (f.M + 1) := by
      rw [hw]; cases c
      · simpa [smant_abs] using hx1
      · simpa [smant_abs] using hy1
    rw [Circ.sat_det_bind (select_spec _ _ _), Circ.sat_det_bind (select_spec _ _ _), Circ.sat_det_bind (select_spec _ _ _),
      smant_var, smant_var, hzc, hwc] at hsat
    rcases hzn with h0 | h0
    · apply (hmain.sat hHH st r).1
      rw [Circ.sat_det_bind (select_spec _ _ _), Circ.sat_det_bind (select_spec _ _ _), Circ.sat_det_bind (select_spec _ _ _),
        smant_var, smant_var, hzc, hwc]
      rw [Int.natAbs_eq_zero.1 h0, Int.cast_zero, zero_mul] at hsat ⊢
      exact hsat
    · exfalso
      rw [Circ.sat_bind] at hsat
      obtain ⟨t', hs1, -⟩ := hsat
      have e : ((z : ℤ) : ZMod p) * ((T : ℕ) : ZMod p) + ((w : ℤ) : ZMod p) * tw (f.M + 3) =
          ((z * T + w * 2 ^ (f.M + 3) : ℤ) : ZMod p) := by push_cast; rfl
      rw [e] at hs1
      obtain ⟨g1, g2⟩ := forged_align hE5 h0 hzb hwb hT3 hT2
      exact addNorm_reject G rfl g1 g2 hpw st _ hs1
  refine Spec.det_bind (select_spec _ _ _) (Spec.det_bind (select_spec _ _ _) (Spec.det_bind (select_spec _ _ _) ?_))
  rw [smant_var, smant_var]
  have hSc : (if c = true then ((x.smant : ℤ) : ZMod p) else ((y.smant : ℤ) : ZMod p)) * 2 ^ (f.M + 3 - expGap x y) +
      (((x.smant : ℤ) : ZMod p) + ((y.smant : ℤ) : ZMod p) - (if c = true then ((x.smant : ℤ) : ZMod p) else ((y.smant : ℤ) : ZMod p))) * tw (f.M + 3) =
      ((S : ℤ) : ZMod p) := by
    rw [hS]; unfold addS
    rcases lt_trichotomy x.exp y.exp with h | h | h
    · rw [hc1 (by omega), if_pos h.le]; push_cast; simp
    · have hg : expGap x y = 0 := by unfold expGap; omega
      rw [if_pos h.le, hg, Nat.sub_zero]; cases c <;> push_cast <;> simp <;> ring
    · rw [hc2 (by omega), if_neg (not_le.2 h)]; push_cast; simp
  rw [hSc]
  have hn := addNorm_spec (p := p) (b := b) (H := H) G (S := S) rfl (hS ▸ hSb) (by rw [hS]; exact hSg)
  have he1 : ((max x.exp y.exp : ℤ) : ZMod p) + 1 = ((max x.exp y.exp + 1 : ℤ) : ZMod p) := by push_cast; rfl
  rw [he1]
  have hback : ∀ c k, k < f.pow2Size → S.natAbs * 2 ^ k < 2 ^ (2 * f.M + 5) →
      Spec b H (addBack f (x.toVar : FloatVar p) y.toVar ((max x.exp y.exp + 1 : ℤ) : ZMod p)
        ((x.smant : ℤ) : ZMod p) ((y.smant : ℤ) : ZMod p)
        (B c, ((S.natAbs * 2 ^ k : ℕ) : ZMod p), ((k : ℕ) : ZMod p)))
      (addTail f x y c k true).toVar
      (fun r => (∃ c2, r = (addTail f x y c k c2).toVar) ∨ (Fz (S.natAbs * 2 ^ k) ∧ ∃ c2, r = (addFin f x y 0 c k c2).toVar)) := by
    intro c k h1 h2
    have := addBack_spec (p := p) (b := b) (H := H) G hxb hyb c k h1 (by rw [← hS]; exact h2) (hround _ (by rw [← hS]; exact h2))
    rw [← hS] at this; exact this
  have hbound : ∀ k, (S ≠ 0 → k = leadingZeros S.natAbs (2 * f.M + 5)) → (S = 0 → k < f.pow2Size) →
      k < f.pow2Size ∧ S.natAbs * 2 ^ k < 2 ^ (2 * f.M + 5) := by
    intro k h1 h2
    by_cases h0 : S = 0
    · refine ⟨h2 h0, ?_⟩; rw [h0]; simp
    · have hkk : k = lzShift S (2 * f.M + 5) := by rw [lzShift, if_neg h0]; exact h1 h0
      rw [hkk]; have := hk1 h0; exact ⟨by omega, this.1⟩
  have hlz : lzShift S (2 * f.M + 5) < f.pow2Size ∧ S.natAbs * 2 ^ lzShift S (2 * f.M + 5) < 2 ^ (2 * f.M + 5) :=
    hbound _ (by intro h; rw [lzShift, if_neg h]) (by intro h; rw [lzShift, if_pos h]; omega)
  have haddZ : ∀ c1 c2, addZ f x y c1 c2 = addTail f x y (if S = 0 then c1 else decide (0 < S)) (lzShift S (2 * f.M + 5)) c2 := by
    intro c1 c2; rw [hS]; rfl
  have haddZ0 : ∀ c1 c2, addZ0 f x y c1 c2 = addFin f x y 0 (if S = 0 then c1 else decide (0 < S)) (lzShift S (2 * f.M + 5)) c2 := by
    intro c1 c2; rw [hS]; rfl
  have haddN : addN f x y = S.natAbs * 2 ^ lzShift S (2 * f.M + 5) := by rw [hS]; rfl
  have hzero0 : S = 0 → ∀ c k c2, addFin f x y 0 c k c2 = addTail f x y c k c2 := by
    intro h0 c k c2
    rw [addTail_eq, ← hS, h0, Int.natAbs_zero, zero_mul, rnd_zero]
  -- for a zero sum the shift does not matter
  have hzero : S = 0 → ∀ c k c2, ∃ c2', addTail f x y c k c2 = addTail f x y c 0 c2' := by
    intro h0 c k c2
    unfold addTail
    rw [← hS, h0]
    simp only [Int.natAbs_zero, zero_mul, rnd_zero, decide_true, Nat.cast_zero, sub_zero]
    have hne : ¬ (0 = 2 ^ (f.M + 1)) := by positivity
    unfold fixZ
    simp only [hne, decide_false, Bool.false_eq_true, if_false, add_zero, Bool.false_or]
    by_cases habn : (x.abn || y.abn) = true
    · exact ⟨c2, by simp [habn]⟩
    · have hmx : max x.exp y.exp + 1 ≤ f.eMax := by
        have h1 : ¬ (x.exp = f.eMax ∨ y.exp = f.eMax) := fun h => habn (by rcases hab h with h | h <;> simp [h])
        omega
      refine ⟨decide (f.eMax < max x.exp y.exp + 1 - (k : ℤ)) || (decide (max x.exp y.exp + 1 - (k : ℤ) = f.eMax) && c2), ?_⟩
      have : (decide (f.eMax < max x.exp y.exp + 1) || (decide (max x.exp y.exp + 1 = f.eMax) && (decide (f.eMax < max x.exp y.exp + 1 - (k : ℤ)) || (decide (max x.exp y.exp + 1 - (k : ℤ) = f.eMax) && c2)))) =
          (decide (f.eMax < max x.exp y.exp + 1 - (k : ℤ)) || (decide (max x.exp y.exp + 1 - (k : ℤ) = f.eMax) && c2)) := by
        have h1 : ¬ f.eMax < max x.exp y.exp + 1 := by omega
        have h2 : ¬ f.eMax < max x.exp y.exp + 1 - (k : ℤ) := by omega
        by_cases h3 : max x.exp y.exp + 1 = f.eMax
        · simp [h1, h2, h3]
        · have h4 : ¬ max x.exp y.exp + 1 - (k:ℤ) = f.eMax := by omega
          simp [h1, h2, h3, h4]
      rw [this]
      simp only [if_true]
  refine ⟨?_, fun hHH st r => ?_⟩
  · rw [Circ.run_bind, hn.run]
    refine (hback _ _ hlz.1 hlz.2).run.trans ?_
    congr 1
    have e : (addZ f x y true true).toVar = (addTail f x y (decide (0 ≤ S)) (lzShift S (2 * f.M + 5)) true : Flt).toVar (p := p) := by
      rw [haddZ]
      congr 2
      by_cases h0 : S = 0
      · simp [h0]
      · rw [if_neg h0, decide_eq_decide]; omega
    exact e.symm
  · rw [Circ.sat_bind]
    constructor
    · rintro ⟨t, ht, hr⟩
      obtain ⟨c', k, h1, h2, rfl⟩ := (hn.sat hHH st t).1 ht
      obtain ⟨hb1, hb2⟩ := hbound k (fun h => (h1 h).2) (fun h => (h2 h).1)
      have hr := ((hback c' k hb1 hb2).sat hHH st r).1 hr
      by_cases h0 : S = 0
      · left
        obtain ⟨c2, rfl⟩ : ∃ c2, r = (addTail f x y c' k c2).toVar := by
          rcases hr with hr | ⟨-, c2, hr⟩
          · exact hr
          · exact ⟨c2, by rw [hr, hzero0 h0]⟩
        obtain ⟨c2', h⟩ := hzero h0 c' k c2
        refine ⟨c', c2', ?_⟩
        have e : addZ f x y c' c2' = addTail f x y c' k c2 := by
          rw [haddZ, if_pos h0, lzShift, if_pos h0, h]
        rw [← e]; rfl
      · have hk : k = lzShift S (2 * f.M + 5) := by rw [lzShift, if_neg h0]; exact (h1 h0).2
        rcases hr with ⟨c2, rfl⟩ | ⟨hF, c2, rfl⟩
        · left
          refine ⟨true, c2, ?_⟩
          have e : addZ f x y true c2 = addTail f x y c' k c2 := by
            rw [haddZ, if_neg h0, (h1 h0).1, hk]
          rw [← e]; rfl
        · right
          refine ⟨by rw [haddN, ← hk]; exact hF, true, c2, ?_⟩
          have e : addZ0 f x y true c2 = addFin f x y 0 c' k c2 := by
            rw [haddZ0, if_neg h0, (h1 h0).1, hk]
          rw [← e]; rfl
    · intro hr
      have hpre : ∀ c1, (addNorm f ((S : ℤ) : ZMod p) (2 * f.M + 5)).Sat b st
          (B (if S = 0 then c1 else decide (0 < S)), ((S.natAbs * 2 ^ lzShift S (2 * f.M + 5) : ℕ) : ZMod p),
            ((lzShift S (2 * f.M + 5) : ℕ) : ZMod p)) := by
        intro c1
        refine (hn.sat hHH st _).2 ⟨_, _, ?_, ?_, rfl⟩
        · intro h0; rw [lzShift, if_neg h0, if_neg h0]; exact ⟨rfl, rfl⟩
        · intro h0
          have : lzShift S (2 * f.M + 5) = 0 := by rw [lzShift, if_pos h0]
          rw [this]
          refine ⟨by omega, checkSat_loose_nat G.width ?_ (by positivity)⟩
          have := lt_bitLen (2 * f.M + 5)
          by_contra h
          have h0 : bitLen (2 * f.M + 5) = 0 := by omega
          rw [h0, pow_zero] at this; omega
      rcases hr with ⟨c1, c2, rfl⟩ | ⟨hF, c1, c2, rfl⟩
      · refine ⟨_, hpre c1, ((hback _ _ hlz.1 hlz.2).sat hHH st _).2 (Or.inl ⟨c2, ?_⟩)⟩
        rw [← haddZ]; rfl
      · refine ⟨_, hpre c1, ((hback _ _ hlz.1 hlz.2).sat hHH st _).2 (Or.inr ⟨haddN ▸ hF, c2, ?_⟩)⟩
        rw [← haddZ0]; rfl

theorem fAdd_spec (G : Good p b f) {x y : Flt} (hx : x.Bdd f) (hy : y.Bdd f)
    (hxm : x.man = 0 ∨ 2 ^ f.M ≤ x.man) (hym : y.man = 0 ∨ 2 ^ f.M ≤ y.man)
    (hab : x.exp = f.eMax ∨ y.exp = f.eMax → x.abn = true ∨ y.abn = true) (hH : H → b ∣ f.pow2Size) :
    Spec b H (fAdd f (x.toVar : FloatVar p) y.toVar) (addZ f x y true true).toVar
      (fun r => ∃ c1 c2, r = (addZ f x y c1 c2).toVar) := by
  have hE := G.hE
  have hEM := G.hEM
  have hps : f.pow2Size = f.M + f.E + 1 := rfl
  exact (fAdd_core G hx hy hxm hym hab (fun h => Or.inl (hH h)) (Fz := fun _ => False) fun N hN =>
    round_spec_dvd (p := p) (f := f) G hN (by omega) (by omega) le_rfl (by omega) (by omega) true hH).congr rfl (by simp)

/-- The exact outcomes of `Add` at every table width. -/
theorem fAdd_spec_any (G : Good p b f) {x y : Flt} (hx : x.Bdd f) (hy : y.Bdd f)
    (hxm : x.man = 0 ∨ 2 ^ f.M ≤ x.man) (hym : y.man = 0 ∨ 2 ^ f.M ≤ y.man)
    (hab : x.exp = f.eMax ∨ y.exp = f.eMax → x.abn = true ∨ y.abn = true)
    (hE5 : 5 ≤ f.E) (hpw : 2 ^ (3 * f.M + 2 * f.E + 6 + 3 * b) ≤ p) :
    Spec b H (fAdd f (x.toVar : FloatVar p) y.toVar) (addZ f x y true true).toVar
      (fun r => (∃ c1 c2, r = (addZ f x y c1 c2).toVar) ∨ (AddForge b f x y ∧ ∃ c1 c2, r = (addZ0 f x y c1 c2).toVar)) := by
  have hE := G.hE
  have hEM := G.hEM
  have hb0 := G.bpos
  have hps : f.pow2Size = f.M + f.E + 1 := rfl
  exact fAdd_core G hx hy hxm hym hab (fun h => Or.inr ⟨hE5, hpw⟩) (Fz := fun N => RoundForge b f N (2 * f.M + 5) 0 0) fun N hN =>
    round_spec_any (p := p) (f := f) G hN (by omega) (by omega) le_rfl (by omega) (by omega)
      (le_trans (Nat.pow_le_pow_right (by norm_num) (by omega)) hpw) true

end ZkLoc
