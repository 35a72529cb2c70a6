import Verif.IntSpec

/-!
# Trunc, Floor and Ceil: integer-level results against IEEE-754
-/

namespace ZkLoc

variable {p : ℕ} [Fact p.Prime] {b : ℕ} {f : Fmt}

theorem dq_scale {up : Bool} {m K T : ℕ} (hT : 0 < T) (hK : 0 < K) : dq up (m * T) (K * T) = dq up m K := by
  symm
  have h := dq_bounds (up := up) (m := m) (K := K) hK
  have hT' : (0:ℤ) < T := by exact_mod_cast hT
  have e : (if up then -(((m * T : ℕ):ℤ) - (dq up m K : ℕ) * ((K * T : ℕ) : ℤ)) else ((m * T : ℕ):ℤ) - (dq up m K : ℕ) * ((K * T : ℕ) : ℤ)) =
      (if up then -((m:ℤ) - (dq up m K : ℕ) * K) else (m:ℤ) - (dq up m K : ℕ) * K) * T := by
    cases up <;> simp <;> ring
  apply dq_unique (Nat.mul_pos hK hT)
  · rw [e]; exact mul_nonneg h.1 hT'.le
  · rw [e]; push_cast; exact mul_lt_mul_of_pos_right h.2 hT'

theorem dq_one {up : Bool} {m : ℕ} : dq up m 1 = m := by unfold dq; cases up <;> simp

/-- Magnitude rounded down or up. -/
noncomputable def magRound (up : Bool) (a : ℝ) : ℤ := if up then ⌈a⌉ else ⌊a⌋

theorem dq_real {up : Bool} {m K : ℕ} (hK : 0 < K) : ((dq up m K : ℕ) : ℤ) = magRound up ((m:ℝ) / K) := by
  have h := dq_bounds (up := up) (m := m) (K := K) hK
  have hKr : (0:ℝ) < K := by exact_mod_cast hK
  unfold magRound
  cases up
  · simp only [Bool.false_eq_true, if_false] at h ⊢
    symm
    rw [Int.floor_eq_iff]
    obtain ⟨h1, h2⟩ := h
    have h1' : ((dq false m K : ℕ) : ℝ) * K ≤ m := by
      have : ((dq false m K : ℕ) : ℤ) * K ≤ m := by linarith
      exact_mod_cast this
    have h2' : (m:ℝ) < (((dq false m K : ℕ) : ℝ) + 1) * K := by
      have : (m:ℤ) < (((dq false m K : ℕ) : ℤ) + 1) * K := by linarith
      exact_mod_cast this
    constructor
    · rw [le_div_iff₀ hKr]; exact_mod_cast h1'
    · rw [div_lt_iff₀ hKr]; exact_mod_cast h2'
  · simp only [if_true] at h ⊢
    symm
    rw [Int.ceil_eq_iff]
    obtain ⟨h1, h2⟩ := h
    have h1' : (m:ℝ) ≤ ((dq true m K : ℕ) : ℝ) * K := by
      have : (m:ℤ) ≤ ((dq true m K : ℕ) : ℤ) * K := by linarith
      exact_mod_cast this
    have h2' : (((dq true m K : ℕ) : ℝ) - 1) * K < m := by
      have : (((dq true m K : ℕ) : ℤ) - 1) * K < m := by linarith
      exact_mod_cast this
    constructor
    · rw [lt_div_iff₀ hKr]; exact_mod_cast h2'
    · rw [div_le_iff₀ hKr]; exact_mod_cast h1'

theorem intQuot_eq (G : Good p b f) {x : Flt} {c up : Bool} (hc : c = true → 0 ≤ x.exp) :
    intQuot f x c up = dq up x.man (2 ^ intShift f x c) := by
  unfold intQuot
  have hk := intShift_le G hc
  have : 2 ^ (f.M + 1) = 2 ^ intShift f x c * 2 ^ (f.M + 1 - intShift f x c) := by
    rw [← pow_add]; congr 1; omega
  rw [this]
  exact dq_scale (by positivity) (by positivity)

/-- The significand computed with the right answer to "exponent not negative". -/
theorem int_mag (G : Good p b f) {x : Flt} {up : Bool} (he : 0 ≤ x.exp) :
    ((intQuot f x true up * 2 ^ intShift f x true : ℕ) : ℝ) * 2 ^ (x.exp - (f.M:ℤ)) = magRound up (x.mag f) := by
  rw [intQuot_eq G (fun _ => he)]
  unfold Flt.mag
  rcases le_or_gt x.exp (f.M:ℤ) with h | h
  · obtain ⟨k, hk⟩ : ∃ k, k = intShift f x true := ⟨_, rfl⟩
    rw [← hk]
    have hk2 : x.exp - (f.M:ℤ) = -(k:ℤ) := by
      rw [hk]; unfold intShift; simp only [if_true]; omega
    have hT : (0:ℝ) < 2 ^ k := by positivity
    rw [hk2, zpow_neg, zpow_natCast]
    have := dq_real (up := up) (m := x.man) (K := 2 ^ k) (by positivity)
    push_cast at this ⊢
    rw [mul_assoc, mul_inv_cancel₀ hT.ne', mul_one, ← div_eq_mul_inv]
    exact_mod_cast this
  · have hk : intShift f x true = 0 := by unfold intShift; simp only [if_true]; omega
    rw [hk, pow_zero, dq_one, mul_one]
    obtain ⟨j, hj⟩ : ∃ j : ℕ, x.exp - (f.M:ℤ) = j := ⟨(x.exp - f.M).toNat, by omega⟩
    rw [hj, zpow_natCast]
    have : (x.man : ℝ) * 2 ^ j = ((x.man * 2 ^ j : ℕ) : ℝ) := by push_cast; rfl
    rw [this]
    unfold magRound
    cases up
    · simp only [Bool.false_eq_true, if_false]; rw [Int.floor_natCast]; push_cast; rfl
    · simp only [if_true]; rw [Int.ceil_natCast]; push_cast; rfl

theorem dq_mono_bounds {up : Bool} {m K T : ℕ} (hT : 0 < T) (h1 : K * T ≤ m) : K ≤ dq up m T := by
  unfold dq
  cases up
  · simp only [Bool.false_eq_true, if_false]
    exact (Nat.le_div_iff_mul_le hT).2 h1
  · simp only [if_true]
    exact (Nat.le_div_iff_mul_le hT).2 (by omega)

theorem dq_le {up : Bool} {m K T : ℕ} (hT : 0 < T) (h1 : m ≤ K * T) : dq up m T ≤ K := by
  unfold dq
  cases up
  · simp only [Bool.false_eq_true, if_false]
    exact Nat.div_le_of_le_mul (by rw [mul_comm]; exact h1)
  · simp only [if_true]
    rw [Nat.div_le_iff_le_mul_add_pred hT, mul_comm]; omega

theorem int_man_bounds (G : Good p b f) {x : Flt} {up : Bool} (he : 0 ≤ x.exp) (h1 : 2 ^ f.M ≤ x.man) (h2 : x.man < 2 ^ (f.M + 1)) :
    2 ^ f.M ≤ intQuot f x true up * 2 ^ intShift f x true ∧
    intQuot f x true up * 2 ^ intShift f x true ≤ 2 ^ (f.M + 1) ∧
    ((f.M:ℤ) ≤ x.exp → intQuot f x true up * 2 ^ intShift f x true = x.man) := by
  rw [intQuot_eq G (fun _ => he)]
  have hk : intShift f x true ≤ f.M := by unfold intShift; simp only [if_true]; omega
  obtain ⟨k, hk'⟩ : ∃ k, k = intShift f x true := ⟨_, rfl⟩
  rw [← hk'] at hk ⊢
  have e1 : 2 ^ f.M = 2 ^ (f.M - k) * 2 ^ k := by rw [← pow_add]; congr 1; omega
  have e2 : 2 ^ (f.M + 1) = 2 ^ (f.M + 1 - k) * 2 ^ k := by rw [← pow_add]; congr 1; omega
  refine ⟨?_, ?_, ?_⟩
  · rw [e1] at h1 ⊢
    exact Nat.mul_le_mul_right _ (dq_mono_bounds (by positivity) h1)
  · rw [e2] at h2 ⊢
    exact Nat.mul_le_mul_right _ (dq_le (by positivity) h2.le)
  · intro h
    have : k = 0 := by rw [hk']; unfold intShift; simp only [if_true]; omega
    rw [this, pow_zero, dq_one, mul_one]

theorem dq_false_le {m T : ℕ} : dq false m T * T ≤ m := by
  unfold dq; simp only [Bool.false_eq_true, if_false]; exact Nat.div_mul_le_self _ _

/-- `Trunc` with the right answer. -/
theorem truncZ_true (G : Good p b f) {x : Flt} (hx : x.Valid f) (ha : x.abn = false) (he : 0 ≤ x.exp) :
    (truncZ f x true).Valid f ∧ (truncZ f x true).datum f = .fin x.sign (magRound false (x.mag f)) := by
  have hMz := G.hMz
  have hmn := f.eMin_eq
  have hNm := f.eNormalMin_eq
  have hm : 2 ^ f.M ≤ x.man := by
    rcases hx.man_cases with h | h
    · have := hx.exp_of_zero ha h; omega
    · exact h
  obtain ⟨h1, h2, h3⟩ := int_man_bounds (up := false) G he hm hx.man_lt
  have hmag := int_mag (up := false) G he
  have hmax := hx.exp_fin G ha
  have hlt : intQuot f x true false * 2 ^ intShift f x true < 2 ^ (f.M + 1) := by
    refine lt_of_le_of_lt ?_ hx.man_lt
    rw [intQuot_eq G (fun _ => he)]; exact dq_false_le
  unfold truncZ
  simp only [if_true]
  rw [ha]
  generalize intQuot f x true false * 2 ^ intShift f x true = n at *
  refine ⟨.fin _ _ _ h1 hlt (by omega) (by omega) (fun h => by omega), ?_⟩
  simp only [Flt.datum, Bool.false_eq_true, if_false]
  rw [hmag]

/-- `Floor` with the right answer. -/
theorem floorZ_true (G : Good p b f) {x : Flt} (hx : x.Valid f) (ha : x.abn = false) (he : 0 ≤ x.exp) :
    (floorZ f x true).Valid f ∧ (floorZ f x true).datum f = .fin x.sign (magRound x.sign (x.mag f)) := by
  have hMz := G.hMz
  have hmn := f.eMin_eq
  have hNm := f.eNormalMin_eq
  have hm : 2 ^ f.M ≤ x.man := by
    rcases hx.man_cases with h | h
    · have := hx.exp_of_zero ha h; omega
    · exact h
  have hP : 0 < 2 ^ f.M := by positivity
  have hP1 : 2 ^ (f.M + 1) = 2 * 2 ^ f.M := pow_succ' _ _
  obtain ⟨h1, h2, h3⟩ := int_man_bounds (up := x.sign) G he hm hx.man_lt
  have hmag := int_mag (up := x.sign) G he
  have hmax := hx.exp_fin G ha
  have hxl := hx.man_lt
  unfold floorZ
  simp only [if_true]
  rw [ha]
  generalize intQuot f x true x.sign * 2 ^ intShift f x true = n at *
  by_cases hov : n = 2 ^ (f.M + 1)
  · have hlt : x.exp < f.M := by
      by_contra h
      have := h3 (by omega)
      omega
    simp only [hov, decide_true, if_true]
    rw [if_neg (by simp)]
    refine ⟨.fin _ _ _ le_rfl (by omega) (by omega) (by omega) (fun h => by omega), ?_⟩
    simp only [Flt.datum, Bool.false_eq_true, if_false]
    rw [← hmag, hov, show x.exp + 1 - (f.M:ℤ) = (x.exp - f.M) + 1 by ring, zpow_add_one₀ (by norm_num)]
    congr 1; push_cast; ring
  · simp only [hov, decide_false, Bool.false_eq_true, if_false]
    rw [if_neg (by omega)]
    refine ⟨.fin _ _ _ h1 (by omega) (by omega) (by omega) (fun h => by omega), ?_⟩
    simp only [Flt.datum, Bool.false_eq_true, if_false]
    rw [← hmag, add_zero]

theorem intShift_false {x : Flt} : intShift f x false = f.M + 1 := by
  unfold intShift; simp

/-- `Trunc` with the answer "negative exponent". -/
theorem truncZ_false (G : Good p b f) {x : Flt} (hx : x.Valid f) : truncZ f x false = ⟨x.sign, f.eMin, 0, x.abn⟩ := by
  unfold truncZ
  rw [intQuot_eq G (by simp), intShift_false]
  have : dq false x.man (2 ^ (f.M + 1)) = 0 := by
    unfold dq; simp only [Bool.false_eq_true, if_false]; exact Nat.div_eq_of_lt hx.man_lt
  rw [this]; simp

/-- `Floor` with the answer "negative exponent". -/
theorem floorZ_false (G : Good p b f) {x : Flt} (hx : x.Valid f) (ha : x.abn = false) :
    floorZ f x false = if x.sign = true ∧ x.man ≠ 0 then ⟨true, 0, 2 ^ f.M, false⟩ else ⟨x.sign, f.eMin, 0, false⟩ := by
  have hP : 0 < 2 ^ (f.M + 1) := by positivity
  have hPM : 0 < 2 ^ f.M := by positivity
  have hl := hx.man_lt
  unfold floorZ
  rw [intQuot_eq G (by simp), intShift_false, ha]
  generalize 2 ^ (f.M + 1) = K at *
  by_cases h : x.sign = true ∧ x.man ≠ 0
  · rw [if_pos h, h.1]
    have : dq true x.man K = 1 := by
      unfold dq; simp only [if_true]
      have := h.2
      rw [Nat.div_eq_iff hP]; omega
    simp only [this, one_mul, decide_true, if_true]
    rw [if_neg (by simp)]; simp
  · rw [if_neg h]
    have : dq x.sign x.man K = 0 := by
      unfold dq
      cases hs : x.sign
      · simp only [Bool.false_eq_true, if_false]; exact Nat.div_eq_of_lt hl
      · have h0 : x.man = 0 := by by_contra hne; exact h ⟨hs, hne⟩
        simp only [if_true]
        rw [h0]; exact Nat.div_eq_of_lt (by omega)
    simp only [this, zero_mul]
    have hK : decide (0 = K) = false := by simp; omega
    simp [hK]

theorem int_abn (G : Good p b f) {x : Flt} {up : Bool} (hx : x.Valid f) (ha : x.abn = true) :
    intQuot f x true up * 2 ^ intShift f x true = x.man := by
  have hMz := G.hMz
  have he := hx.exp_of_abn ha
  rw [intQuot_eq G (fun _ => by omega)]
  have hk : intShift f x true = 0 := by unfold intShift; simp only [if_true]; omega
  rw [hk, pow_zero, dq_one, mul_one]

theorem truncZ_abn (G : Good p b f) {x : Flt} (hx : x.Valid f) (ha : x.abn = true) : truncZ f x true = x := by
  unfold truncZ; rw [int_abn G hx ha]; simp

theorem floorZ_abn (G : Good p b f) {x : Flt} (hx : x.Valid f) (ha : x.abn = true) : floorZ f x true = x := by
  have hne : ¬ x.man = 2 ^ (f.M + 1) := (ne_of_lt hx.man_lt)
  unfold floorZ; rw [int_abn G hx ha]; simp [hne, ha]; ext <;> simp [ha]

/-- Finite numbers with exponent 0 are those of magnitude in `[1, 2)`. -/
theorem exp_zero_iff (G : Good p b f) {x : Flt} (hx : x.Valid f) (ha : x.abn = false) :
    x.exp = 0 ↔ 1 ≤ x.mag f ∧ x.mag f < 2 := by
  have hMz := G.hMz
  have hmn := f.eMin_eq
  have hlt : x.mag f < 2 ^ (x.exp + 1) := pow_real_lt hx.man_lt
  have hge : x.man ≠ 0 → (2:ℝ) ^ x.exp ≤ x.mag f := fun h => pow_real_ge (by
    rcases hx.man_cases with h0 | h0
    · exact absurd h0 h
    · exact h0)
  constructor
  · intro h
    have h0 : x.man ≠ 0 := fun h0 => by have := hx.exp_of_zero ha h0; omega
    have := hge h0
    rw [h] at this hlt
    norm_num at this hlt
    exact ⟨this, hlt⟩
  · rintro ⟨h1, h2⟩
    have h0 : x.man ≠ 0 := fun h0 => by
      have : x.mag f = 0 := mag_eq_zero.2 h0
      linarith
    have h3 := hge h0
    by_contra hne
    rcases lt_or_gt_of_ne hne with h | h
    · have : (2:ℝ) ^ (x.exp + 1) ≤ 2 ^ (0:ℤ) := zpow_le_zpow_right₀ (by norm_num) (by omega)
      rw [zpow_zero] at this; linarith
    · have : (2:ℝ) ^ (1:ℤ) ≤ 2 ^ x.exp := zpow_le_zpow_right₀ (by norm_num) (by omega)
      rw [zpow_one] at this; linarith

/-- Negative exponents are magnitudes below 1. -/
theorem mag_lt_one {x : Flt} (hx : x.Valid f) (he : x.exp < 0) : x.mag f < 1 := by
  have hlt : x.mag f < 2 ^ (x.exp + 1) := pow_real_lt hx.man_lt
  have : (2:ℝ) ^ (x.exp + 1) ≤ 2 ^ (0:ℤ) := zpow_le_zpow_right₀ (by norm_num) (by omega)
  rw [zpow_zero] at this; linarith

theorem magRound_small {up : Bool} {a : ℝ} (h0 : 0 ≤ a) (h1 : a < 1) : magRound up a = if up = true ∧ a ≠ 0 then 1 else 0 := by
  unfold magRound
  cases up
  · simp only [Bool.false_eq_true, if_false, false_and]
    rw [Int.floor_eq_iff]; push_cast; constructor <;> linarith
  · simp only [if_true, true_and]
    by_cases h : a = 0
    · simp [h]
    · rw [if_pos h, Int.ceil_eq_iff]
      have : 0 < a := lt_of_le_of_ne h0 (Ne.symm h)
      push_cast; constructor <;> linarith

/-- The honest result of `Trunc`. -/
theorem truncZ_honest (G : Good p b f) {x : Flt} (hx : x.Valid f) :
    (truncZ f x (decide (0 ≤ x.exp))).Valid f ∧
    Ieee.Integral Ieee.truncZ (x.datum f) ((truncZ f x (decide (0 ≤ x.exp))).datum f) := by
  have hMz := G.hMz
  cases ha : x.abn
  · have key : (truncZ f x (decide (0 ≤ x.exp))).Valid f ∧
        (truncZ f x (decide (0 ≤ x.exp))).datum f = .fin x.sign (magRound false (x.mag f)) := by
      by_cases he : 0 ≤ x.exp
      · rw [decide_eq_true he]; exact truncZ_true G hx ha he
      · rw [decide_eq_false he, truncZ_false G hx, ha, magRound_small (x.mag_nonneg f) (mag_lt_one hx (by omega))]
        exact ⟨.zero _, by simp [Flt.datum]⟩
    refine ⟨key.1, ?_⟩
    rw [key.2, datum_fin ha]
    simp only [Ieee.Integral]
    congr 1
    have h0 := x.mag_nonneg f
    have hfl : (0:ℤ) ≤ ⌊x.mag f⌋ := Int.floor_nonneg.2 h0
    have : |((Ieee.truncZ (Ieee.signed x.sign (x.mag f)) : ℤ) : ℝ)| = ((|Ieee.truncZ (Ieee.signed x.sign (x.mag f))| : ℤ) : ℝ) := by push_cast; rfl
    rw [this]
    congr 1
    unfold magRound Ieee.truncZ Ieee.signed
    cases x.sign
    · simp only [Bool.false_eq_true, if_false, if_pos h0]
      rw [abs_of_nonneg hfl]
    · simp only [if_true, Bool.false_eq_true, if_false]
      split
      · have : x.mag f = 0 := by linarith
        rw [this]; simp
      · rw [Int.ceil_neg, abs_neg, abs_of_nonneg hfl]
  · have he := hx.exp_of_abn ha
    rw [decide_eq_true (show 0 ≤ x.exp by omega), truncZ_abn G hx ha]
    refine ⟨hx, ?_⟩
    unfold Flt.datum
    rw [ha]; simp only [if_true]
    split <;> simp [Ieee.Integral]

theorem abs_floor_signed {s : Bool} {a : ℝ} (h0 : 0 ≤ a) : |((⌊Ieee.signed s a⌋ : ℤ) : ℝ)| = magRound s a := by
  have h1 : (0:ℤ) ≤ ⌊a⌋ := Int.floor_nonneg.2 h0
  have h2 : (0:ℤ) ≤ ⌈a⌉ := Int.ceil_nonneg h0
  rw [← Int.cast_abs]
  congr 1
  unfold magRound Ieee.signed
  cases s
  · simp only [Bool.false_eq_true, if_false]; exact abs_of_nonneg h1
  · simp only [if_true]; rw [Int.floor_neg, abs_neg]; exact abs_of_nonneg h2

/-- The honest result of `Floor`. -/
theorem floorZ_honest (G : Good p b f) {x : Flt} (hx : x.Valid f) :
    (floorZ f x (decide (0 ≤ x.exp))).Valid f ∧
    Ieee.Integral (fun v => ⌊v⌋) (x.datum f) ((floorZ f x (decide (0 ≤ x.exp))).datum f) := by
  have hMz := G.hMz
  have hmn := f.eMin_eq
  have hNm := f.eNormalMin_eq
  cases ha : x.abn
  · have key : (floorZ f x (decide (0 ≤ x.exp))).Valid f ∧
        (floorZ f x (decide (0 ≤ x.exp))).datum f = .fin x.sign (magRound x.sign (x.mag f)) := by
      by_cases he : 0 ≤ x.exp
      · rw [decide_eq_true he]; exact floorZ_true G hx ha he
      · rw [decide_eq_false he, floorZ_false G hx ha, magRound_small (x.mag_nonneg f) (mag_lt_one hx (by omega))]
        have e0 : x.mag f ≠ 0 ↔ x.man ≠ 0 := not_congr mag_eq_zero
        by_cases h : x.sign = true ∧ x.man ≠ 0
        · rw [if_pos h, if_pos ⟨h.1, e0.2 h.2⟩, h.1]
          refine ⟨.fin _ _ _ le_rfl (Nat.pow_lt_pow_right (by norm_num) (by omega)) (by omega) (by omega) (fun h => by omega), ?_⟩
          simp only [Flt.datum, Bool.false_eq_true, if_false]
          congr 1
          rw [zero_sub, zpow_neg, zpow_natCast]; push_cast
          exact mul_inv_cancel₀ (by positivity)
        · rw [if_neg h, if_neg (fun hh => h ⟨hh.1, e0.1 hh.2⟩)]
          exact ⟨.zero _, by simp [Flt.datum]⟩
    refine ⟨key.1, ?_⟩
    rw [key.2, datum_fin ha]
    simp only [Ieee.Integral]
    rw [abs_floor_signed (x.mag_nonneg f)]
  · have he := hx.exp_of_abn ha
    rw [decide_eq_true (show 0 ≤ x.exp by omega), floorZ_abn G hx ha]
    refine ⟨hx, ?_⟩
    unfold Flt.datum
    rw [ha]; simp only [if_true]
    split <;> simp [Ieee.Integral]

/-- The answers a prover can give: the honest one, or "negative" for exponent 0. -/
theorem int_answers {x : Flt} {c : Bool} : ((0 < x.exp → c = true) ∧ (x.exp < 0 → c = false)) ↔
    c = decide (0 ≤ x.exp) ∨ (x.exp = 0 ∧ c = false) := by
  rcases lt_trichotomy x.exp 0 with h | h | h
  · have h1 : ¬ 0 ≤ x.exp := by omega
    have h2 : ¬ 0 < x.exp := by omega
    have h3 : ¬ x.exp = 0 := by omega
    simp [h, h1, h2, h3]
  · simp [h]
  · have h1 : 0 ≤ x.exp := by omega
    have h2 : ¬ x.exp < 0 := by omega
    have h3 : ¬ x.exp = 0 := by omega
    simp [h, h1, h2, h3]

end ZkLoc
