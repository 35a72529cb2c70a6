import Verif.RowCheck
import Verif.Props.Hints

/-!
# Helper lemmas: the correctly rounded hint values of the table of double-precision locations
-/

namespace ZkLoc.Vectors
open Ieee ZkLoc.Hints

/-- The exponent `e` with `2^52 ≤ 2^(e - 80) V < 2^53`. -/
def expOf (V : ℕ) : ℕ := 132 - Nat.log2 V
/-- `2^(e - 80) V`, rounded. -/
def roundAt (V e : ℕ) : ℕ := (V + 2 ^ (79 - e)) / 2 ^ (80 - e)

/-- `n / 2^e` is the double nearest to all numbers that are at most 6 away from `V` (in units of `2^-80`). -/
def roundOk (V n e : ℕ) : Bool :=
  decide (e ≤ 80) && decide (n ≤ 2 ^ 53) && decide (2 ^ 52 < n) && decide (2 * (((V : ℤ) - n * 2 ^ (80 - e)).natAbs + 6) < 2 ^ (80 - e))

/-- The same for the quotient of numbers near `S` and `C`. -/
def quotOk (S C n e : ℕ) : Bool :=
  decide (e ≤ 1000) && decide (n ≤ 2 ^ 53) && decide (2 ^ 52 < n) && decide (2 * (((S : ℤ) * 2 ^ e - n * C).natAbs + 6 * 2 ^ e + 6 * n) + 6 < C)

/-- The same for the product of two doubles. -/
def prodOk (n e m d k t : ℕ) : Bool :=
  decide (t ≤ 1000) && decide (k ≤ 2 ^ 53) && decide (2 ^ 52 < k) && decide (2 * ((n : ℤ) * m * 2 ^ t - k * 2 ^ (e + d)).natAbs < 2 ^ (e + d))

theorem roundOk_sound {V n e : ℕ} (h : roundOk V n e = true) {y : ℝ} (hy : |(V : ℝ) / 2 ^ 80 - y| ≤ 6 / 2 ^ 80) : IsRNE F64 y (n / 2 ^ e) := by
  simp only [roundOk, Bool.and_eq_true, decide_eq_true_eq] at h
  obtain ⟨⟨⟨he, hn⟩, hn1⟩, hd⟩ := h
  refine rne64 (by omega) hn hn1 ?_
  have hd' : ((2 * (((V : ℤ) - n * 2 ^ (80 - e)).natAbs + 6) : ℕ) : ℝ) < ((2 ^ (80 - e) : ℕ) : ℝ) := Nat.cast_lt.2 hd
  rw [Nat.cast_mul, Nat.cast_add, Iv.cast_natAbs', Int.cast_sub, Int.cast_mul, Int.cast_pow, Int.cast_natCast, Int.cast_natCast, Int.cast_ofNat, Nat.cast_pow, Nat.cast_ofNat,
    Nat.cast_ofNat] at hd'
  have e80 : (2:ℝ) ^ 80 = 2 ^ (80 - e) * 2 ^ e := by rw [← pow_add]; congr 1; omega
  have h1 : (0:ℝ) < 2 ^ (80 - e) := by positivity
  have h2 : (0:ℝ) < 2 ^ e := by positivity
  rw [e80] at hy
  generalize (2:ℝ) ^ (80 - e) = A at *
  generalize (2:ℝ) ^ e = B at *
  have e1 : (V : ℝ) / (A * B) - n / B = (V - n * A) / (A * B) := by field_simp
  have h3 : |(V : ℝ) / (A * B) - n / B| = |(V : ℝ) - n * A| / (A * B) := by rw [e1, abs_div, abs_of_pos (mul_pos h1 h2)]
  rw [abs_sub_comm] at hy
  refine lt_of_le_of_lt (abs_sub_le _ ((V : ℝ) / (A * B)) _) ?_
  rw [h3]
  have h4 : |(V : ℝ) - n * A| / (A * B) + 6 / (A * B) < 1 / B / 2 := by
    rw [← add_div, div_div, div_lt_div_iff₀ (by positivity) (by positivity)]
    push_cast at hd'
    nlinarith
  linarith

theorem quotOk_sound {S C n e : ℕ} (h : quotOk S C n e = true) {s c : ℝ} (hs : |(S : ℝ) / 2 ^ 80 - s| ≤ 6 / 2 ^ 80) (hc : |(C : ℝ) / 2 ^ 80 - c| ≤ 6 / 2 ^ 80) :
    0 < c ∧ IsRNE F64 (s / c) (n / 2 ^ e) := by
  simp only [quotOk, Bool.and_eq_true, decide_eq_true_eq] at h
  obtain ⟨⟨⟨he, hn⟩, hn1⟩, hd⟩ := h
  have hd' : ((2 * (((S : ℤ) * 2 ^ e - n * C).natAbs + 6 * 2 ^ e + 6 * n) + 6 : ℕ) : ℝ) < (C : ℝ) := Nat.cast_lt.2 hd
  simp only [Nat.cast_add, Nat.cast_mul, Iv.cast_natAbs', Int.cast_sub, Int.cast_mul, Int.cast_pow, Int.cast_natCast, Int.cast_ofNat, Nat.cast_pow, Nat.cast_ofNat] at hd'
  have h2 : (0:ℝ) < 2 ^ e := by positivity
  have hK : (0:ℝ) < 2 ^ 80 := by positivity
  have aux : ∀ x y : ℝ, |x / 2 ^ 80 - y| ≤ 6 / 2 ^ 80 → |x - y * 2 ^ 80| ≤ 6 := by
    intro x y hxy
    have := mul_le_mul_of_nonneg_right hxy hK.le
    rw [div_mul_cancel₀ _ hK.ne', ← abs_of_pos hK, ← abs_mul, abs_of_pos hK, sub_mul, div_mul_cancel₀ _ hK.ne'] at this
    exact this
  have s1 := aux _ _ hs
  have c1 := aux _ _ hc
  clear hs hc aux
  have hn0 : (0:ℝ) ≤ n := Nat.cast_nonneg n
  generalize (2:ℝ) ^ 80 = K at *
  have hcK : (C : ℝ) - 6 ≤ c * K := by have := (abs_le.1 c1).2; linarith
  have hc0 : 0 < c * K := by
    have := abs_nonneg ((S : ℝ) * 2 ^ e - n * C)
    linarith [mul_nonneg (show (0:ℝ) ≤ 6 by norm_num) h2.le, mul_nonneg (show (0:ℝ) ≤ 6 by norm_num) hn0]
  have hcp : 0 < c := (pos_iff_pos_of_mul_pos hc0).2 hK
  refine ⟨hcp, rne64 he hn hn1 ?_⟩
  generalize (2:ℝ) ^ e = B at *
  have e1 : s / c - n / B = (s * K * B - n * (c * K)) / (c * K * B) := by field_simp
  rw [e1, abs_div, abs_of_pos (mul_pos hc0 h2), div_div, div_lt_div_iff₀ (by positivity) (by positivity)]
  have h3 : |s * K * B - n * (c * K)| ≤ |(S : ℝ) * B - n * C| + 6 * B + 6 * n := by
    have e2 : s * K * B - n * (c * K) = (S * B - n * C) - (S - s * K) * B + n * (C - c * K) := by ring
    rw [e2]
    refine (abs_add_le _ _).trans (add_le_add ((abs_sub _ _).trans (add_le_add le_rfl ?_)) ?_)
    · rw [abs_mul, abs_of_pos h2]; exact mul_le_mul_of_nonneg_right s1 h2.le
    · rw [abs_mul, abs_of_nonneg hn0, mul_comm]; exact mul_le_mul_of_nonneg_right c1 hn0
  have h4 : |s * K * B - n * (c * K)| * 2 < c * K := by linarith
  nlinarith

theorem prodOk_sound {n e m d k t : ℕ} (h : prodOk n e m d k t = true) : IsRNE F64 ((n : ℝ) / 2 ^ e * (m / 2 ^ d)) (k / 2 ^ t) := by
  simp only [prodOk, Bool.and_eq_true, decide_eq_true_eq] at h
  obtain ⟨⟨⟨ht, hk⟩, hk1⟩, hd⟩ := h
  refine rne64 ht hk hk1 ?_
  have hd' : ((2 * ((n : ℤ) * m * 2 ^ t - k * 2 ^ (e + d)).natAbs : ℕ) : ℝ) < ((2 ^ (e + d) : ℕ) : ℝ) := Nat.cast_lt.2 hd
  simp only [Nat.cast_mul, Iv.cast_natAbs', Int.cast_sub, Int.cast_mul, Int.cast_pow, Int.cast_natCast, Int.cast_ofNat, Nat.cast_pow, Nat.cast_ofNat, pow_add] at hd'
  have h1 : (0:ℝ) < 2 ^ e := by positivity
  have h2 : (0:ℝ) < 2 ^ d := by positivity
  have h3 : (0:ℝ) < 2 ^ t := by positivity
  generalize (2:ℝ) ^ e = A at *
  generalize (2:ℝ) ^ d = B at *
  generalize (2:ℝ) ^ t = T at *
  have e1 : (n : ℝ) / A * (m / B) - k / T = (n * m * T - k * (A * B)) / (A * B * T) := by field_simp
  rw [e1, abs_div, abs_of_pos (show 0 < A * B * T by positivity), div_div, div_lt_div_iff₀ (by positivity) (by positivity)]
  nlinarith

/-- Neighbouring doubles. -/
theorem adjacent_double {n e : ℕ} (hn : 2 ^ 52 ≤ n) (he : e ≤ 1000) : Adjacent F64 ((n : ℝ) / 2 ^ e) (((n + 1 : ℕ) : ℝ) / 2 ^ e) := by
  have h0 : (0:ℝ) < 2 ^ e := by positivity
  have e1 : (2:ℝ) ^ (-(e : ℤ)) = 1 / 2 ^ e := by rw [zpow_neg, zpow_natCast, one_div]
  refine ⟨by gcongr; simp, fun q hq ⟨h1, h2⟩ => ?_⟩
  have hn' : (2:ℝ) ^ 52 ≤ n := by exact_mod_cast hn
  obtain ⟨m, rfl⟩ := hq.multiple (k := -(e : ℤ)) (Or.inr (by
    rw [e1, mul_one_div]
    exact le_trans (by gcongr) h1.le))
  rw [e1, mul_one_div, div_lt_div_iff_of_pos_right h0] at h1 h2
  have a1 : n < m := by exact_mod_cast h1
  have a2 : m < n + 1 := by exact_mod_cast h2
  omega

theorem double_large {n e : ℕ} (hn : 2 ^ 52 ≤ n) (he : e ≤ 1000) : (2:ℝ) ^ F64.emin ≤ (n : ℝ) / 2 ^ e := by
  have h0 : (0:ℝ) < 2 ^ e := by positivity
  have hn' : (2:ℝ) ^ 52 ≤ n := by exact_mod_cast hn
  have h1 : (2:ℝ) ^ F64.emin ≤ 2 ^ ((52 : ℤ) - e) := zpow_le_zpow_right₀ (by norm_num) (by norm_num [Format.emin, Format.bias]; omega)
  refine h1.trans ?_
  rw [zpow_sub₀ (by norm_num), zpow_natCast, div_le_div_iff_of_pos_right h0]
  exact_mod_cast hn

/-- With correctly rounded functions the second check of the double-precision circuit passes at the angle `2^-80 X`. -/
def tanCheck (X : ℕ) : Bool :=
  let H := X / 2
  let S := (trigVal imPow H 80 28).toNat
  let C := (trigVal rePow H 80 28).toNat
  let eS := expOf S
  let eC := expOf C
  let nS := roundAt S eS
  let nC := roundAt C eC
  let eT := expOf (S * 2 ^ 80 / C)
  let nT := (2 * S * 2 ^ eT + C) / (2 * C)
  let k := (2 * nT * nC * 2 ^ eS + 2 ^ (eT + eC)) / (2 * 2 ^ (eT + eC))
  decide (X % 2 = 0) && decide (0 < X) && decide (X ≤ 2 ^ 81) && trigOk H 80 28 && decide (trigVal imPow H 80 28 = S) && decide (trigVal rePow H 80 28 = C) && decide (6 < S) &&
    roundOk S nS eS && roundOk C nC eC && quotOk S C nT eT && prodOk nT eT nC eC k eS && decide (k = nS ∨ k = nS + 1 ∨ nS = k + 1) &&
    decide (nS ≤ 4 * 2 ^ eS) && decide (nC ≤ 4 * 2 ^ eC) && decide (nT ≤ 4 * 2 ^ eT) && decide (k ≤ 4 * 2 ^ eS)

variable {p : ℕ} [Fact p.Prime] {b : ℕ} {L : Libm}

theorem le_four {n e : ℕ} (h : n ≤ 4 * 2 ^ e) : (n : ℝ) / 2 ^ e ≤ 4 := by
  rw [div_le_iff₀ (by positivity)]
  exact_mod_cast h

theorem tanCheck_sound (G : Good p b f64) (hL : L.CorrectlyRounded) {V X : ℕ} {l : ℝ} (hX : tanCheck X = true) (hl : PatternOf f64 V l) (hlX : l = (X : ℝ) / 2 ^ 80)
    (hr : Representable F64 (l / 2)) {h : Pre p} (H : PrecomputeHint64 L (V : ZMod p) h) :
    ∀ a c d m, Encodes f64 h.alpha a → Encodes f64 h.gamma c → Encodes f64 h.delta d → Ieee.Mul F64 a d m → m = c ∨ NextAway F64 m c ∨ NextAway F64 c m := by
  intro a c d m ea ec ed em
  unfold tanCheck at hX
  extract_lets Hf S C eS eC nS nC eT nT k at hX
  simp only [Bool.and_eq_true, decide_eq_true_eq] at hX
  obtain ⟨⟨⟨⟨⟨⟨⟨⟨⟨⟨⟨⟨⟨⟨⟨hev, hX0⟩, hX1⟩, hok⟩, hS⟩, hC⟩, hS6⟩, rS⟩, rC⟩, rT⟩, rk⟩, hk⟩, bS⟩, bC⟩, bT⟩, bk⟩ := hX
  have hhalf : (Hf : ℝ) * 2 = X := by
    have : Hf * 2 = X := by simp only [Hf]; omega
    exact_mod_cast this
  have hl2 : l / 2 = ((Hf : ℕ) : ℤ) / 2 ^ 80 := by
    rw [hlX, ← hhalf, Int.cast_natCast]; field_simp
  have hX0' : (0:ℝ) < X := by exact_mod_cast hX0
  have hX1' : (X:ℝ) ≤ 2 ^ 81 := by
    have : (X : ℝ) ≤ ((2 ^ 81 : ℕ) : ℝ) := Nat.cast_le.2 hX1
    rwa [Nat.cast_pow, Nat.cast_ofNat] at this
  obtain ⟨t1, t2⟩ := trigOk_near (by norm_num) hok (x := l / 2) (by rw [hl2, sub_self, abs_zero]; positivity)
  rw [hS, Int.cast_natCast] at t1
  rw [hC, Int.cast_natCast] at t2
  have hs : 0 < Real.sin (l / 2) := by
    have h6 : (6:ℝ) < S := by exact_mod_cast hS6
    have h7 : (6:ℝ) / 2 ^ 80 < S / 2 ^ 80 := by gcongr
    have := (abs_le.1 t1).2
    linarith
  obtain ⟨hc, qT⟩ := quotOk_sound rT t1 t2
  rw [← Real.tan_eq_sin_div_cos] at qT
  have hl0 : 0 < l := by rw [hlX]; positivity
  have hl4 : l / 2 ≤ 2 := by
    rw [hlX, div_div, div_le_iff₀ (by positivity)]
    refine hX1'.trans (by norm_num)
  obtain ⟨rfl, rfl, rfl⟩ := rounded_values G hL hl hr hl0 hl4 hs hc qT (roundOk_sound rS t1) (roundOk_sound rC t2) (le_four bT) (le_four bS) (le_four bC) H ea ec ed
  have hm := RoundsTo.eq_fin em (prodOk_sound rk) (le_four bk)
  rw [hm]
  simp only [roundOk, prodOk, Bool.and_eq_true, decide_eq_true_eq] at rS rk
  have heS : eS ≤ 1000 := rk.1.1.1
  rcases hk with hk | hk | hk
  · rw [hk]; exact .inl rfl
  · exact .inr (.inr ⟨false, _, rfl, double_large rS.1.2.le heS, .inl ⟨_, rfl, by rw [hk]; exact adjacent_double rS.1.2.le heS⟩⟩)
  · exact .inr (.inl ⟨false, _, rfl, double_large rk.1.2.le heS, .inl ⟨_, rfl, by rw [hk]; exact adjacent_double rk.1.2.le heS⟩⟩)

/-- Half of a number that `fixedOf` converts is a double. -/
theorem fixedOf_half (v : ℕ) : Representable F64 ((fixedOf f64 v : ℝ) / 2 ^ 80 / 2) := by
  unfold fixedOf
  have hm : 2 ^ f64.M + v % 2 ^ f64.M ≤ 2 ^ (F64.M + 1) := by
    have := Nat.mod_lt v (y := 2 ^ 52) (by norm_num)
    change 2 ^ 52 + v % 2 ^ 52 ≤ 2 ^ 53
    omega
  generalize 2 ^ f64.M + v % 2 ^ f64.M = N at *
  generalize 80 - (2 ^ (f64.E - 1) - 1 + f64.M - v / 2 ^ f64.M % 2 ^ f64.E) = t
  have e : ((N * 2 ^ t : ℕ) : ℝ) / 2 ^ 80 / 2 = N * 2 ^ ((t : ℤ) - 81) := by
    rw [zpow_sub₀ (by norm_num), zpow_natCast, div_div, Nat.cast_mul, Nat.cast_pow, Nat.cast_ofNat, mul_div_assoc]
    norm_num
  rw [e]
  exact representable_mul hm (by rw [qmin64]; omega)

/-- The longitudes of the table. -/
def lngCheck (q : ℕ × ℕ × ℕ × ℕ × ℕ × ℕ) : Bool := tanCheck (fixedOf f64 q.2.1)

theorem lngs_0 : ∀ q ∈ (locRows64.drop 0).take 10, lngCheck q = true := by decide +kernel
theorem lngs_1 : ∀ q ∈ (locRows64.drop 10).take 10, lngCheck q = true := by decide +kernel
theorem lngs_2 : ∀ q ∈ (locRows64.drop 20).take 10, lngCheck q = true := by decide +kernel
theorem lngs_3 : ∀ q ∈ (locRows64.drop 30).take 10, lngCheck q = true := by decide +kernel
theorem lngs_4 : ∀ q ∈ (locRows64.drop 40).take 10, lngCheck q = true := by decide +kernel
theorem lngs_5 : ∀ q ∈ (locRows64.drop 50).take 10, lngCheck q = true := by decide +kernel
theorem lngs_6 : ∀ q ∈ (locRows64.drop 60).take 10, lngCheck q = true := by decide +kernel
theorem lngs_7 : ∀ q ∈ (locRows64.drop 70).take 10, lngCheck q = true := by decide +kernel
theorem lngs_8 : ∀ q ∈ (locRows64.drop 80).take 10, lngCheck q = true := by decide +kernel
theorem lngs_9 : ∀ q ∈ (locRows64.drop 90).take 10, lngCheck q = true := by decide +kernel
theorem lngs_10 : ∀ q ∈ (locRows64.drop 100).take 10, lngCheck q = true := by decide +kernel
theorem lngs_11 : ∀ q ∈ (locRows64.drop 110).take 10, lngCheck q = true := by decide +kernel
theorem lngs_12 : ∀ q ∈ (locRows64.drop 120).take 10, lngCheck q = true := by decide +kernel
theorem lngs_13 : ∀ q ∈ (locRows64.drop 130).take 10, lngCheck q = true := by decide +kernel
theorem lngs_14 : ∀ q ∈ (locRows64.drop 140).take 10, lngCheck q = true := by decide +kernel

theorem lngs_checked : ∀ q ∈ locRows64, lngCheck q = true := by
  refine of_chunks (by decide +kernel) fun i hi => ?_
  interval_cases i
  · exact lngs_0
  · exact lngs_1
  · exact lngs_2
  · exact lngs_3
  · exact lngs_4
  · exact lngs_5
  · exact lngs_6
  · exact lngs_7
  · exact lngs_8
  · exact lngs_9
  · exact lngs_10
  · exact lngs_11
  · exact lngs_12
  · exact lngs_13
  · exact lngs_14

end ZkLoc.Vectors
