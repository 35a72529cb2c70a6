import Verif.GeoErr
import Mathlib.Analysis.Complex.Exponential
import Mathlib.Analysis.Complex.Trigonometric
import Mathlib.Analysis.Real.Pi.Bounds

/-!
# Helper lemmas: sine and cosine of rational numbers by integer arithmetic
-/

namespace ZkLoc

/-- Real and imaginary part of `i^m`. -/
def rePow (m : ℕ) : ℤ := if m % 4 = 0 then 1 else if m % 4 = 2 then -1 else 0
def imPow (m : ℕ) : ℤ := if m % 4 = 1 then 1 else if m % 4 = 3 then -1 else 0

theorem I_pow_parts (m : ℕ) : (Complex.I ^ m).re = rePow m ∧ (Complex.I ^ m).im = imPow m := by
  rw [← Nat.div_add_mod m 4, pow_add, pow_mul, Complex.I_pow_four, one_pow, one_mul]
  have h : m % 4 < 4 := Nat.mod_lt _ (by norm_num)
  have e : (4 * (m / 4) + m % 4) % 4 = m % 4 := by omega
  unfold rePow imPow
  rw [e]
  generalize m % 4 = r at *
  interval_cases r <;> simp [pow_succ]

theorem taylor_bound (x : ℝ) {n : ℕ} (hx : |x| / (n + 1) ≤ 1 / 2) :
    |Real.sin x - ∑ m ∈ Finset.range n, imPow m * x ^ m / m.factorial| ≤ |x| ^ n / n.factorial * 2 ∧
    |Real.cos x - ∑ m ∈ Finset.range n, rePow m * x ^ m / m.factorial| ≤ |x| ^ n / n.factorial * 2 := by
  have h := Complex.exp_bound' (x := (x : ℂ) * Complex.I) (n := n) (by
    rw [norm_mul, Complex.norm_I, mul_one, Complex.norm_real, Real.norm_eq_abs]
    simpa using hx)
  rw [norm_mul, Complex.norm_I, mul_one, Complex.norm_real, Real.norm_eq_abs] at h
  have hterm : ∀ m : ℕ, ((x : ℂ) * Complex.I) ^ m / m.factorial = ((x ^ m / m.factorial : ℝ) : ℂ) * Complex.I ^ m := by
    intro m; push_cast; rw [mul_pow]; ring
  simp only [hterm] at h
  constructor
  · refine le_trans ?_ h
    refine le_trans (le_of_eq ?_) (Complex.abs_im_le_norm _)
    rw [Complex.sub_im, Complex.exp_ofReal_mul_I_im, Complex.im_sum]
    congr 2
    refine Finset.sum_congr rfl fun m _ => ?_
    rw [Complex.im_ofReal_mul, (I_pow_parts m).2]; ring
  · refine le_trans ?_ h
    refine le_trans (le_of_eq ?_) (Complex.abs_re_le_norm _)
    rw [Complex.sub_re, Complex.exp_ofReal_mul_I_re, Complex.re_sum]
    congr 2
    refine Finset.sum_congr rfl fun m _ => ?_
    rw [Complex.re_ofReal_mul, (I_pow_parts m).1]; ring

/-- The partial sum of the series at `X / 2^k`, times `n! * 2^(k n)`. -/
def trigNum (s : ℕ → ℤ) (X : ℤ) (k n : ℕ) : ℕ → ℤ
  | 0 => 0
  | m + 1 => trigNum s X k n m + s m * X ^ m * (((n.factorial / m.factorial : ℕ) : ℤ) * 2 ^ (k * (n - m)))

theorem trigNum_eq (s : ℕ → ℤ) (X : ℤ) (k n m : ℕ) (hm : m ≤ n) :
    ∑ i ∈ Finset.range m, (s i : ℝ) * ((X:ℝ) / 2 ^ k) ^ i / i.factorial = trigNum s X k n m / (n.factorial * 2 ^ (k * n)) := by
  induction m with
  | zero => simp [trigNum]
  | succ m ih =>
    rw [Finset.sum_range_succ, ih (by omega), trigNum]
    have h1 : ((n.factorial / m.factorial : ℕ) : ℝ) = n.factorial / m.factorial :=
      Nat.cast_div (Nat.factorial_dvd_factorial (by omega)) (by exact_mod_cast Nat.factorial_ne_zero m)
    have h0 : ((trigNum s X k n m + s m * X ^ m * (((n.factorial / m.factorial : ℕ) : ℤ) * 2 ^ (k * (n - m))) : ℤ) : ℝ) =
        trigNum s X k n m + s m * X ^ m * (((n.factorial / m.factorial : ℕ) : ℝ) * 2 ^ (k * (n - m))) := by simp only [Int.cast_add, Int.cast_mul, Int.cast_pow, Int.cast_natCast, Int.cast_ofNat]
    rw [h0, h1, add_div]
    congr 1
    have h2 : (2:ℝ) ^ (k * n) = 2 ^ (k * m) * 2 ^ (k * (n - m)) := by rw [← pow_add, ← mul_add]; congr 2; omega
    have h3 : ((n.factorial : ℕ) : ℝ) ≠ 0 := by exact_mod_cast Nat.factorial_ne_zero n
    have h4 : ((m.factorial : ℕ) : ℝ) ≠ 0 := by exact_mod_cast Nat.factorial_ne_zero m
    rw [h2, div_pow, ← pow_mul]
    field_simp

/-- Integer test: `V / 2^k` is the value of the series `s` at `X / 2^k` up to `2^-t`. -/
def trigCheck (s : ℕ → ℤ) (X V : ℤ) (k n t : ℕ) : Bool :=
  decide (2 * X.natAbs ≤ (n + 1) * 2 ^ k) &&
  decide (((V * (n.factorial * 2 ^ (k * n)) - trigNum s X k n n * 2 ^ k).natAbs + 2 * X.natAbs ^ n * 2 ^ k) * 2 ^ t ≤ n.factorial * 2 ^ (k * n) * 2 ^ k)

theorem trigCheck_core {s : ℕ → ℤ} {X V : ℤ} {k n t : ℕ} (h : trigCheck s X V k n t = true) {y : ℝ}
    (hy : |y - ∑ m ∈ Finset.range n, (s m : ℝ) * ((X:ℝ) / 2 ^ k) ^ m / m.factorial| ≤ |(X:ℝ) / 2 ^ k| ^ n / n.factorial * 2) :
    |(V:ℝ) / 2 ^ k - y| ≤ 1 / 2 ^ t := by
  simp only [trigCheck, Bool.and_eq_true, decide_eq_true_eq] at h
  have h2 := h.2
  rw [trigNum_eq s X k n n le_rfl] at hy
  have h2' : ((|(V:ℝ) * (n.factorial * 2 ^ (k * n)) - trigNum s X k n n * 2 ^ k|) + 2 * |(X:ℝ)| ^ n * 2 ^ k) * 2 ^ t ≤
      n.factorial * 2 ^ (k * n) * 2 ^ k := by
    have h3 : (((((V * (n.factorial * 2 ^ (k * n)) - trigNum s X k n n * 2 ^ k).natAbs + 2 * X.natAbs ^ n * 2 ^ k) * 2 ^ t : ℕ) : ℤ) : ℝ) ≤
      (((n.factorial * 2 ^ (k * n) * 2 ^ k : ℕ) : ℤ) : ℝ) := by exact_mod_cast h2
    push_cast [Nat.cast_natAbs] at h3
    simpa using h3
  generalize hN : (n.factorial : ℝ) * 2 ^ (k * n) = N at *
  have hn0 : (0:ℝ) < n.factorial := by exact_mod_cast Nat.factorial_pos n
  have hNpos : 0 < N := by rw [← hN]; positivity
  have hx : |(X:ℝ) / 2 ^ k| ^ n / n.factorial * 2 = 2 * |(X:ℝ)| ^ n / N := by
    rw [abs_div, abs_of_pos (show (0:ℝ) < 2 ^ k by positivity), div_pow, ← pow_mul, ← hN]
    field_simp
  rw [hx] at hy
  have e1 : |(V:ℝ) / 2 ^ k - y| ≤ |(V:ℝ) / 2 ^ k - trigNum s X k n n / N| + |y - trigNum s X k n n / N| := by
    rw [abs_sub_comm y]
    exact abs_sub_le _ _ _
  have e2 : |(V:ℝ) / 2 ^ k - trigNum s X k n n / N| = |(V:ℝ) * N - trigNum s X k n n * 2 ^ k| / (N * 2 ^ k) := by
    rw [div_sub_div _ _ (by positivity) hNpos.ne', abs_div, abs_of_pos (show 0 < (2:ℝ) ^ k * N by positivity), mul_comm (2 ^ k) N,
      mul_comm (2 ^ k) ((trigNum s X k n n : ℤ) : ℝ)]
  rw [e2] at e1
  refine (e1.trans (add_le_add le_rfl hy)).trans ?_
  rw [div_add_div _ _ (by positivity) hNpos.ne', div_le_div_iff₀ (by positivity) (by positivity)]
  have e3 := mul_le_mul_of_nonneg_right h2' hNpos.le
  nlinarith [e3]

theorem trigCheck_sin {X V : ℤ} {k n t : ℕ} (h : trigCheck imPow X V k n t = true) : |(V:ℝ) / 2 ^ k - Real.sin (X / 2 ^ k)| ≤ 1 / 2 ^ t := by
  refine trigCheck_core h (taylor_bound _ ?_).1
  simp only [trigCheck, Bool.and_eq_true, decide_eq_true_eq] at h
  rw [abs_div, abs_of_pos (show (0:ℝ) < 2 ^ k by positivity), div_div, div_le_div_iff₀ (by positivity) (by norm_num)]
  have : ((2 * X.natAbs : ℕ) : ℝ) ≤ ((n + 1) * 2 ^ k : ℕ) := by exact_mod_cast h.1
  push_cast [Nat.cast_natAbs] at this
  linarith

theorem trigCheck_cos {X V : ℤ} {k n t : ℕ} (h : trigCheck rePow X V k n t = true) : |(V:ℝ) / 2 ^ k - Real.cos (X / 2 ^ k)| ≤ 1 / 2 ^ t := by
  refine trigCheck_core h (taylor_bound _ ?_).2
  simp only [trigCheck, Bool.and_eq_true, decide_eq_true_eq] at h
  rw [abs_div, abs_of_pos (show (0:ℝ) < 2 ^ k by positivity), div_div, div_le_div_iff₀ (by positivity) (by norm_num)]
  have : ((2 * X.natAbs : ℕ) : ℝ) ≤ ((n + 1) * 2 ^ k : ℕ) := by exact_mod_cast h.1
  push_cast [Nat.cast_natAbs] at this
  linarith

end ZkLoc
