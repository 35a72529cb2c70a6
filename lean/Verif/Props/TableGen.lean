import Verif.TableGenSpec
import Mathlib.Analysis.SpecialFunctions.Trigonometric.Inverse
import Mathlib.Analysis.SpecialFunctions.Trigonometric.Bounds
import Mathlib.Analysis.Real.Pi.Bounds
import Mathlib.Analysis.Convex.Basic
import Mathlib.Algebra.Order.Floor.Semiring

/-!
# C71 to C73: what the table generators and the distance script compute

/repo/data/generate_test_math.py, /repo/scripts/ulp.py, /repo/data/generate_test_loc2index.py.
-/

namespace ZkLoc.TableGen
open Ieee

/-! ### C71: rows of the sine and arctangent tables -/

/-- **C71** If the drawn number is a number of the format, the row lists it unchanged and the true value of the function there lies strictly between the two surrounding
numbers. This covers every row in double precision. What is missing: in single precision the drawn number is a double, the row lists it rounded, and then the claim is
false (`C71_single_sine_arbitrary`). -/
theorem C71_row_brackets_partial {F : Format} (hF : F = single ∨ F = double) {f : ℝ → ℝ} {x a y lo hi : ℝ} (hx : IsFloat F x) (h : GenRow F f x a y lo hi) :
    a = x ∧ lo < f a ∧ f a < hi := by
  have hd : ∀ v, IsFloat F v → IsFloat double v := by
    intro v hv
    rcases hF with rfl | rfl
    · exact single_double hv
    · exact hv
  have ha : a = x := h.input.unique hx.rounds
  subst ha
  obtain ⟨r, h1, h2⟩ := h.output
  refine ⟨rfl, ?_, ?_⟩
  · by_contra hc
    rw [not_lt] at hc
    have h3 := h1.mono (hd _ h.lower.1).rounds hc
    have h4 := h2.mono h.lower.1.rounds h3
    linarith [h.lower.2.1]
  · by_contra hc
    rw [not_lt] at hc
    have h3 := (hd _ h.upper.1).rounds.mono h1 hc
    have h4 := h.upper.1.rounds.mono h2 h3
    linarith [h.upper.2.1]

/-- **C71** In double precision the output listed is the correctly rounded value at the input listed. -/
theorem C71_double_output {f : ℝ → ℝ} {x a y lo hi : ℝ} (hx : IsFloat double x) (h : GenRow double f x a y lo hi) : Rounds double (f a) y := by
  have ha : a = x := h.input.unique hx.rounds
  subst ha
  obtain ⟨r, h1, h2⟩ := h.output
  have : y = r := h2.unique (Rounds.self h1.rne.repr)
  rwa [this]

theorem isFloat_single_nat {n : ℕ} (h : n < 2 ^ 24) : IsFloat single n := by
  refine ⟨⟨n, 0, h, by norm_num [single, Format.qmin, Format.emin, Format.bias], by simp⟩, ?_⟩
  have h1 : (n:ℝ) < 2 ^ 24 := by exact_mod_cast h
  rw [abs_of_nonneg (by positivity)]
  refine h1.trans ?_
  norm_num [single, Format.bias]

theorem isFloat_neg {F : Format} {v : ℝ} (h : IsFloat F v) : IsFloat F (-v) := by
  unfold IsFloat at *; rwa [abs_neg]

/-- Rows exist for every number whose function value is small. -/
theorem exists_row {f : ℝ → ℝ} {x a : ℝ} (ha : Rounds single x a) (hfa : IsFloat single a) (hf : |f x| ≤ 8 / 5) :
    ∃ y lo hi, GenRow single f x a y lo hi ∧ |f x - y| ≤ 2 ^ (-22 : ℤ) := by
  obtain ⟨r, hr⟩ := exists_rounds (F := double) (by norm_num [double, Convert.double]) (f x)
  obtain ⟨y, hy⟩ := exists_rounds (F := single) (by norm_num [single]) r
  have e1 := hr.err
  have e2 := hy.err
  have q1 : (2:ℝ) ^ (double.qmin - 1) ≤ 2 ^ (-50 : ℤ) := zpow_le_zpow_right₀ (by norm_num) (by norm_num [double, Convert.double, Format.qmin, Format.emin, Format.bias])
  have q2 : (2:ℝ) ^ (single.qmin - 1) ≤ 2 ^ (-50 : ℤ) := zpow_le_zpow_right₀ (by norm_num) (by norm_num [single, Format.qmin, Format.emin, Format.bias])
  have m1 : (2:ℝ) ^ (-(double.M : ℤ) - 1) = 2 ^ (-53 : ℤ) := by norm_num [double, Convert.double]
  have m2 : (2:ℝ) ^ (-(single.M : ℤ) - 1) = 2 ^ (-24 : ℤ) := by norm_num [single]
  rw [m1] at e1
  rw [m2] at e2
  have hr1 : |r| ≤ 2 := by
    have := abs_sub_abs_le_abs_sub r (f x)
    rw [abs_sub_comm] at this
    norm_num at e1 q1 ⊢
    linarith
  have herr : |f x - y| ≤ 2 ^ (-22 : ℤ) := by
    have := abs_sub_le (f x) r y
    norm_num at e1 e2 q1 q2 ⊢
    linarith
  have hy2 : |y| ≤ 2 := by
    have := abs_sub_abs_le_abs_sub y (f x)
    rw [abs_sub_comm] at this
    norm_num at herr ⊢
    linarith
  have hyf : IsFloat single y := by
    refine ⟨hy.rne.repr, lt_of_le_of_lt hy2 ?_⟩
    norm_num [single, Format.bias]
  have h3 : IsFloat single (3:ℝ) := by exact_mod_cast isFloat_single_nat (n := 3) (by norm_num)
  obtain ⟨hi, hhi⟩ := exists_nextUp (r := y) h3 (by linarith [le_abs_self y])
  obtain ⟨lo, hlo⟩ := exists_nextDown (r := y) (isFloat_neg h3) (by linarith [neg_abs_le y])
  exact ⟨y, lo, hi, ⟨ha, hfa, ⟨r, hr, hy⟩, hyf, hlo, hhi⟩, herr⟩

/-- Above `2^28` single precision numbers are at least 32 apart. -/
theorem rounds_single_above {a x : ℝ} (ha : IsFloat single a) (h28 : 2 ^ 28 ≤ a) (h1 : a ≤ x) (h2 : x < a + 16) : Rounds single x a := by
  have ha0 : 0 ≤ a := le_trans (by positivity) h28
  have key : ∀ q, Representable single q → q ≠ a → |x - a| < |x - q| := by
    intro q hq hne
    rw [abs_of_nonneg (by linarith)]
    rcases le_or_gt a q with h | h
    · obtain ⟨m, hm⟩ := hq.multiple (k := 5) (Or.inr (by norm_num [single] at h28 ⊢; linarith))
      have har := ha.1
      rw [abs_of_nonneg ha0] at har
      obtain ⟨n, hn⟩ := har.multiple (k := 5) (Or.inr (by norm_num [single] at h28 ⊢; linarith))
      have h3 : a < q := lt_of_le_of_ne h (Ne.symm hne)
      rw [hm, hn] at h3
      have h4 : (n:ℝ) < m := lt_of_mul_lt_mul_right h3 (by positivity)
      have h5 : n + 1 ≤ m := by exact_mod_cast h4
      have h6 : ((n:ℝ) + 1) ≤ m := by exact_mod_cast h5
      have h7 : a + 32 ≤ q := by rw [hm, hn]; norm_num; linarith
      rw [abs_of_nonpos (by linarith)]
      linarith
    · rw [abs_of_pos (by linarith)]
      linarith
  refine ⟨?_, fun _ => ha0, fun h => by linarith [show (0:ℝ) < 2 ^ 28 by positivity]⟩
  rw [abs_of_nonneg (by linarith), abs_of_nonneg ha0]
  have har := ha.1
  rw [abs_of_nonneg ha0] at har
  refine ⟨har, fun q hq => ?_, fun q hq hne he => ?_⟩
  · by_cases h : q = a
    · rw [h]
    · exact (key q hq h).le
  · exact absurd he (ne_of_gt (key q hq hne))

/-- Numbers drawn from (100, 1e10) come close to every number of the range. -/
theorem uniform_near {t : ℝ} (h1 : 100 ≤ t) (h2 : t < 10 ^ 10) : ∃ k x, Uniform 100 (10 ^ 10) k x ∧ |x - t| ≤ 2 ^ (-17 : ℤ) := by
  set D : ℝ := 10 ^ 10 - 100 with hD
  have hD0 : D = 9999999900 := by norm_num [hD]
  have hDf : Rounds double D D := by
    apply Rounds.self
    rw [abs_of_nonneg (by rw [hD0]; norm_num), hD0]
    exact ⟨9999999900, 0, by norm_num [double, Convert.double], by norm_num [double, Convert.double, Format.qmin, Format.emin, Format.bias], by norm_num⟩
  set z : ℝ := (t - 100) / D * 2 ^ 53 with hz
  have hz0 : 0 ≤ z := by
    have : 0 ≤ t - 100 := by linarith
    rw [hD0] at hz; rw [hz]; positivity
  have hz1 : z < 2 ^ 53 := by
    have : (t - 100) / D < 1 := by rw [div_lt_one (by rw [hD0]; norm_num), hD]; linarith
    rw [hz]
    nlinarith [show (0:ℝ) < 2 ^ 53 by positivity]
  have f1 := Nat.floor_le hz0
  have f2 := Nat.lt_floor_add_one z
  set k := ⌊z⌋₊ with hk
  have hk53 : k < 2 ^ 53 := by
    have : (k:ℝ) < 2 ^ 53 := by linarith
    exact_mod_cast this
  have ht : t - 100 = D * (z / 2 ^ 53) := by rw [hz, hD0]; field_simp
  obtain ⟨p, hp⟩ := exists_rounds (F := double) (by norm_num [double, Convert.double]) (D * ((k:ℝ) / 2 ^ 53))
  obtain ⟨x, hx⟩ := exists_rounds (F := double) (by norm_num [double, Convert.double]) (100 + p)
  refine ⟨k, x, ⟨hk53, D, p, hDf, hp, hx⟩, ?_⟩
  have e1 := hp.err
  have e2 := hx.err
  have q1 : (2:ℝ) ^ (double.qmin - 1) ≤ 2 ^ (-50 : ℤ) := zpow_le_zpow_right₀ (by norm_num) (by norm_num [double, Convert.double, Format.qmin, Format.emin, Format.bias])
  have m1 : (2:ℝ) ^ (-(double.M : ℤ) - 1) = 2 ^ (-53 : ℤ) := by norm_num [double, Convert.double]
  rw [m1] at e1 e2
  have hP : D * ((k:ℝ) / 2 ^ 53) ≤ 10 ^ 10 := by
    have : (k:ℝ) / 2 ^ 53 ≤ 1 := by rw [div_le_one (by positivity)]; linarith
    rw [hD0]; norm_num at this ⊢; linarith
  have hP0 : 0 ≤ D * ((k:ℝ) / 2 ^ 53) := by rw [hD0]; positivity
  have hP1 : |D * ((k:ℝ) / 2 ^ 53) - (t - 100)| ≤ D / 2 ^ 53 := by
    rw [ht, ← mul_sub, ← sub_div, abs_mul, abs_div, abs_of_pos (show (0:ℝ) < D by rw [hD0]; norm_num), abs_of_pos (show (0:ℝ) < 2 ^ 53 by positivity), mul_div_assoc']
    have : |(k:ℝ) - z| ≤ 1 := by rw [abs_of_nonpos (by linarith)]; linarith
    apply div_le_div_of_nonneg_right _ (by positivity)
    have hD1 : 0 < D := by rw [hD0]; norm_num
    nlinarith
  rw [abs_of_nonneg hP0] at e1
  have hpp : 0 ≤ p := hp.pos hP0
  rw [abs_of_nonneg (show 0 ≤ 100 + p by linarith)] at e2
  generalize D * ((k:ℝ) / 2 ^ 53) = P at *
  rw [hD0] at hP1
  norm_num at e1 e2 q1 hP1 ⊢
  rw [abs_le] at *
  constructor <;> linarith [e1.1, e1.2, e2.1, e2.2, hP1.1, hP1.2]

/-- **C71** (negation for single precision) Rows of the single precision sine table say nothing about the sine of the input they list: for every single precision number `a`
from `2^28` to `9·10^9` and every `s` between -1 and 1 there is a draw from the range (100, 1e10) for which the row lists `a` as the input and a number within `2^-16` of `s` as
its sine. -/
theorem C71_single_sine_arbitrary {a s : ℝ} (ha : IsFloat single a) (h1 : 2 ^ 28 ≤ a) (h2 : a ≤ 9 * 10 ^ 9) (hs : -1 ≤ s) (hs' : s ≤ 1) :
    ∃ k x y lo hi, Uniform 100 (10 ^ 10) k x ∧ GenRow single Real.sin x a y lo hi ∧ |y - s| ≤ 2 ^ (-16 : ℤ) := by
  have hpi := Real.pi_lt_d2
  have hpi0 := Real.pi_pos
  set m := ⌈(a + 1 - Real.arcsin s) / (2 * Real.pi)⌉ with hm
  have c1 := Int.le_ceil ((a + 1 - Real.arcsin s) / (2 * Real.pi))
  have c2 := Int.ceil_lt_add_one ((a + 1 - Real.arcsin s) / (2 * Real.pi))
  rw [← hm] at c1 c2
  rw [div_le_iff₀ (by positivity)] at c1
  have c2' : ((m:ℝ) - 1) * (2 * Real.pi) < a + 1 - Real.arcsin s := by
    rw [← lt_div_iff₀ (by positivity)]; linarith
  set t := Real.arcsin s + m * (2 * Real.pi) with ht
  have hst : Real.sin t = s := by rw [ht, Real.sin_add_int_mul_two_pi, Real.sin_arcsin hs hs']
  have t1 : a + 1 ≤ t := by rw [ht]; linarith
  have t2 : t < a + 8 := by rw [ht]; linarith
  obtain ⟨k, x, hu, hx⟩ := uniform_near (t := t) (by norm_num at h1; linarith) (by linarith)
  have hx' := abs_le.1 hx
  have hra : Rounds single x a := rounds_single_above ha h1 (by norm_num at hx'; linarith [hx'.1]) (by norm_num at hx'; linarith [hx'.2])
  obtain ⟨y, lo, hi, hrow, hy⟩ := exists_row (f := Real.sin) hra ha ((Real.abs_sin_le_one x).trans (by norm_num))
  refine ⟨k, x, y, lo, hi, hu, hrow, ?_⟩
  have d1 := Real.abs_sin_sub_sin_le x t
  rw [hst] at d1
  have d2 := abs_sub_le y (Real.sin x) s
  rw [abs_sub_comm y (Real.sin x)] at d2
  norm_num at hx hy ⊢
  linarith

/-- **C71** So there are rows with the same input that contradict each other: no value lies within the bounds of both, and no implementation passes a test on both. -/
theorem C71_single_sine_contradiction {a : ℝ} (ha : IsFloat single a) (h1 : 2 ^ 28 ≤ a) (h2 : a ≤ 9 * 10 ^ 9) :
    ∃ k x y lo hi k' x' y' lo' hi', Uniform 100 (10 ^ 10) k x ∧ GenRow single Real.sin x a y lo hi ∧
      Uniform 100 (10 ^ 10) k' x' ∧ GenRow single Real.sin x' a y' lo' hi' ∧ hi' < lo := by
  obtain ⟨k, x, y, lo, hi, u, g, e⟩ := C71_single_sine_arbitrary (s := 1) ha h1 h2 (by norm_num) le_rfl
  obtain ⟨k', x', y', lo', hi', u', g', e'⟩ := C71_single_sine_arbitrary (s := -1) ha h1 h2 le_rfl (by norm_num)
  refine ⟨k, x, y, lo, hi, k', x', y', lo', hi', u, g, u', g', ?_⟩
  have f0 : IsFloat single (0:ℝ) := by exact_mod_cast isFloat_single_nat (n := 0) (by norm_num)
  have fh : IsFloat single (1 / 2 : ℝ) := by
    refine ⟨⟨1, -1, by norm_num [single], by norm_num [single, Format.qmin, Format.emin, Format.bias], by norm_num [abs_of_pos]⟩, ?_⟩
    rw [abs_of_pos (by norm_num)]
    norm_num [single, Format.bias]
  rw [abs_le] at e e'
  norm_num at e e'
  have a1 := g.lower.2.2 (1 / 2) fh (by linarith [e.1])
  have a2 := g'.upper.2.2 0 f0 (by linarith [e'.2])
  linarith

/-- The hypotheses are met: `2^30` is a single precision number of that range. -/
example : IsFloat single (2 ^ 30 : ℝ) ∧ (2:ℝ) ^ 28 ≤ 2 ^ 30 ∧ (2 ^ 30 : ℝ) ≤ 9 * 10 ^ 9 := by
  refine ⟨⟨⟨1, 30, by norm_num [single], by norm_num [single, Format.qmin, Format.emin, Format.bias], by norm_num⟩, ?_⟩, by norm_num, by norm_num⟩
  rw [abs_of_pos (by positivity)]
  norm_num [single, Format.bias]

/-- A row for the number 1, which both formats have. -/
example : ∃ y lo hi, GenRow single Real.sin 1 1 y lo hi ∧ lo < Real.sin 1 ∧ Real.sin 1 < hi := by
  have h1 : IsFloat single (1:ℝ) := by exact_mod_cast isFloat_single_nat (n := 1) (by norm_num)
  obtain ⟨y, lo, hi, h, _⟩ := exists_row h1.rounds h1 ((Real.abs_sin_le_one 1).trans (by norm_num))
  exact ⟨y, lo, hi, h, (C71_row_brackets_partial (Or.inl rfl) h1 h).2⟩

/-! ### C72: the distance script -/

/-- What becomes of a significand of 53 characters. -/
theorem quotient_round {m : ℕ} (hm : m < 2 ^ 53) {q : ℝ} (h : Rounds double (((2 ^ 53 + m : ℕ) : ℝ) / 2 ^ 52) q) :
    ∃ R : ℕ, q = R * (2:ℝ) ^ (-51 : ℤ) ∧ |((2 ^ 53 + m : ℕ) : ℝ) / 2 - R| ≤ 1 / 2 ∧ (|((2 ^ 53 + m : ℕ) : ℝ) / 2 - R| = 1 / 2 → Even R) := by
  obtain ⟨n, h1, h2, _⟩ := exists_nearest (x := ((2 ^ 53 + m : ℕ) : ℝ) / 2) (by positivity)
  refine ⟨n, ?_, h1, h2⟩
  have hm' : (m:ℝ) < 2 ^ 53 := by exact_mod_cast hm
  have hn : n ≤ 2 ^ 53 := by
    have h3 := (abs_le.1 h1).1
    push_cast at h3
    have h5 : (n:ℝ) < 2 ^ 53 + 1 := by linarith
    have h6 : n < 2 ^ 53 + 1 := by exact_mod_cast h5
    omega
  have hv : ((2 ^ 53 + m : ℕ) : ℝ) / 2 ^ 52 = ((2 ^ 53 + m : ℕ) : ℝ) / 2 * 2 ^ (-51 : ℤ) := by norm_num; ring
  have hd : |((2 ^ 53 + m : ℕ) : ℝ) / 2 ^ 52 - n * (2:ℝ) ^ (-51 : ℤ)| = |((2 ^ 53 + m : ℕ) : ℝ) / 2 - n| * 2 ^ (-51 : ℤ) := by
    rw [hv, ← sub_mul, abs_mul, abs_of_pos (show (0:ℝ) < 2 ^ (-51 : ℤ) by positivity)]
  have hP : (0:ℝ) < 2 ^ (-51 : ℤ) := by positivity
  have hr : IsRNE double (((2 ^ 53 + m : ℕ) : ℝ) / 2 ^ 52) (n * (2:ℝ) ^ (-51 : ℤ)) := by
    apply isRNE_of_quantum (by norm_num [double, Convert.double]) (by norm_num [double, Convert.double, Format.qmin, Format.emin, Format.bias])
    · simpa [double, Convert.double] using hn
    · rw [hd]; nlinarith
    · rw [hd]
      intro he
      apply h2
      have : (|((2 ^ 53 + m : ℕ) : ℝ) / 2 - n| - 1 / 2) * (2:ℝ) ^ (-51 : ℤ) = 0 := by linarith
      rcases mul_eq_zero.1 this with h | h
      · linarith
      · exact absurd h hP.ne'
    · right
      have hm0 : (0:ℝ) ≤ m := by positivity
      push_cast
      norm_num [double, Convert.double]
      linarith
  have hq : Rounds double (((2 ^ 53 + m : ℕ) : ℝ) / 2 ^ 52) (n * (2:ℝ) ^ (-51 : ℤ)) := by
    refine ⟨?_, fun _ => by positivity, fun h0 => ?_⟩
    · rwa [abs_of_nonneg (by positivity), abs_of_nonneg (by positivity)]
    · have : (0:ℝ) < ((2 ^ 53 + m : ℕ) : ℝ) / 2 ^ 52 := by positivity
      linarith
  exact h.unique hq

/-- The value printed, for significands of the same exponent. -/
theorem ulp_print {e mc mw : ℕ} (he : e ≤ 2044) (hc : mc < 2 ^ 53) (hw : 2 ^ 52 ≤ mw) (hw' : mw < 2 ^ 53 - 1) {out : ℝ} (h : UlpPrint e mc e mw out) :
    ∃ Rc Rw : ℕ, |((2 ^ 53 + mc : ℕ) : ℝ) / 2 - Rc| ≤ 1 / 2 ∧ (|((2 ^ 53 + mc : ℕ) : ℝ) / 2 - Rc| = 1 / 2 → Even Rc) ∧
      |((2 ^ 53 + mw : ℕ) : ℝ) / 2 - Rw| ≤ 1 / 2 ∧ (|((2 ^ 53 + mw : ℕ) : ℝ) / 2 - Rw| = 1 / 2 → Even Rw) ∧ out = |(Rc:ℝ) - Rw| / 2 := by
  obtain ⟨c, w, lo, hi, u, d, ⟨qc, hqc, rfl⟩, ⟨qw, hqw, rfl⟩, hlo, hhi, hu, hd, hout⟩ := h
  obtain ⟨Rc, rfl, c1, c2⟩ := quotient_round hc hqc
  obtain ⟨Rw, rfl, w1, w2⟩ := quotient_round (by omega) hqw
  refine ⟨Rc, Rw, c1, c2, w1, w2, ?_⟩
  have hc' : (mc:ℝ) < 2 ^ 53 := by exact_mod_cast hc
  have hc0 : (0:ℝ) ≤ mc := by positivity
  have hwl : (2:ℝ) ^ 52 ≤ mw := by exact_mod_cast hw
  have hwu : (mw:ℝ) + 2 ≤ 2 ^ 53 := by
    have : mw + 2 ≤ 2 ^ 53 := by omega
    exact_mod_cast this
  have ac := abs_le.1 c1
  have aw := abs_le.1 w1
  push_cast at ac aw
  have bc1 : Rc ≤ 2 ^ 53 := by
    have : (Rc:ℝ) < 2 ^ 53 + 1 := by linarith
    have : Rc < 2 ^ 53 + 1 := by exact_mod_cast this
    omega
  have bc2 : 2 ^ 52 ≤ Rc := by
    have : (2:ℝ) ^ 52 - 1 < Rc := by linarith
    have : (2:ℝ) ^ 52 < (Rc + 1 : ℕ) := by push_cast; linarith
    have : 2 ^ 52 < Rc + 1 := by exact_mod_cast this
    omega
  have bw1 : Rw < 2 ^ 53 := by
    have : (Rw:ℝ) < 2 ^ 53 := by linarith
    exact_mod_cast this
  have bw2 : 2 ^ 52 < Rw := by
    have : (2:ℝ) ^ 52 < Rw := by linarith
    exact_mod_cast this
  obtain ⟨K, hK⟩ : ∃ K : ℤ, K = (e:ℤ) - 1074 := ⟨_, rfl⟩
  have hP : (0:ℝ) < 2 ^ K := by positivity
  have hval : ∀ R : ℕ, (2:ℝ) ^ ((e:ℤ) - 1023) * (R * 2 ^ (-51 : ℤ)) = R * 2 ^ K := by
    intro R
    rw [mul_left_comm, ← zpow_add₀ (by norm_num), hK]
    congr 2
    ring
  rw [hval] at hlo hhi hd
  rw [hval] at hd
  have hq : double.qmin = -1074 := by norm_num [double, Convert.double, Format.qmin, Format.emin, Format.bias]
  have hM : double.M = 52 := rfl
  have hbig : ∀ n : ℕ, n ≤ 2 ^ 53 → (n:ℝ) * 2 ^ K < 2 ^ (double.bias + 1) := by
    intro n hn
    have h1 : (n:ℝ) ≤ 2 ^ (53:ℤ) := by exact_mod_cast hn
    have h2 : (2:ℝ) ^ K ≤ 2 ^ (970:ℤ) := zpow_le_zpow_right₀ (by norm_num) (by omega)
    have h3 : (2:ℝ) ^ (53:ℤ) * 2 ^ (970:ℤ) = 2 ^ (1023:ℤ) := by rw [← zpow_add₀ (by norm_num)]; norm_num
    have h4 : (2:ℝ) ^ (1023:ℤ) < 2 ^ (double.bias + 1) := zpow_lt_zpow_right₀ (by norm_num) (by norm_num [double, Convert.double, Format.bias])
    calc (n:ℝ) * 2 ^ K ≤ 2 ^ (53:ℤ) * 2 ^ (970:ℤ) := mul_le_mul h1 h2 hP.le (by positivity)
      _ < _ := by rw [h3]; exact h4
  have e1 : hi = ((Rw + 1 : ℕ) : ℝ) * 2 ^ K := hhi.unique (nextUp_mul (by rw [hM]; omega) (by rw [hM]; omega) (by rw [hq]; omega) (hbig _ (by omega)))
  have e2 : lo = ((Rw - 1 : ℕ) : ℝ) * 2 ^ K := by
    have h1 : NextDown double (((Rw - 1 + 1 : ℕ) : ℝ) * 2 ^ K) (((Rw - 1 : ℕ) : ℝ) * 2 ^ K) :=
      nextDown_mul (by rw [hM]; omega) (by rw [hM]; omega) (by rw [hq]; omega) (hbig _ (by omega))
    rw [show Rw - 1 + 1 = Rw by omega] at h1
    exact hlo.unique h1
  have e3 : hi - lo = ((2 : ℕ) : ℝ) * 2 ^ K := by
    rw [e1, e2, Nat.cast_sub (by omega)]; push_cast; ring
  have r1 : Representable double (((2 : ℕ) : ℝ) * 2 ^ K) := ⟨2, K, by norm_num [double, Convert.double], by rw [hq]; omega, rfl⟩
  have e4 : u = ((2 : ℕ) : ℝ) * 2 ^ K := by
    rw [e3] at hu
    exact hu.unique (Rounds.self (by rwa [abs_of_nonneg r1.nonneg]))
  obtain ⟨N, hN, hN'⟩ : ∃ N : ℕ, |(Rc:ℝ) - Rw| = N ∧ N ≤ 2 ^ 53 := by
    refine ⟨((Rc:ℤ) - Rw).natAbs, ?_, by omega⟩
    rw [Nat.cast_natAbs]; push_cast; rfl
  have e5 : (Rc:ℝ) * 2 ^ K - Rw * 2 ^ K = (Rc - Rw) * 2 ^ K := by ring
  rw [e5] at hd
  have e6 : |((Rc:ℝ) - Rw) * 2 ^ K| = N * 2 ^ K := by rw [abs_mul, hN, abs_of_pos hP]
  have e7 : d = ((Rc:ℝ) - Rw) * 2 ^ K := by
    refine hd.unique (Rounds.self ?_)
    rw [e6]
    exact representable_mul hN' (by rw [hq]; omega)
  rw [e7, e4, e6] at hout
  have e8 : (N:ℝ) * 2 ^ K / (((2:ℕ):ℝ) * 2 ^ K) = N * 2 ^ (-1 : ℤ) := by push_cast; field_simp
  rw [e8] at hout
  have r2 : Representable double ((N:ℝ) * 2 ^ (-1 : ℤ)) := representable_mul hN' (by rw [hq]; norm_num)
  have e9 : out = N * 2 ^ (-1 : ℤ) := hout.unique (Rounds.self (by rwa [abs_of_nonneg r2.nonneg]))
  rw [e9, hN]; norm_num [div_eq_mul_inv]

/-- **C72** (violation, for every input) The script does not print the distance of its two numbers in units of the last place: what it prints differs from a quarter of the
distance of the significands by at most 1/2. -/
theorem C72_printed_is_a_quarter {e mc mw : ℕ} (he : e ≤ 2044) (hc : mc < 2 ^ 53) (hw : 2 ^ 52 ≤ mw) (hw' : mw < 2 ^ 53 - 1) {out : ℝ} (h : UlpPrint e mc e mw out) :
    |out - |(mc:ℝ) - mw| / 4| ≤ 1 / 2 := by
  obtain ⟨Rc, Rw, c1, _, w1, _, rfl⟩ := ulp_print he hc hw hw' h
  push_cast at c1 w1
  have k1 : |(Rc:ℝ) - Rw - ((mc:ℝ) - mw) / 2| ≤ 1 := by
    rw [abs_le] at *
    constructor <;> linarith [c1.1, c1.2, w1.1, w1.2]
  have k2 := (abs_abs_sub_abs_le ((Rc:ℝ) - Rw) (((mc:ℝ) - mw) / 2)).trans k1
  rw [abs_div, abs_of_pos (show (0:ℝ) < 2 by norm_num)] at k2
  rw [abs_le] at *
  constructor <;> linarith [k2.1, k2.2]

/-- **C72** (violation) It prints the distance only for equal significands. -/
theorem C72_printed_too_small {e mc mw : ℕ} (he : e ≤ 2044) (hc : mc < 2 ^ 53) (hw : 2 ^ 52 ≤ mw) (hw' : mw < 2 ^ 53 - 1) {out : ℝ} (h : UlpPrint e mc e mw out) (hne : mc ≠ mw) :
    out < |(mc:ℝ) - mw| := by
  have h1 := (abs_le.1 (C72_printed_is_a_quarter he hc hw hw' h)).2
  have h2 : (1:ℝ) ≤ |(mc:ℝ) - mw| := by
    have h0 : (1:ℤ) ≤ |(mc:ℤ) - mw| := Int.one_le_abs (by omega)
    exact_mod_cast h0
  linarith

/-- **C72** What holds: equal numbers give zero, and the printed number is a multiple of one half. What is missing: it is the distance. -/
theorem C72_printed_partial {e mc mw : ℕ} (he : e ≤ 2044) (hc : mc < 2 ^ 53) (hw : 2 ^ 52 ≤ mw) (hw' : mw < 2 ^ 53 - 1) {out : ℝ} (h : UlpPrint e mc e mw out) :
    (mc = mw → out = 0) ∧ ∃ n : ℕ, out = n / 2 := by
  constructor
  · rintro rfl
    obtain ⟨c, w, lo, hi, u, d, ⟨qc, hqc, rfl⟩, ⟨qw, hqw, rfl⟩, -, -, -, hd, hout⟩ := h
    rw [hqc.unique hqw, sub_self] at hd
    have z : Representable double |(0:ℝ)| := ⟨0, 0, by positivity, by norm_num [double, Convert.double, Format.qmin, Format.emin, Format.bias], by simp⟩
    have : d = 0 := hd.unique (Rounds.self z)
    rw [this, abs_zero, zero_div] at hout
    exact hout.unique (Rounds.self z)
  · obtain ⟨Rc, Rw, _, _, _, _, rfl⟩ := ulp_print he hc hw hw' h
    refine ⟨((Rc:ℤ) - Rw).natAbs, ?_⟩
    rw [Nat.cast_natAbs]; push_cast; rfl

/-- The significands in the script, /repo/scripts/ulp.py:25-26. -/
def ownComputed : ℕ := 0b11010000011011100011100100000000100100000001011000111
def ownWanted : ℕ := 0b11010000011011100011100100000000100100000001011000110

/-- **C72** For the neighbouring numbers in the script the answer is 0.5. -/
theorem C72_own_values {out : ℝ} (h : UlpPrint 0b11000001100 ownComputed 0b11000001100 ownWanted out) : out = 1 / 2 := by
  obtain ⟨Rc, Rw, c1, c2, w1, w2, rfl⟩ := ulp_print (by norm_num) (by norm_num [ownComputed]) (by norm_num [ownWanted]) (by norm_num [ownWanted]) h
  have hw : Rw = (2 ^ 53 + ownWanted) / 2 := by
    obtain ⟨t, ht⟩ : ∃ t : ℕ, 2 ^ 53 + ownWanted = 2 * t := ⟨(2 ^ 53 + ownWanted) / 2, by norm_num [ownWanted]⟩
    rw [ht] at w1 w2 ⊢
    push_cast at w1 w2
    rw [mul_div_cancel_left₀ _ (by norm_num)] at w1 w2
    by_contra hne
    have h0 : (1:ℤ) ≤ |(t:ℤ) - Rw| := Int.one_le_abs (by omega)
    have h1 : (1:ℝ) ≤ |(t:ℝ) - Rw| := by exact_mod_cast h0
    linarith
  have hc : Rc = (2 ^ 53 + ownWanted) / 2 + 1 := by
    obtain ⟨t, ht, hte⟩ : ∃ t : ℕ, 2 ^ 53 + ownComputed = 2 * t + 1 ∧ t % 2 = 1 := ⟨(2 ^ 53 + ownComputed) / 2, by norm_num [ownComputed], by norm_num [ownComputed]⟩
    have ht2 : (2 ^ 53 + ownWanted) / 2 = t := by
      have : ownComputed = ownWanted + 1 := by norm_num [ownComputed, ownWanted]
      omega
    rw [ht2]
    rw [ht] at c1 c2
    push_cast at c1 c2
    have h3 := abs_le.1 c1
    have h4 : (Rc:ℝ) ≤ (t + 1 : ℕ) := by push_cast; linarith [h3.1]
    have h5 : (t:ℝ) ≤ Rc := by linarith [h3.2]
    have h4' : Rc ≤ t + 1 := by exact_mod_cast h4
    have h5' : t ≤ Rc := by exact_mod_cast h5
    rcases Nat.lt_or_ge t Rc with hlt | hge
    · omega
    · have : Rc = t := by omega
      subst this
      have := c2 (by rw [show (2 * (Rc:ℝ) + 1) / 2 - Rc = 1 / 2 by ring, abs_of_pos (by norm_num)])
      rw [Nat.even_iff] at this
      omega
  rw [hw, hc]
  push_cast
  rw [add_sub_cancel_left, abs_one]

/-- **C72** The exponent of the `SINE values` is read as 1548 with bias 1023, so that both numbers are above `2^526`. -/
theorem C72_own_exponent {m : ℕ} {v : ℝ} (hm : m < 2 ^ 53) (h : BinaryToFloat64 53 0b11000001100 m v) : (2:ℝ) ^ (526:ℤ) ≤ v := by
  obtain ⟨q, hq, rfl⟩ := h
  obtain ⟨R, rfl, h1, _⟩ := quotient_round hm hq
  have h2 := (abs_le.1 h1).2
  push_cast at h2
  have h3 : (0:ℝ) ≤ m := by positivity
  have h4 : (2:ℝ) ^ 52 - 1 < R := by linarith
  have h5 : (2:ℝ) ^ 52 < (R + 1 : ℕ) := by push_cast; linarith
  have h6 : 2 ^ 52 < R + 1 := by exact_mod_cast h5
  have h7 : (2:ℝ) ^ 52 ≤ R := by exact_mod_cast (show 2 ^ 52 ≤ R by omega)
  have h8 : (2:ℝ) ≤ R * 2 ^ (-51 : ℤ) := by
    have e : (2:ℝ) = 2 ^ 52 * 2 ^ (-51 : ℤ) := by norm_num
    calc (2:ℝ) = 2 ^ 52 * 2 ^ (-51 : ℤ) := e
      _ ≤ _ := mul_le_mul_of_nonneg_right h7 (by positivity)
  have h9 : (2:ℝ) ^ (526:ℤ) = 2 ^ (((0b11000001100 : ℕ) : ℤ) - 1023) * 2 := by
    rw [← zpow_add_one₀ (by norm_num)]; norm_num
  rw [h9]
  exact mul_le_mul_of_nonneg_left h8 (by positivity)

/-- Something is printed for the script's own values. -/
example : ∃ out, UlpPrint 0b11000001100 ownComputed 0b11000001100 ownWanted out := by
  have hM : 1 ≤ double.M := by norm_num [double, Convert.double]
  obtain ⟨qc, hqc⟩ := exists_rounds hM (((2 ^ 53 + ownComputed : ℕ) : ℝ) / 2 ^ 52)
  obtain ⟨qw, hqw⟩ := exists_rounds hM (((2 ^ 53 + ownWanted : ℕ) : ℝ) / 2 ^ 52)
  obtain ⟨R, hR, h1, _⟩ := quotient_round (by norm_num [ownWanted]) hqw
  obtain ⟨A, hA⟩ : ∃ A : ℝ, A = (2:ℝ) ^ (((0b11000001100 : ℕ) : ℤ) - 1023) := ⟨_, rfl⟩
  obtain ⟨B, hB⟩ : ∃ B : ℝ, B = (2:ℝ) ^ (600:ℤ) := ⟨_, rfl⟩
  have hA0 : 0 < A := by rw [hA]; positivity
  have hAB : A * 4 < B := by
    rw [hA, hB, show (4:ℝ) = 2 ^ (2:ℤ) by norm_num, ← zpow_add₀ (by norm_num)]
    exact zpow_lt_zpow_right₀ (by norm_num) (by norm_num)
  have hq0 : 0 ≤ qw := by rw [hR]; positivity
  have hq4 : qw ≤ 4 := by
    have h2 := (abs_le.1 h1).1
    have h3 : (R:ℝ) ≤ 2 ^ 53 := by norm_num [ownWanted] at h2; linarith
    rw [hR, show (4:ℝ) = 2 ^ 53 * 2 ^ (-51 : ℤ) by norm_num]
    exact mul_le_mul_of_nonneg_right h3 (by positivity)
  have hb : A * qw < B := by nlinarith
  have hb0 : -B < A * qw := lt_of_lt_of_le (neg_lt_zero.2 (by rw [hB]; positivity)) (mul_nonneg hA0.le hq0)
  have f : IsFloat double B := by
    have hB0 : 0 < B := by rw [hB]; positivity
    refine ⟨⟨1, 600, by norm_num [double, Convert.double], by norm_num [double, Convert.double, Format.qmin, Format.emin, Format.bias], ?_⟩, ?_⟩
    · rw [abs_of_pos hB0, Nat.cast_one, one_mul, hB]
    · rw [abs_of_pos hB0, hB]
      exact zpow_lt_zpow_right₀ (by norm_num) (by norm_num [double, Convert.double, Format.bias])
  obtain ⟨hi, hhi⟩ := exists_nextUp f hb
  obtain ⟨lo, hlo⟩ := exists_nextDown (isFloat_neg f) hb0
  obtain ⟨u, hu⟩ := exists_rounds hM (hi - lo)
  obtain ⟨d, hd⟩ := exists_rounds hM (A * qc - A * qw)
  obtain ⟨out, ho⟩ := exists_rounds hM (|d| / u)
  exact ⟨out, _, _, lo, hi, u, d, ⟨qc, hqc, by rw [hA]⟩, ⟨qw, hqw, by rw [hA]⟩, hlo, hhi, hu, hd, ho⟩

/-! ### C73: points of the location table -/

/-- **C73** The fractions lie between 0.23 and 0.77. -/
theorem C73_factor {i : ℕ} (h : 2 ≤ i) (h' : i ≤ 10) : 0.23 < factor i ∧ factor i < 0.77 := by
  have h20 : 0 < Real.log 20 := Real.log_pos (by norm_num)
  have hi : (2:ℝ) ≤ i := by exact_mod_cast h
  have hi' : (i:ℝ) ≤ 10 := by exact_mod_cast h'
  have l1 : Real.log 2 ≤ Real.log i := Real.log_le_log (by norm_num) hi
  have l2 : Real.log i ≤ Real.log 10 := Real.log_le_log (by linarith) hi'
  unfold factor
  rw [lt_div_iff₀ h20, div_lt_iff₀ h20]
  have a1 : Real.log ((20:ℝ) ^ 23) < Real.log ((2:ℝ) ^ 100) := Real.log_lt_log (by positivity) (by norm_num)
  have a2 : Real.log ((10:ℝ) ^ 100) < Real.log ((20:ℝ) ^ 77) := Real.log_lt_log (by positivity) (by norm_num)
  rw [Real.log_pow, Real.log_pow] at a1 a2
  push_cast at a1 a2
  constructor <;> linarith

/-- **C73** Nine rows for every resolution at which the cell has corners. -/
theorem C73_row_count (centre : ℕ → ℝ × ℝ) (boundary : ℕ → List (ℝ × ℝ)) (ijk : ℕ → ℝ → ℝ → ℕ × ℕ × ℕ) (n : ℕ) (hb : ∀ r ≤ n, boundary r ≠ []) :
    (generatePoints centre boundary ijk n).length = 9 * (n + 1) := by
  unfold generatePoints
  rw [List.length_flatMap]
  rw [List.map_congr_left (g := fun _ => 9)]
  · simp [mul_comm]
  · intro r hr
    rw [List.mem_range] at hr
    have := hb r (by omega)
    cases hbr : boundary r with
    | nil => exact absurd hbr this
    | cons t ts => simp

/-- **C73** Every row lies between the centre of its cell and the first corner, at a fraction from 0.23 to 0.77, and lists the index of that same point: none is
nearer to the corner than 23 % of the way. -/
theorem C73_rows {centre : ℕ → ℝ × ℝ} {boundary : ℕ → List (ℝ × ℝ)} {ijk : ℕ → ℝ → ℝ → ℕ × ℕ × ℕ} {n : ℕ} {row : (ℝ × ℝ) × ℕ × (ℕ × ℕ × ℕ)}
    (h : row ∈ generatePoints centre boundary ijk n) :
    ∃ target t lat lng, row.2.1 ≤ n ∧ (boundary row.2.1).head? = some target ∧ 0.23 < t ∧ t < 0.77 ∧
      lat = (1 - t) * (centre row.2.1).1 + t * target.1 ∧ lng = (1 - t) * (centre row.2.1).2 + t * target.2 ∧
      row.1 = (radians lat, radians lng) ∧ row.2.2 = ijk row.2.1 lat lng ∧
      |target.1 - lat| = (1 - t) * |target.1 - (centre row.2.1).1| ∧ |target.2 - lng| = (1 - t) * |target.2 - (centre row.2.1).2| := by
  unfold generatePoints at h
  rw [List.mem_flatMap] at h
  obtain ⟨r, hr, h⟩ := h
  rw [List.mem_range] at hr
  cases hbr : boundary r with
  | nil => rw [hbr] at h; simp at h
  | cons target ts =>
    rw [hbr] at h
    simp only [List.mem_map, List.mem_range] at h
    obtain ⟨j, hj, rfl⟩ := h
    obtain ⟨f1, f2⟩ := C73_factor (i := j + 2) (by omega) (by omega)
    have e : ∀ c d : ℝ, between c d (factor (j + 2)) = (1 - factor (j + 2)) * c + factor (j + 2) * d := by intro c d; unfold between; ring
    have ab : ∀ c d : ℝ, |d - between c d (factor (j + 2))| = (1 - factor (j + 2)) * |d - c| := by
      intro c d
      have : d - between c d (factor (j + 2)) = (1 - factor (j + 2)) * (d - c) := by unfold between; ring
      rw [this, abs_mul, abs_of_pos (by norm_num at f2 ⊢; linarith)]
    refine ⟨target, factor (j + 2), _, _, by simp only; omega, by simp only [hbr, List.head?_cons], f1, f2, rfl, rfl, ?_, ?_, ?_, ?_⟩
    · simp only [← e, Prod.mk.injEq]
      constructor <;> (unfold between radians; ring)
    · simp only [← e]
    · simp only [← e]; exact ab _ _
    · simp only [← e]; exact ab _ _

/-- **C73** So the listed point is in every convex region that has the centre and the corner. -/
theorem C73_in_cell {centre : ℕ → ℝ × ℝ} {boundary : ℕ → List (ℝ × ℝ)} {ijk : ℕ → ℝ → ℝ → ℕ × ℕ × ℕ} {n : ℕ} {row : (ℝ × ℝ) × ℕ × (ℕ × ℕ × ℕ)}
    (h : row ∈ generatePoints centre boundary ijk n) (S : Set (ℝ × ℝ)) (hS : Convex ℝ S) (hc : centre row.2.1 ∈ S)
    (hb : ∀ t ∈ boundary row.2.1, t ∈ S) : ∃ lat lng, (lat, lng) ∈ S ∧ row.1 = (radians lat, radians lng) ∧ row.2.2 = ijk row.2.1 lat lng := by
  obtain ⟨target, t, lat, lng, _, hh, t1, t2, e1, e2, e3, e4, _⟩ := C73_rows h
  refine ⟨lat, lng, ?_, e3, e4⟩
  have := hS hc (hb target (List.mem_of_mem_head? hh)) (a := 1 - t) (b := t) (by norm_num at t2 ⊢; linarith) (by norm_num at t1 ⊢; linarith) (by ring)
  rw [e1, e2]
  exact this

/-- A table with rows: a cell around the origin with a corner at (1, 1). -/
example : ∃ row, row ∈ generatePoints (fun _ => (0, 0)) (fun _ => [(1, 1), (-1, 1), (0, -1)]) (fun r _ _ => (r, 0, 0)) 15 := by
  have h := C73_row_count (fun _ => (0, 0)) (fun _ => [(1, 1), (-1, 1), (0, -1)]) (fun r _ _ => (r, 0, 0)) 15 (by simp)
  exact List.exists_mem_of_length_pos (by rw [h]; norm_num)

end ZkLoc.TableGen
