import Mathlib.Analysis.Real.Sqrt
import Mathlib.Data.EReal.Basic
import Mathlib.Tactic.Ring
import Mathlib.Tactic.Linarith
import Mathlib.Tactic.NormNum
import Mathlib.Algebra.Order.Field.Power

/-!
# Specification: IEEE-754 binary floating-point data and operations

Written from the IEEE-754 standard, independent of the model of the code. A format has `E` exponent
bits and `M` fraction bits (`Format`). Data are real numbers (with a sign for zero), infinities and NaN;
operations are specified as relations through `IsRNE`: nearest representable number, ties to the
even significand; a rounded magnitude of at least `2^(emax+1)` becomes infinity.
-/

namespace Ieee

/-- A binary interchange format. -/
structure Format where
  E : ℕ
  M : ℕ

namespace Format
/-- Exponent bias (= largest exponent) `2^(E-1) - 1`. -/
def bias (F : Format) : ℤ := 2 ^ (F.E - 1) - 1
/-- Smallest normal exponent. -/
def emin (F : Format) : ℤ := 1 - F.bias
/-- Exponent of the unit in the last place of subnormal numbers. -/
def qmin (F : Format) : ℤ := F.emin - F.M
end Format

/-- IEEE data; `mag` is the (non-negative) magnitude. -/
inductive Datum
  | nan
  | inf (neg : Bool)
  | fin (neg : Bool) (mag : ℝ)

/-- The datum encoded by a bit pattern: sign bit, `E` biased exponent bits, `M` fraction bits. -/
noncomputable def decodeBits (F : Format) (v : ℕ) : Datum :=
  let s : Bool := v.testBit (F.E + F.M)
  let e : ℕ := v / 2 ^ F.M % 2 ^ F.E
  let m : ℕ := v % 2 ^ F.M
  if e = 2 ^ F.E - 1 then (if m = 0 then .inf s else .nan)
  else if e = 0 then .fin s (m * (2:ℝ) ^ F.qmin)
  else .fin s ((2 ^ F.M + m) * (2:ℝ) ^ (e - F.bias - F.M))

/-- Magnitudes representable with `M+1` significant bits and the format's smallest quantum (exponent not
bounded above, as IEEE-754 prescribes for the intermediate rounding). -/
def Representable (F : Format) (q : ℝ) : Prop :=
  ∃ (n : ℕ) (k : ℤ), n < 2 ^ (F.M + 1) ∧ F.qmin ≤ k ∧ q = n * (2:ℝ) ^ k

/-- The significand, in the (unique) normalised representation, is even. -/
def EvenSignificand (F : Format) (q : ℝ) : Prop :=
  ∃ (n : ℕ) (k : ℤ), n < 2 ^ (F.M + 1) ∧ F.qmin ≤ k ∧ (2 ^ F.M ≤ n ∨ k = F.qmin) ∧ Even n ∧
    q = n * (2:ℝ) ^ k

/-- `r` is `v` rounded to nearest, ties to even. -/
structure IsRNE (F : Format) (v r : ℝ) : Prop where
  repr : Representable F r
  nearest : ∀ q, Representable F q → |v - r| ≤ |v - q|
  tie : ∀ q, Representable F q → q ≠ r → |v - q| = |v - r| → EvenSignificand F r

/-- The exact result `± v` (`v ≥ 0`) delivered in the format. -/
def RoundsTo (F : Format) (neg : Bool) (v : ℝ) (d : Datum) : Prop :=
  ∃ r, IsRNE F v r ∧ (r < 2 ^ (F.bias + 1) → d = .fin neg r) ∧ ((2:ℝ) ^ (F.bias + 1) ≤ r → d = .inf neg)

/-- Signed real value. -/
def signed (neg : Bool) (a : ℝ) : ℝ := if neg then -a else a

/-- IEEE addition. -/
def Add (F : Format) : Datum → Datum → Datum → Prop
  | .nan, _, d => d = .nan
  | _, .nan, d => d = .nan
  | .inf s, .inf t, d => d = if s = t then .inf s else .nan
  | .inf s, .fin _ _, d => d = .inf s
  | .fin _ _, .inf t, d => d = .inf t
  | .fin s a, .fin t b, d =>
    (signed s a + signed t b = 0 → d = .fin (if s = t then s else false) 0) ∧
    (signed s a + signed t b ≠ 0 → RoundsTo F (decide (signed s a + signed t b < 0)) |signed s a + signed t b| d)

/-- IEEE negation of a datum. -/
def Datum.neg : Datum → Datum
  | .nan => .nan
  | .inf s => .inf (!s)
  | .fin s a => .fin (!s) a

/-- IEEE absolute value of a datum. -/
def Datum.abs : Datum → Datum
  | .nan => .nan
  | .inf _ => .inf false
  | .fin _ a => .fin false a

/-- IEEE subtraction. -/
def Sub (F : Format) : Datum → Datum → Datum → Prop
  | .nan, _, d => d = .nan
  | _, .nan, d => d = .nan
  | .inf s, .inf t, d => d = if s = t then .nan else .inf s
  | .inf s, .fin _ _, d => d = .inf s
  | .fin _ _, .inf t, d => d = .inf (!t)
  | .fin s a, .fin t b, d =>
    (signed s a - signed t b = 0 → d = .fin (if s = t then false else s) 0) ∧
    (signed s a - signed t b ≠ 0 → RoundsTo F (decide (signed s a - signed t b < 0)) |signed s a - signed t b| d)

/-- IEEE multiplication. -/
def Mul (F : Format) : Datum → Datum → Datum → Prop
  | .nan, _, d => d = .nan
  | _, .nan, d => d = .nan
  | .inf s, .inf t, d => d = .inf (xor s t)
  | .inf s, .fin t b, d => (b = 0 → d = .nan) ∧ (b ≠ 0 → d = .inf (xor s t))
  | .fin s a, .inf t, d => (a = 0 → d = .nan) ∧ (a ≠ 0 → d = .inf (xor s t))
  | .fin s a, .fin t b, d => RoundsTo F (xor s t) (a * b) d

/-- IEEE division. -/
def Div (F : Format) : Datum → Datum → Datum → Prop
  | .nan, _, d => d = .nan
  | _, .nan, d => d = .nan
  | .inf _, .inf _, d => d = .nan
  | .inf s, .fin t _, d => d = .inf (xor s t)
  | .fin s _, .inf t, d => d = .fin (xor s t) 0
  | .fin s a, .fin t b, d =>
    (b = 0 → a = 0 → d = .nan) ∧ (b = 0 → a ≠ 0 → d = .inf (xor s t)) ∧
    (b ≠ 0 → RoundsTo F (xor s t) (a / b) d)

/-- IEEE square root. -/
def Sqrt (F : Format) : Datum → Datum → Prop
  | .nan, d => d = .nan
  | .inf s, d => d = if s then .nan else .inf false
  | .fin s a, d =>
    (a = 0 → d = .fin s 0) ∧ (a ≠ 0 → s = true → d = .nan) ∧ (a ≠ 0 → s = false → RoundsTo F false (Real.sqrt a) d)

/-- Extended real value of a datum, `none` for NaN. -/
noncomputable def Datum.value : Datum → Option EReal
  | .nan => none
  | .inf s => some (if s then ⊥ else ⊤)
  | .fin s a => some ((signed s a : ℝ) : EReal)

/-- IEEE `<` (false if an operand is NaN). -/
def Lt (x y : Datum) : Prop := ∃ a b, x.value = some a ∧ y.value = some b ∧ a < b
/-- IEEE `≤` (false if an operand is NaN). -/
def Le (x y : Datum) : Prop := ∃ a b, x.value = some a ∧ y.value = some b ∧ a ≤ b

/-- Rounding to an integral value by the given integer function (`⌊·⌋`, `⌈·⌉`, truncation); the sign is
kept (IEEE-754 roundToIntegral: also for a zero result). -/
def Integral (g : ℝ → ℤ) : Datum → Datum → Prop
  | .nan, d => d = .nan
  | .inf s, d => d = .inf s
  | .fin s a, d => d = .fin s |((g (signed s a) : ℤ) : ℝ)|

/-- Round towards zero. -/
noncomputable def truncZ (v : ℝ) : ℤ := if 0 ≤ v then ⌊v⌋ else ⌈v⌉

/-- `c` is the next representable magnitude above `a`. -/
def Adjacent (F : Format) (a c : ℝ) : Prop := a < c ∧ ∀ q, Representable F q → ¬ (a < q ∧ q < c)

/-- `a` is the largest finite magnitude of the format. -/
def IsMax (F : Format) (a : ℝ) : Prop :=
  Representable F a ∧ a < 2 ^ (F.bias + 1) ∧ ∀ q, Representable F q → q < 2 ^ (F.bias + 1) → q ≤ a

/-- `y` is the datum following `x` away from zero, `x` being a normal number: the next finite number, or
infinity after the largest one. -/
def NextAway (F : Format) (x y : Datum) : Prop :=
  ∃ s a, x = .fin s a ∧ 2 ^ F.emin ≤ a ∧ ((∃ c, y = .fin s c ∧ Adjacent F a c) ∨ (y = .inf s ∧ IsMax F a))

/-! ### The rounding relation determines its result -/

variable {F : Format}

theorem Representable.nonneg {q : ℝ} (h : Representable F q) : 0 ≤ q := by
  obtain ⟨n, k, _, _, rfl⟩ := h; positivity

/-- Multiples of `2^k` up to `2^(M+1) * 2^k` are representable. -/
theorem representable_mul {n : ℕ} {k : ℤ} (hn : n ≤ 2 ^ (F.M + 1)) (hk : F.qmin ≤ k) :
    Representable F (n * (2:ℝ) ^ k) := by
  rcases Nat.lt_or_ge n (2 ^ (F.M + 1)) with h | h
  · exact ⟨n, k, h, hk, rfl⟩
  · have : n = 2 ^ (F.M + 1) := le_antisymm hn h
    subst this
    refine ⟨2 ^ F.M, k + 1, Nat.pow_lt_pow_right (by norm_num) (by omega), by omega, ?_⟩
    rw [zpow_add₀ (by norm_num)]; push_cast; ring

/-- A representable number of size at least `2^M * 2^k`, or any representable number if `k` is the
smallest quantum, is a multiple of `2^k`. -/
theorem Representable.multiple {q : ℝ} (h : Representable F q) {k : ℤ}
    (hk : k = F.qmin ∨ (2:ℝ) ^ F.M * 2 ^ k ≤ q) : ∃ n : ℕ, q = n * (2:ℝ) ^ k := by
  obtain ⟨n, j, hn, hj, rfl⟩ := h
  have hkj : k ≤ j := by
    rcases hk with rfl | hk
    · exact hj
    · by_contra hlt
      have h1 : (2:ℝ) ^ j * 2 ≤ 2 ^ k := by
        rw [← zpow_add_one₀ (by norm_num)]
        exact zpow_le_zpow_right₀ (by norm_num) (by omega)
      have h2 : (n:ℝ) < 2 ^ (F.M + 1) := by exact_mod_cast hn
      have h3 : (0:ℝ) < 2 ^ j := by positivity
      have h4 : (2:ℝ) ^ F.M * (2 ^ j * 2) ≤ 2 ^ F.M * 2 ^ k := mul_le_mul_of_nonneg_left h1 (by positivity)
      have h5 : (n:ℝ) * 2 ^ j < 2 ^ (F.M + 1) * 2 ^ j := mul_lt_mul_of_pos_right h2 h3
      have h6 : (2:ℝ) ^ (F.M + 1) * 2 ^ j = 2 ^ F.M * (2 ^ j * 2) := by rw [pow_succ]; ring
      linarith
  obtain ⟨d, rfl⟩ : ∃ d : ℕ, j = k + d := ⟨(j - k).toNat, by omega⟩
  refine ⟨n * 2 ^ d, ?_⟩
  rw [zpow_add₀ (by norm_num), zpow_natCast]; push_cast; ring

/-- Rounding at quantum `2^k`: a criterion for `IsRNE`. -/
theorem isRNE_of_quantum (hM : 1 ≤ F.M) {v : ℝ} {n : ℕ} {k : ℤ} (hk : F.qmin ≤ k) (hn : n ≤ 2 ^ (F.M + 1))
    (hd : |v - n * (2:ℝ) ^ k| ≤ 2 ^ k / 2) (ht : |v - n * (2:ℝ) ^ k| = 2 ^ k / 2 → Even n)
    (hv : k = F.qmin ∨ (2:ℝ) ^ F.M * 2 ^ k ≤ v) : IsRNE F v (n * (2:ℝ) ^ k) := by
  have hP : (0:ℝ) < 2 ^ k := by positivity
  -- distance to other multiples of the quantum
  have hmult : ∀ m : ℕ, m ≠ n → (2:ℝ) ^ k / 2 ≤ |v - m * (2:ℝ) ^ k| := by
    intro m hmn
    have h1 : (2:ℝ) ^ k ≤ |(n:ℝ) * 2 ^ k - m * 2 ^ k| := by
      rw [← sub_mul, abs_mul, abs_of_pos hP]
      have : (1:ℝ) ≤ |(n:ℝ) - m| := by
        have h0 : (1:ℤ) ≤ |(n:ℤ) - m| := Int.one_le_abs (by omega)
        exact_mod_cast h0
      nlinarith
    have h2 : |(n:ℝ) * 2 ^ k - m * 2 ^ k| ≤ |v - n * 2 ^ k| + |v - m * 2 ^ k| := by
      have : (n:ℝ) * 2 ^ k - m * 2 ^ k = -(v - n * 2 ^ k) + (v - m * 2 ^ k) := by ring
      rw [this]
      refine le_trans (abs_add_le _ _) ?_
      rw [abs_neg]
    linarith
  -- every representable number is a multiple of the quantum or strictly farther away
  have hrep : ∀ q, Representable F q → (∃ m : ℕ, q = m * (2:ℝ) ^ k) ∨ |v - n * 2 ^ k| < |v - q| := by
    intro q hq
    rcases hv with hv | hv
    · exact Or.inl (hq.multiple (Or.inl hv))
    · rcases le_or_gt ((2:ℝ) ^ F.M * 2 ^ k) q with h | h
      · exact Or.inl (hq.multiple (Or.inr h))
      · right
        have h1 : |v - n * 2 ^ k| ≤ |v - ((2 ^ F.M : ℕ) : ℝ) * 2 ^ k| := by
          by_cases he : 2 ^ F.M = n
          · rw [he]
          · exact le_trans hd (hmult _ he)
        push_cast at h1
        rw [abs_of_nonneg (by linarith : (0:ℝ) ≤ v - 2 ^ F.M * 2 ^ k)] at h1
        rw [abs_of_nonneg (by linarith : (0:ℝ) ≤ v - q)]
        linarith
  refine ⟨representable_mul hn hk, ?_, ?_⟩
  · intro q hq
    rcases hrep q hq with ⟨m, rfl⟩ | h
    · by_cases he : m = n
      · rw [he]
      · exact le_trans hd (hmult m he)
    · exact h.le
  · intro q hq hne heq
    rcases hrep q hq with ⟨m, rfl⟩ | h
    · have hmn : m ≠ n := by rintro rfl; exact hne rfl
      have h1 := hmult m hmn
      have heven : Even n := ht (le_antisymm hd (by rw [← heq]; exact h1))
      rcases Nat.lt_or_ge n (2 ^ (F.M + 1)) with hlt | hge
      · refine ⟨n, k, hlt, hk, ?_, heven, rfl⟩
        rcases hv with hv | hv
        · exact Or.inr hv
        · left
          by_contra hlt2
          have h2 : (n:ℝ) + 1 ≤ 2 ^ F.M := by
            have : n + 1 ≤ 2 ^ F.M := by omega
            exact_mod_cast this
          have h3 : ((n:ℝ) + 1) * 2 ^ k ≤ v := le_trans (mul_le_mul_of_nonneg_right h2 hP.le) hv
          have h4 := (abs_le.1 hd).2
          nlinarith
      · have hn' : n = 2 ^ (F.M + 1) := le_antisymm hn hge
        subst hn'
        refine ⟨2 ^ F.M, k + 1, Nat.pow_lt_pow_right (by norm_num) (by omega), by omega, Or.inl le_rfl,
          (Nat.even_pow.2 ⟨even_two, by omega⟩), ?_⟩
        rw [zpow_add₀ (by norm_num)]; push_cast; ring
    · exact absurd heq (ne_of_gt h)

/-- The normalised representation is unique. -/
theorem normal_unique {n m : ℕ} {k j : ℤ} (hn : n < 2 ^ (F.M + 1)) (hm : m < 2 ^ (F.M + 1))
    (hk : F.qmin ≤ k) (hj : F.qmin ≤ j) (hnk : 2 ^ F.M ≤ n ∨ k = F.qmin) (hmj : 2 ^ F.M ≤ m ∨ j = F.qmin)
    (h : (n:ℝ) * 2 ^ k = m * 2 ^ j) : n = m ∧ k = j := by
  have key : ∀ {n m : ℕ} {k j : ℤ}, n < 2 ^ (F.M + 1) → F.qmin ≤ k → (2 ^ F.M ≤ m ∨ j = F.qmin) →
      (n:ℝ) * 2 ^ k = m * 2 ^ j → j ≤ k := by
    intro n m k j hn hk hmj h
    rcases hmj with hmj | hmj
    · by_contra hlt
      obtain ⟨d, rfl⟩ : ∃ d : ℕ, j = k + 1 + d := ⟨(j - k - 1).toNat, by omega⟩
      have h1 : (n:ℝ) * 2 ^ k = (m * 2 * 2 ^ d) * 2 ^ k := by
        rw [h, zpow_add₀ (by norm_num), zpow_add₀ (by norm_num), zpow_natCast]; ring
      have h2 : (n:ℝ) = m * 2 * 2 ^ d := mul_right_cancel₀ (by positivity) h1
      have h3 : n = m * 2 * 2 ^ d := by exact_mod_cast h2
      have h4 : m * 2 * 1 ≤ m * 2 * 2 ^ d := Nat.mul_le_mul_left _ Nat.one_le_two_pow
      rw [pow_succ] at hn
      omega
    · omega
  have h1 := key hn hk hmj h
  have h2 := key hm hj hnk h.symm
  have h3 : k = j := le_antisymm h2 h1
  subst h3
  refine ⟨?_, rfl⟩
  have : (n:ℝ) = m := mul_right_cancel₀ (by positivity) h
  exact_mod_cast this

/-- Every representable number has a normalised representation. -/
theorem Representable.normalised {q : ℝ} (h : Representable F q) :
    ∃ (n : ℕ) (k : ℤ), n < 2 ^ (F.M + 1) ∧ F.qmin ≤ k ∧ (2 ^ F.M ≤ n ∨ k = F.qmin) ∧ q = n * (2:ℝ) ^ k := by
  obtain ⟨n, k, hn, hk, rfl⟩ := h
  obtain ⟨d, rfl⟩ : ∃ d : ℕ, k = F.qmin + d := ⟨(k - F.qmin).toNat, by omega⟩
  clear hk
  induction d generalizing n with
  | zero => exact ⟨n, F.qmin, hn, le_rfl, Or.inr rfl, by simp⟩
  | succ d ih =>
    by_cases h : 2 ^ F.M ≤ n
    · exact ⟨n, _, hn, by omega, Or.inl h, rfl⟩
    · obtain ⟨m, j, h1, h2, h3, h4⟩ := ih (2 * n) (by rw [pow_succ]; omega)
      refine ⟨m, j, h1, h2, h3, ?_⟩
      rw [← h4]; push_cast
      rw [show F.qmin + ((d:ℤ) + 1) = F.qmin + d + 1 by ring, zpow_add_one₀ (by norm_num)]; ring

/-- **Rounding is a function**: `IsRNE` determines its result. -/
theorem IsRNE.unique {v r r' : ℝ} (h : IsRNE F v r) (h' : IsRNE F v r') : r = r' := by
  by_contra hne
  -- w.l.o.g. `r < r'`
  have key : ∀ {r r' : ℝ}, IsRNE F v r → IsRNE F v r' → r < r' → False := by
    intro r r' h h' hlt
    have hd : |v - r| = |v - r'| := le_antisymm (h.nearest r' h'.repr) (h'.nearest r h.repr)
    have hmid : v = (r + r') / 2 := by
      rcases abs_eq_abs.1 hd with h | h <;> linarith
    have e1 := h.tie r' h'.repr (ne_of_gt hlt) hd.symm
    have e2 := h'.tie r h.repr (ne_of_lt hlt) hd
    obtain ⟨n, k, hn, hk, hnk, hev, rfl⟩ := e1
    have hP : (0:ℝ) < 2 ^ k := by positivity
    -- `r'` is a multiple of `2^k`, at least the next one, and not beyond it
    have hmul : ∃ m : ℕ, r' = m * (2:ℝ) ^ k := by
      apply h'.repr.multiple
      rcases hnk with hnk | hnk
      · right
        have : ((2 ^ F.M : ℕ) : ℝ) * 2 ^ k ≤ n * 2 ^ k := mul_le_mul_of_nonneg_right (by exact_mod_cast hnk) hP.le
        push_cast at this
        linarith
      · exact Or.inl hnk
    obtain ⟨m, rfl⟩ := hmul
    have hnm : n < m := by
      have := lt_of_mul_lt_mul_right hlt hP.le
      exact_mod_cast this
    have hrs := representable_mul (F := F) (n := n + 1) (k := k) (by omega) hk
    have hm1 : m = n + 1 := by
      by_contra hne2
      have h1 : n + 1 < m := by omega
      have h2 : ((n + 1 : ℕ) : ℝ) * 2 ^ k < m * 2 ^ k := mul_lt_mul_of_pos_right (by exact_mod_cast h1) hP
      have h3 : (n:ℝ) * 2 ^ k < ((n + 1 : ℕ) : ℝ) * 2 ^ k := mul_lt_mul_of_pos_right (by push_cast; linarith) hP
      have h4 := h.nearest _ hrs
      rw [hmid, abs_of_pos (by linarith)] at h4
      have := abs_lt.2 (⟨by linarith, by linarith⟩ : -((↑n * (2:ℝ) ^ k + ↑m * 2 ^ k) / 2 - ↑n * 2 ^ k) < (↑n * (2:ℝ) ^ k + ↑m * 2 ^ k) / 2 - ↑(n + 1) * 2 ^ k ∧
        (↑n * (2:ℝ) ^ k + ↑m * 2 ^ k) / 2 - ↑(n + 1) * 2 ^ k < ((↑n * (2:ℝ) ^ k + ↑m * 2 ^ k) / 2 - ↑n * 2 ^ k))
      linarith
    subst hm1
    obtain ⟨m', k', hm', hk', hmk', hev', heq⟩ := e2
    rcases Nat.lt_or_ge (n + 1) (2 ^ (F.M + 1)) with hlt2 | hge
    · have := normal_unique hlt2 hm' hk hk' (by rcases hnk with h | h <;> [left; right] <;> omega) hmk' heq
      rw [← this.1] at hev'
      exact (Nat.not_even_iff_odd.2 hev.add_one) hev'
    · have h1 : n + 1 = 2 ^ (F.M + 1) := by omega
      have : Even (n + 1) := by rw [h1, pow_succ]; exact even_two.mul_left _
      exact (Nat.not_even_iff_odd.2 hev.add_one) this
  rcases lt_or_gt_of_ne hne with hlt | hlt
  · exact key h h' hlt
  · exact key h' h hlt

theorem RoundsTo.unique {s : Bool} {v : ℝ} {d d' : Datum} (h : RoundsTo F s v d) (h' : RoundsTo F s v d') :
    d = d' := by
  obtain ⟨r, h1, h2, h3⟩ := h
  obtain ⟨r', h1', h2', h3'⟩ := h'
  obtain rfl := h1.unique h1'
  rcases lt_or_ge r ((2:ℝ) ^ (F.bias + 1)) with h | h
  · rw [h2 h, h2' h]
  · rw [h3 h, h3' h]

/-- A representable number rounds to itself. -/
theorem Representable.isRNE {r : ℝ} (h : Representable F r) : IsRNE F r r := by
  refine ⟨h, fun q _ => by simp, fun q _ hne heq => ?_⟩
  rw [sub_self, abs_zero, abs_eq_zero, sub_eq_zero] at heq
  exact absurd heq.symm hne

/-- The operations are functions of their operands. -/
theorem Add.unique {x y d d' : Datum} (h : Add F x y d) (h' : Add F x y d') : d = d' := by
  cases x <;> cases y <;> simp only [Add] at h h' <;> try (rw [h, h'])
  rename_i s a t b
  by_cases h0 : signed s a + signed t b = 0
  · rw [h.1 h0, h'.1 h0]
  · exact (h.2 h0).unique (h'.2 h0)

theorem Sub.unique {x y d d' : Datum} (h : Sub F x y d) (h' : Sub F x y d') : d = d' := by
  cases x <;> cases y <;> simp only [Sub] at h h' <;> try (rw [h, h'])
  rename_i s a t b
  by_cases h0 : signed s a - signed t b = 0
  · rw [h.1 h0, h'.1 h0]
  · exact (h.2 h0).unique (h'.2 h0)

theorem Mul.unique {x y d d' : Datum} (h : Mul F x y d) (h' : Mul F x y d') : d = d' := by
  cases x <;> cases y <;> simp only [Mul] at h h' <;> try (rw [h, h'])
  · rename_i s t b
    by_cases h0 : b = 0
    · rw [h.1 h0, h'.1 h0]
    · rw [h.2 h0, h'.2 h0]
  · rename_i s a t
    by_cases h0 : a = 0
    · rw [h.1 h0, h'.1 h0]
    · rw [h.2 h0, h'.2 h0]
  · exact h.unique h'

theorem Div.unique {x y d d' : Datum} (h : Div F x y d) (h' : Div F x y d') : d = d' := by
  cases x <;> cases y <;> simp only [Div] at h h' <;> try (rw [h, h'])
  rename_i s a t b
  by_cases h0 : b = 0
  · by_cases h1 : a = 0
    · rw [h.1 h0 h1, h'.1 h0 h1]
    · rw [h.2.1 h0 h1, h'.2.1 h0 h1]
  · exact (h.2.2 h0).unique (h'.2.2 h0)

theorem Sqrt.unique {x d d' : Datum} (h : Sqrt F x d) (h' : Sqrt F x d') : d = d' := by
  cases x <;> simp only [Sqrt] at h h' <;> try (rw [h, h'])
  rename_i s a
  by_cases h0 : a = 0
  · rw [h.1 h0, h'.1 h0]
  · cases s
    · exact (h.2.2 h0 rfl).unique (h'.2.2 h0 rfl)
    · rw [h.2.1 h0 rfl, h'.2.1 h0 rfl]

theorem Integral.unique {g : ℝ → ℤ} {x d d' : Datum} (h : Integral g x d) (h' : Integral g x d') : d = d' := by
  cases x <;> simp only [Integral] at h h' <;> rw [h, h']

end Ieee
