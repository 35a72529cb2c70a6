import Verif.Spec.Ieee

/-!
# Checking that a bit pattern is the correctly rounded value of a decimal constant
-/

namespace ZkLoc

open Ieee (Datum)

/-- Integer test: the bit pattern `v` (a normal number below `2^M`) is the nearest number to every `± x` with `lo / den ≤ x ≤ hi / den`. -/
def nearestBits (E M : ℕ) (neg : Bool) (lo hi den v : ℕ) : Bool :=
  let e := v / 2 ^ M % 2 ^ E
  let m := v % 2 ^ M
  let j := 2 ^ (E - 1) - 1 + M - e
  decide (v.testBit (E + M) = neg) && decide (0 < e) && decide (e < 2 ^ (E - 1) + M) && decide (e < 2 ^ E - 1) && decide (0 < den) &&
    decide (2 ^ M * den ≤ lo * 2 ^ j) && decide (2 * (hi * 2 ^ j) < (2 * (2 ^ M + m) + 1) * den) &&
    decide ((2 * (2 ^ M + m) - 1) * den < 2 * (lo * 2 ^ j)) && decide (e + 1 < 2 ^ E - 1)

theorem nearestBits_rounds {E M : ℕ} (hE : 1 ≤ E) (hM : 1 ≤ M) {neg : Bool} {lo hi den v : ℕ} {x : ℝ} (h : nearestBits E M neg lo hi den v = true)
    (hlo : (lo:ℝ) / den ≤ x) (hhi : x ≤ hi / den) : Ieee.RoundsTo ⟨E, M⟩ neg x (Ieee.decodeBits ⟨E, M⟩ v) := by
  unfold nearestBits at h
  simp only [Bool.and_eq_true, decide_eq_true_eq] at h
  obtain ⟨⟨⟨⟨⟨⟨⟨⟨h1, h2⟩, h3⟩, h4⟩, h5⟩, h6⟩, h7⟩, h8⟩, h9⟩ := h
  generalize he : v / 2 ^ M % 2 ^ E = e at *
  generalize hm : v % 2 ^ M = m at *
  have hmlt : m < 2 ^ M := by rw [← hm]; exact Nat.mod_lt _ (by positivity)
  obtain ⟨j, hj⟩ : ∃ j, j = 2 ^ (E - 1) - 1 + M - e := ⟨_, rfl⟩
  rw [← hj] at h6 h7 h8
  have hpE : 1 ≤ 2 ^ (E - 1) := Nat.one_le_two_pow
  have hbias : (Ieee.Format.bias ⟨E, M⟩ : ℤ) = ((2 ^ (E - 1) : ℕ) : ℤ) - 1 := by unfold Ieee.Format.bias; push_cast; rfl
  have hk : (e : ℤ) - Ieee.Format.bias ⟨E, M⟩ - M = -(j : ℤ) := by rw [hbias]; omega
  have hd : (0:ℝ) < den := by exact_mod_cast h5
  have hP : (0:ℝ) < 2 ^ j := by positivity
  have hdec : Ieee.decodeBits ⟨E, M⟩ v = .fin neg (((2 ^ M + m : ℕ) : ℝ) * (2:ℝ) ^ (-(j : ℤ))) := by
    unfold Ieee.decodeBits
    simp only [he, hm, h1]
    rw [if_neg (by omega), if_neg (by omega), hk]
    push_cast; rfl
  have hzp : (2:ℝ) ^ (-(j:ℤ)) = 1 / 2 ^ j := by rw [zpow_neg, zpow_natCast, one_div]
  have e6 : (2:ℝ) ^ M * den ≤ lo * 2 ^ j := by exact_mod_cast h6
  have e7 : 2 * ((hi:ℝ) * 2 ^ j) < (2 * (2 ^ M + m) + 1) * den := by exact_mod_cast h7
  have e8 : (2 * ((2:ℝ) ^ M + m) - 1) * den < 2 * (lo * 2 ^ j) := by
    have h8' : ((2 * (2 ^ M + m)) * den : ℕ) < 2 * (lo * 2 ^ j) + den := by
      rw [Nat.sub_mul, one_mul] at h8
      have : den ≤ 2 * (2 ^ M + m) * den := Nat.le_mul_of_pos_left _ (by positivity)
      omega
    have : (2 * ((2:ℝ) ^ M + m)) * den < 2 * (lo * 2 ^ j) + den := by exact_mod_cast h8'
    linarith
  rw [div_le_iff₀ hd] at hlo
  rw [le_div_iff₀ hd] at hhi
  have hl : (lo:ℝ) * 2 ^ j ≤ x * 2 ^ j * den := by nlinarith
  have hh : x * 2 ^ j * den ≤ (hi:ℝ) * 2 ^ j := by nlinarith
  have u7 : 2 * (x * 2 ^ j) < 2 * (2 ^ M + m) + 1 := by
    by_contra hc
    push Not at hc
    nlinarith
  have u8 : 2 * ((2:ℝ) ^ M + m) - 1 < 2 * (x * 2 ^ j) := by
    by_contra hc
    push Not at hc
    nlinarith
  have u6 : (2:ℝ) ^ M ≤ x * 2 ^ j := by
    by_contra hc
    push Not at hc
    nlinarith
  have hdist : |x - ((2 ^ M + m : ℕ) : ℝ) * (2:ℝ) ^ (-(j : ℤ))| < (2:ℝ) ^ (-(j:ℤ)) / 2 := by
    rw [hzp, abs_lt]
    push_cast
    have hQ : (0:ℝ) < 1 / 2 ^ j := by positivity
    have hPQ : (2:ℝ) ^ j * (1 / 2 ^ j) = 1 := by field_simp
    have hx' : x = (x * 2 ^ j) * (1 / 2 ^ j) := by rw [mul_assoc, hPQ, mul_one]
    generalize (1:ℝ) / 2 ^ j = Q at *
    constructor
    · rw [hx']; nlinarith
    · rw [hx']; nlinarith
  have hlow : (2:ℝ) ^ M * 2 ^ (-(j:ℤ)) ≤ x := by
    rw [hzp]
    rw [mul_one_div, div_le_iff₀ hP]
    exact u6
  refine ⟨((2 ^ M + m : ℕ) : ℝ) * (2:ℝ) ^ (-(j : ℤ)), ?_, fun _ => hdec, fun hge => ?_⟩
  · refine Ieee.isRNE_of_quantum (F := ⟨E, M⟩) hM ?_ ?_ hdist.le (fun h => absurd h hdist.ne) (Or.inr hlow)
    · unfold Ieee.Format.qmin Ieee.Format.emin
      simp only [hbias]
      omega
    · simp only [pow_succ]; omega
  · exfalso
    have h0 : ((2 ^ M + m : ℕ) : ℝ) * (2:ℝ) ^ (-(j : ℤ)) < 2 ^ (M + 1) * (2:ℝ) ^ (-(j:ℤ)) := by
      refine mul_lt_mul_of_pos_right ?_ (by positivity)
      exact_mod_cast (show 2 ^ M + m < 2 ^ (M + 1) by rw [pow_succ]; omega)
    have h1' : (2:ℝ) ^ (M + 1) * (2:ℝ) ^ (-(j:ℤ)) = 2 ^ (((M + 1 : ℕ) : ℤ) + -(j:ℤ)) := by
      rw [zpow_add₀ (by norm_num), zpow_natCast]
    have h2' : (2:ℝ) ^ (((M + 1 : ℕ) : ℤ) + -(j:ℤ)) ≤ 2 ^ (Ieee.Format.bias ⟨E, M⟩ + 1) := by
      refine zpow_le_zpow_right₀ (by norm_num) ?_
      have hEE : 2 ^ E = 2 * 2 ^ (E - 1) := by
        obtain ⟨t, rfl⟩ : ∃ t, E = t + 1 := ⟨E - 1, by omega⟩
        rw [pow_succ, Nat.add_sub_cancel, mul_comm]
      rw [hbias]
      push_cast
      have : (e:ℤ) + 1 < ((2 ^ E : ℕ):ℤ) - 1 := by omega
      have hj' : (j:ℤ) = ((2 ^ (E - 1) : ℕ):ℤ) - 1 + M - e := by omega
      push_cast at this hj'
      have hEE' : (2:ℤ) ^ E = 2 * 2 ^ (E - 1) := by exact_mod_cast hEE
      omega
    linarith [hge]

/-- Integer test: the bit pattern `v` (a normal number below `2^(M+1)`) is the number `± num / den`. -/
def exactBits (E M : ℕ) (neg : Bool) (num den v : ℕ) : Bool :=
  let e := v / 2 ^ M % 2 ^ E
  let m := v % 2 ^ M
  let j := 2 ^ (E - 1) - 1 + M - e
  decide (v.testBit (E + M) = neg) && decide (0 < e) && decide (e < 2 ^ (E - 1) + M) && decide (e < 2 ^ E - 1) && decide (0 < den) &&
    decide ((2 ^ M + m) * den = num * 2 ^ j)

theorem exactBits_decode {E M : ℕ} {neg : Bool} {num den v : ℕ} (h : exactBits E M neg num den v = true) :
    Ieee.decodeBits ⟨E, M⟩ v = .fin neg (num / den) := by
  unfold exactBits at h
  simp only [Bool.and_eq_true, decide_eq_true_eq] at h
  obtain ⟨⟨⟨⟨⟨h1, h2⟩, h3⟩, h4⟩, h5⟩, h6⟩ := h
  generalize he : v / 2 ^ M % 2 ^ E = e at *
  generalize hm : v % 2 ^ M = m at *
  obtain ⟨j, hj⟩ : ∃ j, j = 2 ^ (E - 1) - 1 + M - e := ⟨_, rfl⟩
  rw [← hj] at h6
  have hpE : 1 ≤ 2 ^ (E - 1) := Nat.one_le_two_pow
  have hbias : (Ieee.Format.bias ⟨E, M⟩ : ℤ) = ((2 ^ (E - 1) : ℕ) : ℤ) - 1 := by unfold Ieee.Format.bias; push_cast; rfl
  have hk : (e : ℤ) - Ieee.Format.bias ⟨E, M⟩ - M = -(j : ℤ) := by rw [hbias]; omega
  have hd : (0:ℝ) < den := by exact_mod_cast h5
  unfold Ieee.decodeBits
  simp only [he, hm, h1]
  rw [if_neg (by omega), if_neg (by omega), hk, zpow_neg, zpow_natCast]
  congr 1
  have h6' : ((2:ℝ) ^ M + m) * den = num * 2 ^ j := by exact_mod_cast h6
  field_simp
  linarith

end ZkLoc
