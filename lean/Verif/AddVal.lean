import Verif.MulVal

/-!
# Helper lemmas: `Add` at integer level computes the IEEE sum
-/

namespace ZkLoc

open Ieee (Datum IsRNE RoundsTo Representable signed)

variable {f : Fmt}

/-- A significand whose scaled value stays within half a quantum of `n` quanta rounds to `n`. -/
theorem rnd_near {V q n : ℕ} (hq : 1 ≤ q) (h1 : n * 2 ^ q < V + 2 ^ (q - 1)) (h2 : V < n * 2 ^ q + 2 ^ (q - 1)) :
    rnd V q true = n := by
  obtain ⟨q, rfl⟩ : ∃ q', q = q' + 1 := ⟨q - 1, by omega⟩
  rw [Nat.add_sub_cancel] at h1 h2
  obtain ⟨P, hP⟩ : ∃ P, P = 2 ^ q := ⟨_, rfl⟩
  have hPpos : 0 < P := by rw [hP]; positivity
  have h2P : 2 ^ (q + 1) = 2 * P := by rw [hP]; ring
  rw [h2P, ← hP] at h1 h2
  unfold rnd
  rw [Nat.add_sub_cancel, h2P, ← hP]
  rcases Nat.lt_or_ge V (n * (2 * P)) with h | h
  · obtain ⟨n, rfl⟩ : ∃ n', n = n' + 1 := ⟨n - 1, by
      rcases n with _ | n
      · simp at h
      · simp⟩
    have e1 : (n + 1) * (2 * P) = n * (2 * P) + 2 * P := by ring
    have hd : V / (2 * P) = n := by
      rw [Nat.div_eq_iff (by omega)]; constructor <;> omega
    have hm : V % (2 * P) = V - n * (2 * P) := by
      have := Nat.div_add_mod V (2 * P); rw [hd] at this
      rw [mul_comm n]; omega
    rw [hd, hm, if_neg (by omega), if_pos (by omega)]
  · have hd : V / (2 * P) = n := by
      rw [Nat.div_eq_iff (by omega)]; constructor <;> omega
    have hm : V % (2 * P) = V - n * (2 * P) := by
      have := Nat.div_add_mod V (2 * P); rw [hd] at this
      rw [mul_comm n]; omega
    rw [hd, hm, if_neg (by omega), if_neg (by omega)]

theorem rnd_exact {a q : ℕ} {h : Bool} (hq : 1 ≤ q) : rnd (a * 2 ^ q) q h = a := by
  unfold rnd
  have h1 : 0 < 2 ^ q := by positivity
  have h2 : 0 < 2 ^ (q - 1) := by positivity
  rw [Nat.mul_div_cancel _ h1, Nat.mul_mod_left, if_neg (by omega), if_neg (by omega)]

/-- Facts about the normalised, rounded sum shared by the exact and the far-apart case:
`w` is the exact sum in units of `2^(e0 - 2M - 3)`. -/
structure SumOk (f : Fmt) (S k : ℕ) (w : ℝ) : Prop where
  pos : 0 < w
  lo : 2 ^ f.M ≤ rnd (S * 2 ^ k) (f.M + 4) true
  hi : rnd (S * 2 ^ k) (f.M + 4) true ≤ 2 ^ (f.M + 1)
  near : |w * 2 ^ k - rnd (S * 2 ^ k) (f.M + 4) true * (2:ℝ) ^ (f.M + 4)| ≤ 2 ^ (f.M + 4) / 2
  tie : |w * 2 ^ k - rnd (S * 2 ^ k) (f.M + 4) true * (2:ℝ) ^ (f.M + 4)| = 2 ^ (f.M + 4) / 2 →
    Even (rnd (S * 2 ^ k) (f.M + 4) true)
  big : (2:ℝ) ^ (2 * f.M + 4) ≤ w * 2 ^ k

theorem rnd_bounds {M N : ℕ} {h : Bool} (h1 : 2 ^ (2 * M + 4) ≤ N) (h2 : N < 2 ^ (2 * M + 5)) :
    2 ^ M ≤ rnd N (M + 4) h ∧ rnd N (M + 4) h ≤ 2 ^ (M + 1) := by
  constructor
  · have h3 : 2 ^ M ≤ N / 2 ^ (M + 4) := by
      rw [Nat.le_div_iff_mul_le (by positivity), ← pow_add, show M + (M + 4) = 2 * M + 4 by ring]; exact h1
    unfold rnd
    split_ifs <;> omega
  · exact rnd_le (by rw [show M + 4 + (M + 1) = 2 * M + 5 by ring]; exact h2)

/-- Exact alignment. -/
theorem sumOk_near {S k : ℕ} (h1 : 2 ^ (2 * f.M + 4) ≤ S * 2 ^ k) (h2 : S * 2 ^ k < 2 ^ (2 * f.M + 5)) :
    SumOk f S k S := by
  obtain ⟨hb1, hb2⟩ := rnd_bounds (h := true) h1 h2
  obtain ⟨hr1, hr2⟩ := rnd_real (V := S * 2 ^ k) (q := f.M + 4) (D := 1) (h := true) (w := (S * 2 ^ k : ℕ)) (by omega)
    (one_dvd _) (one_dvd _) (fun _ => rfl) (by simp)
  have hS : 0 < S := by
    rcases Nat.eq_zero_or_pos S with h | h
    · rw [h, zero_mul] at h1
      have : 0 < 2 ^ (2 * f.M + 4) := by positivity
      omega
    · exact h
  refine ⟨by exact_mod_cast hS, hb1, hb2, by push_cast at hr1; exact hr1, by push_cast at hr2; exact hr2, ?_⟩
  exact_mod_cast h1

/-- Far-apart exponents: `L` is the larger significand, `T` the smaller one (relative sign), its exact
contribution `τ` is at most half of `T`. -/
theorem sumOk_far {L S k : ℕ} {T : ℤ} {τ : ℝ} (hL1 : 2 ^ f.M ≤ L) (hL2 : L < 2 ^ (f.M + 1))
    (hT : T.natAbs < 2 ^ (f.M + 1)) (hτ : |τ| ≤ |(T:ℝ)| / 2) (hτ0 : 0 ≤ T → 0 ≤ τ) 
    (hS : (S:ℤ) = T + L * 2 ^ (f.M + 3)) (h1 : 2 ^ (2 * f.M + 4) ≤ S * 2 ^ k) (h2 : S * 2 ^ k < 2 ^ (2 * f.M + 5)) :
    SumOk f S k (τ + L * 2 ^ (f.M + 3)) := by
  obtain ⟨hb1, hb2⟩ := rnd_bounds (h := true) h1 h2
  obtain ⟨P, hP⟩ : ∃ P, P = 2 ^ f.M := ⟨_, rfl⟩
  have hPpos : 1 ≤ P := by rw [hP]; exact Nat.one_le_two_pow
  have e1 : 2 ^ (f.M + 1) = 2 * P := by rw [hP]; ring
  have e3 : 2 ^ (f.M + 3) = 8 * P := by rw [hP]; ring
  have e3z : (2:ℤ) ^ (f.M + 3) = 8 * P := by rw [hP]; push_cast; ring
  have e3r : (2:ℝ) ^ (f.M + 3) = 8 * P := by rw [hP]; push_cast; ring
  have e4 : 2 ^ (f.M + 4) = 16 * P := by rw [hP]; ring
  have e4r : (2:ℝ) ^ (f.M + 4) = 16 * P := by rw [hP]; push_cast; ring
  have e24 : 2 ^ (2 * f.M + 4) = 16 * (P * P) := by rw [hP]; ring
  have e24r : (2:ℝ) ^ (2 * f.M + 4) = 16 * (P * P) := by rw [hP]; push_cast; ring
  have e25 : 2 ^ (2 * f.M + 5) = 32 * (P * P) := by rw [hP]; ring
  have hTr : |(T:ℝ)| ≤ 2 * P := by
    have h3 : |T| ≤ 2 * P := by rw [Int.abs_eq_natAbs]; rw [e1] at hT; exact_mod_cast hT.le
    exact_mod_cast h3
  have hτ2 := abs_le.1 (le_trans hτ (by linarith : |(T:ℝ)| / 2 ≤ P))
  rw [← hP] at hL1
  rw [e1] at hL2 hT
  rw [e3z] at hS
  have hPr : (1:ℝ) ≤ P := by exact_mod_cast hPpos
  have hLr : (P:ℝ) ≤ L := by exact_mod_cast hL1
  have hT2 : -(2 * (P:ℤ)) < T ∧ T < 2 * P := by omega
  -- the normalisation shift is 1, or 2 after a borrow
  by_cases hbor : 8 * (P * P) ≤ S
  · have hk : k = 1 := by
      refine norm_unique (m := S) (n := 2 * f.M + 4) h1 h2 ?_ ?_
      · rw [e24]; omega
      · rw [e25, pow_one]
        zify; rw [hS]
        zify at hL2
        nlinarith
    subst hk
    have hm : rnd (S * 2 ^ 1) (f.M + 4) true = L := by
      apply rnd_near (by omega)
      · rw [show f.M + 4 - 1 = f.M + 3 by omega, e3, e4, pow_one]; zify; rw [hS]; nlinarith
      · rw [show f.M + 4 - 1 = f.M + 3 by omega, e3, e4, pow_one]; zify; rw [hS]; nlinarith
    rw [e3r]
    refine ⟨by nlinarith, hb1, hb2, ?_, ?_, ?_⟩
    · rw [hm, e4r, abs_le]; constructor <;> nlinarith
    · rw [hm, e4r]
      intro hc
      exfalso
      rcases abs_eq (by positivity : (0:ℝ) ≤ 16 * P / 2) |>.1 hc with h | h <;> nlinarith
    · rw [e24r]
      by_cases hTn : 0 ≤ T
      · have := hτ0 hTn; nlinarith
      · -- negative small operand: the larger significand exceeds `2^M`
        have hLP : P + 1 ≤ L := by
          by_contra hc
          have hLe : L = P := by omega
          rw [hLe] at hS
          zify at hbor
          nlinarith
        have hLPr : (P:ℝ) + 1 ≤ L := by exact_mod_cast hLP
        nlinarith
  · have hLP : L = P := by
      by_contra hc
      have h3 : (P:ℤ) + 1 ≤ L := by omega
      have h4 : (S:ℤ) < 8 * (P * P) := by exact_mod_cast (by omega : S < 8 * (P * P))
      nlinarith
    subst hLP
    have hS' : (S:ℤ) = T + 8 * ((L * L : ℕ) : ℤ) := by rw [hS]; push_cast; ring
    have hLL : L ≤ L * L := Nat.le_mul_self L
    have hk : k = 2 := by
      refine norm_unique (m := S) (n := 2 * f.M + 4) h1 h2 ?_ ?_
      · rw [e24]; omega
      · rw [e25]; omega
    subst hk
    have hTn : T < 0 := by omega
    have e2 : 2 * L * (16 * L) = 32 * (L * L) := by ring
    have hm : rnd (S * 2 ^ 2) (f.M + 4) true = 2 * L := by
      apply rnd_near (by omega)
      · rw [show f.M + 4 - 1 = f.M + 3 by omega, e3, e4, e2]; omega
      · rw [show f.M + 4 - 1 = f.M + 3 by omega, e3, e4, e2]; omega
    have hLLr : (L:ℝ) ≤ L * L := by exact_mod_cast hLL
    have hw : τ + (L:ℝ) * 2 ^ (f.M + 3) = τ + 8 * (L * L) := by rw [e3r]; ring
    rw [hw]
    have e2r : ((2 * L : ℕ) : ℝ) * (16 * L) = 32 * (L * L) := by push_cast; ring
    refine ⟨by linarith [hτ2.1, hτ2.2], hb1, hb2, ?_, ?_, ?_⟩
    · rw [hm, e4r, e2r, abs_le]; constructor <;> linarith [hτ2.1, hτ2.2]
    · intro _; rw [hm]; exact even_two_mul L
    · rw [e24r]; linarith [hτ2.1, hτ2.2]

/-- Rounding the sum. `e0` is the larger exponent. -/
theorem sum_round (hM1 : 1 ≤ f.M) {S k : ℕ} {w : ℝ} {e0 : ℤ} (h : SumOk f S k w)
    (he : f.eNormalMin ≤ e0 + 1 - k) :
    IsRNE f.ieee (w * 2 ^ (e0 - 2 * f.M - 3)) (rnd (S * 2 ^ k) (f.M + 4) true * (2:ℝ) ^ (e0 + 1 - k - f.M)) := by
  have hscale : (0:ℝ) < 2 ^ (e0 + 1 - k - f.M - (f.M + 4)) := by positivity
  have hv : w * 2 ^ (e0 - 2 * f.M - 3) = w * 2 ^ k * 2 ^ (e0 + 1 - k - f.M - (f.M + 4)) := by
    rw [mul_assoc, ← zpow_natCast, ← zpow_add₀ (by norm_num)]; congr 2; ring
  have hq : (2:ℝ) ^ (e0 + 1 - k - f.M) = 2 ^ (f.M + 4) * 2 ^ (e0 + 1 - k - f.M - (f.M + 4)) := by
    rw [← zpow_natCast, ← zpow_add₀ (by norm_num)]; congr 1; push_cast; ring
  generalize (2:ℝ) ^ (e0 + 1 - k - f.M - (f.M + 4)) = s at *
  have hd : w * 2 ^ (e0 - 2 * f.M - 3) - rnd (S * 2 ^ k) (f.M + 4) true * (2:ℝ) ^ (e0 + 1 - k - f.M) =
      (w * 2 ^ k - rnd (S * 2 ^ k) (f.M + 4) true * (2:ℝ) ^ (f.M + 4)) * s := by
    rw [hv, hq]; ring
  have hhalf : (2:ℝ) ^ (e0 + 1 - k - f.M) / 2 = 2 ^ (f.M + 4) / 2 * s := by rw [hq]; ring
  refine Ieee.isRNE_of_quantum hM1 (by rw [ieee_qmin]; omega) h.hi ?_ ?_ (Or.inr ?_)
  · rw [hd, abs_mul, abs_of_pos hscale, hhalf]
    exact mul_le_mul_of_nonneg_right h.near hscale.le
  · rw [hd, abs_mul, abs_of_pos hscale, hhalf]
    intro heq
    exact h.tie (mul_right_cancel₀ hscale.ne' heq)
  · rw [hv, hq, ieee_M, ← mul_assoc]
    apply mul_le_mul_of_nonneg_right _ hscale.le
    refine le_trans (le_of_eq ?_) h.big
    rw [← pow_add]; congr 1; ring

/-- Signed real value of a finite integer-level float. -/
noncomputable def Flt.sval (f : Fmt) (x : Flt) : ℝ := x.smant * (2:ℝ) ^ (x.exp - f.M)

theorem signed_mag (x : Flt) : signed x.sign (x.mag f) = x.sval f := by
  unfold signed Flt.mag Flt.sval Flt.smant
  cases x.sign <;> simp

theorem smant_dvd {x : Flt} (hx : x.Valid f) (hxa : x.abn = false) :
    x.exp < f.eNormalMin → (2:ℤ) ^ (f.eNormalMin - x.exp).toNat ∣ x.smant := by
  intro h
  have h1 : 2 ^ (f.eNormalMin - x.exp).toNat ∣ x.man := by
    cases hx with
    | nan s => simp at hxa
    | inf s => simp at hxa
    | zero s => exact dvd_zero _
    | fin s e m h1 h2 h3 h4 h5 => exact h5 h
  have h2 : (2:ℤ) ^ (f.eNormalMin - x.exp).toNat ∣ (x.man : ℤ) := by exact_mod_cast h1
  unfold Flt.smant
  split
  · exact (dvd_neg).2 h2
  · exact h2

/-- Rounding of the sum of two finite floats, `a` having the smaller exponent. -/
theorem add_core {p b : ℕ} [Fact p.Prime] (G : Good p b f) {a c : Flt} (ha : a.Valid f) (hc : c.Valid f)
    (haa : a.abn = false) (hca : c.abn = false) (hle : a.exp ≤ c.exp) {S : ℤ} {gap k : ℕ}
    (hgap : gap = (c.exp - a.exp).toNat) (hS : S = a.smant * 2 ^ (f.M + 3 - gap) + c.smant * 2 ^ (f.M + 3))
    (hSb : S.natAbs < 2 ^ (2 * f.M + 5)) (hk : k = lzShift S (2 * f.M + 5)) :
    (S = 0 → a.sval f + c.sval f = 0) ∧
    (S ≠ 0 → a.sval f + c.sval f ≠ 0 ∧ (a.sval f + c.sval f < 0 ↔ S < 0) ∧
      (2 ^ f.M ≤ rnd (S.natAbs * 2 ^ k) (f.M + 4) true ∧ rnd (S.natAbs * 2 ^ k) (f.M + 4) true ≤ 2 ^ (f.M + 1)) ∧
      (c.exp + 1 - k < f.eNormalMin →
        2 ^ (f.eNormalMin - (c.exp + 1 - k)).toNat ∣ rnd (S.natAbs * 2 ^ k) (f.M + 4) true) ∧
      IsRNE f.ieee |a.sval f + c.sval f| (rnd (S.natAbs * 2 ^ k) (f.M + 4) true * (2:ℝ) ^ (c.exp + 1 - k - f.M)) ∧
      (c.exp + 1 - k < f.eNormalMin → 2 ^ (f.M + 4 + (f.eNormalMin - (c.exp + 1 - k)).toNat) ∣ S.natAbs * 2 ^ k)) := by
  have hM1 : 1 ≤ f.M := by have := G.hEM; have := G.hE; omega
  have hmn := f.eMin_eq
  have hNm := f.eNormalMin_eq
  have hgz : (gap:ℤ) = c.exp - a.exp := by omega
  have hk1 : S ≠ 0 → 2 ^ (2 * f.M + 4) ≤ S.natAbs * 2 ^ k ∧ S.natAbs * 2 ^ k < 2 ^ (2 * f.M + 5) := by
    intro h0
    have := leadingZeros_spec (by omega : 0 < S.natAbs) hSb
    rw [hk, lzShift, if_neg h0]
    exact this.2
  have hscale : (0:ℝ) < 2 ^ (c.exp - 2 * f.M - 3) := by positivity
  have hcv : c.sval f = c.smant * 2 ^ (f.M + 3) * (2:ℝ) ^ (c.exp - 2 * f.M - 3) := by
    unfold Flt.sval
    rw [mul_assoc, ← zpow_natCast, ← zpow_add₀ (by norm_num)]; congr 2; push_cast; ring
  by_cases hnear : gap ≤ f.M + 3
  · -- exact alignment
    have hav : a.sval f = a.smant * 2 ^ (f.M + 3 - gap) * (2:ℝ) ^ (c.exp - 2 * f.M - 3) := by
      unfold Flt.sval
      rw [mul_assoc, ← zpow_natCast, ← zpow_add₀ (by norm_num)]
      congr 2; push_cast [Nat.cast_sub hnear]; rw [hgz]; ring
    have hsum : a.sval f + c.sval f = S * (2:ℝ) ^ (c.exp - 2 * f.M - 3) := by
      rw [hav, hcv, hS]; push_cast; ring
    refine ⟨fun h => by rw [hsum, h]; simp, fun h0 => ?_⟩
    obtain ⟨hb1, hb2⟩ := hk1 h0
    have hok := sumOk_near (f := f) hb1 hb2
    have habs : |a.sval f + c.sval f| = (S.natAbs : ℝ) * (2:ℝ) ^ (c.exp - 2 * f.M - 3) := by
      rw [hsum, abs_mul, abs_of_pos hscale, Nat.cast_natAbs, Int.cast_abs]
    have hdvd : c.exp + 1 - k < f.eNormalMin → 
        2 ^ (f.M + 4 + (f.eNormalMin - (c.exp + 1 - k)).toNat) ∣ S.natAbs * 2 ^ k := by
      intro hlt
      -- `2^t` divides the sum
      have hSge := addS_ge (f := f) (x := a) (y := c) ha.man_cases hc.man_cases ha.man_lt hc.man_lt
      have hadd : addS f a c = S := by
        unfold addS; rw [if_pos hle, hS]
        have : expGap a c = gap := by unfold expGap; omega
        rw [this]
      rw [hadd] at hSge
      have hkle : k ≤ f.M + 4 := by
        by_contra hgt
        have h1 : 2 ^ f.M * 2 ^ (f.M + 5) ≤ S.natAbs * 2 ^ k :=
          Nat.mul_le_mul (hSge h0) (Nat.pow_le_pow_right (by norm_num) (by omega))
        rw [← pow_add, show f.M + (f.M + 5) = 2 * f.M + 5 by omega] at h1
        omega
      obtain ⟨t, ht⟩ : ∃ t : ℕ, (t:ℤ) = f.M + 3 + f.eNormalMin - c.exp := ⟨(f.M + 3 + f.eNormalMin - c.exp).toNat, by omega⟩
      have hd1 : (2:ℤ) ^ t ∣ c.smant * 2 ^ (f.M + 3) := by
        by_cases he : c.exp < f.eNormalMin
        · rw [show t = (f.eNormalMin - c.exp).toNat + (f.M + 3) by omega, pow_add]
          exact mul_dvd_mul (smant_dvd hc hca he) (dvd_refl _)
        · exact Dvd.dvd.mul_left (pow_dvd_pow _ (by omega)) _
      have hd2 : (2:ℤ) ^ t ∣ a.smant * 2 ^ (f.M + 3 - gap) := by
        by_cases he : a.exp < f.eNormalMin
        · rw [show t = (f.eNormalMin - a.exp).toNat + (f.M + 3 - gap) by omega, pow_add]
          exact mul_dvd_mul (smant_dvd ha haa he) (dvd_refl _)
        · exact Dvd.dvd.mul_left (pow_dvd_pow _ (by omega)) _
      have hd3 : (2:ℤ) ^ t ∣ S := by rw [hS]; exact dvd_add hd2 hd1
      have hd4 : 2 ^ t ∣ S.natAbs := by
        have := Int.natAbs_dvd_natAbs.2 hd3
        simpa [Int.natAbs_pow] using this
      rw [show f.M + 4 + (f.eNormalMin - (c.exp + 1 - k)).toNat = t + k by omega, pow_add]
      exact mul_dvd_mul hd4 (dvd_refl _)
    refine ⟨?_, ?_, ⟨hok.lo, hok.hi⟩, ?_, ?_, hdvd⟩
    · rw [hsum]; exact mul_ne_zero (by exact_mod_cast h0) hscale.ne'
    · rw [hsum, mul_neg_iff]
      constructor
      · rintro (⟨_, h⟩ | ⟨h, _⟩)
        · linarith
        · exact_mod_cast h
      · intro h; right; exact ⟨by exact_mod_cast h, hscale⟩
    · intro hlt
      obtain ⟨j, hj⟩ := hdvd hlt
      rw [hj, pow_add, show 2 ^ (f.M + 4) * 2 ^ (f.eNormalMin - (c.exp + 1 - ↑k)).toNat * j =
        2 ^ (f.eNormalMin - (c.exp + 1 - ↑k)).toNat * j * 2 ^ (f.M + 4) by ring, rnd_exact (by omega)]
      exact Dvd.intro _ rfl
    · rw [habs]
      by_cases hlt : c.exp + 1 - k < f.eNormalMin
      · -- below the normal range the sum is exact
        obtain ⟨j, hj⟩ := hdvd hlt
        have hval : (S.natAbs : ℝ) * (2:ℝ) ^ (c.exp - 2 * f.M - 3) =
            ((2 ^ (f.eNormalMin - (c.exp + 1 - k)).toNat * j : ℕ) : ℝ) * (2:ℝ) ^ (c.exp + 1 - k - f.M) := by
          have h1 : (S.natAbs : ℝ) * 2 ^ k = 2 ^ (f.M + 4) * 2 ^ (f.eNormalMin - (c.exp + 1 - k)).toNat * j := by
            rw [← pow_add]; exact_mod_cast hj
          have h2 : (2:ℝ) ^ (c.exp - 2 * f.M - 3) = 2 ^ k * 2 ^ (c.exp - 2 * f.M - 3 - k) := by
            rw [← zpow_natCast, ← zpow_add₀ (by norm_num)]; congr 1; ring
          have h3 : (2:ℝ) ^ (c.exp + 1 - k - f.M) = 2 ^ (f.M + 4) * 2 ^ (c.exp - 2 * f.M - 3 - k) := by
            rw [← zpow_natCast, ← zpow_add₀ (by norm_num)]; congr 1; push_cast; ring
          rw [h2, h3, ← mul_assoc, h1]; push_cast; ring
        have hm : rnd (S.natAbs * 2 ^ k) (f.M + 4) true = 2 ^ (f.eNormalMin - (c.exp + 1 - k)).toNat * j := by
          rw [hj, pow_add, show 2 ^ (f.M + 4) * 2 ^ (f.eNormalMin - (c.exp + 1 - ↑k)).toNat * j =
            2 ^ (f.eNormalMin - (c.exp + 1 - ↑k)).toNat * j * 2 ^ (f.M + 4) by ring, rnd_exact (by omega)]
        rw [hm, ← hval]
        apply Representable.isRNE
        refine ⟨j, f.ieee.qmin, ?_, le_rfl, ?_⟩
        · rw [ieee_M]
          have h1 := hok.hi
          rw [hm] at h1
          have h2 : 2 ≤ 2 ^ (f.eNormalMin - (c.exp + 1 - k)).toNat := by
            calc 2 = 2 ^ 1 := rfl
              _ ≤ _ := Nat.pow_le_pow_right (by norm_num) (by omega)
          have h3 : 0 < 2 ^ (f.M + 1) := by positivity
          nlinarith
        · rw [hval, ieee_qmin]
          have h4 : (2:ℝ) ^ (f.eNormalMin - f.M) = 2 ^ (f.eNormalMin - (c.exp + 1 - k)).toNat * 2 ^ (c.exp + 1 - k - f.M) := by
            rw [← zpow_natCast, ← zpow_add₀ (by norm_num)]; congr 1
            rw [Int.toNat_of_nonneg (by omega)]; ring
          rw [h4]; push_cast; ring
      · exact sum_round hM1 hok (by omega)
  · -- far apart: the smaller operand only decides rounding
    have hg0 : f.M + 3 - gap = 0 := by omega
    rw [hg0, pow_zero, mul_one] at hS
    have hcm : c.man ≠ 0 := by
      intro h0
      have h1 := hc.exp_of_zero hca h0
      have h2 := ha.exp_ge G
      omega
    have hL1 : 2 ^ f.M ≤ c.man := hc.man_cases.resolve_left hcm
    have hL2 := hc.man_lt
    have hT := ha.man_lt
    rw [← smant_abs] at hT
    have hP : 2 ^ (f.M + 1) = 2 * 2 ^ f.M := by ring
    have hP3 : (2:ℤ) ^ (f.M + 3) = 8 * ((2 ^ f.M : ℕ) : ℤ) := by push_cast; ring
    have h2pos : 1 ≤ 2 ^ f.M := Nat.one_le_two_pow
    obtain ⟨ε, hε⟩ : ∃ ε : ℤ, ε = if c.sign then -1 else 1 := ⟨_, rfl⟩
    have hεε : ε * ε = 1 := by rw [hε]; split <;> norm_num
    have hcs : c.smant = ε * c.man := by rw [hε]; unfold Flt.smant; split <;> ring
    obtain ⟨T, hTd⟩ : ∃ T : ℤ, T = ε * a.smant := ⟨_, rfl⟩
    have has : a.smant = ε * T := by rw [hTd, ← mul_assoc, hεε, one_mul]
    have hTabs : T.natAbs = a.smant.natAbs := by rw [hTd, hε]; split <;> simp
    rw [← hTabs] at hT
    have hSε : S = ε * (T + c.man * 2 ^ (f.M + 3)) := by rw [hS, hcs, has]; ring
    have hpos : 0 < T + c.man * 2 ^ (f.M + 3) := by
      rw [hP3]
      have h1 : ((2 ^ f.M : ℕ) : ℤ) ≤ c.man := by exact_mod_cast hL1
      have h3 : (1:ℤ) ≤ ((2 ^ f.M : ℕ) : ℤ) := by exact_mod_cast h2pos
      rw [hP] at hT
      have h4 : -(2 * ((2 ^ f.M : ℕ) : ℤ)) < T := by omega
      nlinarith
    have hSn : (S.natAbs : ℤ) = T + c.man * 2 ^ (f.M + 3) := by
      rw [hSε, hε]; split <;> omega
    have hS0 : S ≠ 0 := by
      intro h; rw [h] at hSn; simp at hSn; omega
    refine ⟨fun h => absurd h hS0, fun _ => ?_⟩
    obtain ⟨hb1, hb2⟩ := hk1 hS0
    obtain ⟨τ, hτ⟩ : ∃ τ : ℝ, τ = T * (2:ℝ) ^ ((f.M:ℤ) + 3 - gap) := ⟨_, rfl⟩
    have hp1 : (2:ℝ) ^ ((f.M:ℤ) + 3 - gap) ≤ 1 / 2 := by
      calc (2:ℝ) ^ ((f.M:ℤ) + 3 - gap) ≤ 2 ^ (-1:ℤ) := zpow_le_zpow_right₀ (by norm_num) (by omega)
        _ = 1 / 2 := by norm_num
    have hp0 : (0:ℝ) < (2:ℝ) ^ ((f.M:ℤ) + 3 - gap) := by positivity
    have hok := sumOk_far (f := f) (τ := τ) hL1 hL2 hT
      (by rw [hτ, abs_mul, abs_of_pos hp0]; nlinarith [abs_nonneg (T:ℝ)])
      (by intro h; rw [hτ]; exact mul_nonneg (by exact_mod_cast h) hp0.le) hSn hb1 hb2
    have hav : a.sval f = ε * τ * (2:ℝ) ^ (c.exp - 2 * f.M - 3) := by
      unfold Flt.sval
      rw [hτ, has]; push_cast
      rw [show (ε:ℝ) * (T * 2 ^ ((f.M:ℤ) + 3 - gap)) * 2 ^ (c.exp - 2 * f.M - 3) =
        ε * T * (2 ^ ((f.M:ℤ) + 3 - gap) * 2 ^ (c.exp - 2 * f.M - 3)) by ring, ← zpow_add₀ (by norm_num)]
      congr 2; rw [hgz]; ring
    have hsum : a.sval f + c.sval f = ε * ((τ + c.man * 2 ^ (f.M + 3)) * (2:ℝ) ^ (c.exp - 2 * f.M - 3)) := by
      rw [hav, hcv, hcs]; push_cast; ring
    have hwpos : 0 < (τ + c.man * 2 ^ (f.M + 3)) * (2:ℝ) ^ (c.exp - 2 * f.M - 3) := mul_pos hok.pos hscale
    have habs : |a.sval f + c.sval f| = (τ + c.man * 2 ^ (f.M + 3)) * (2:ℝ) ^ (c.exp - 2 * f.M - 3) := by
      rw [hsum, abs_mul, abs_of_pos hwpos]
      have : |(ε:ℝ)| = 1 := by rw [hε]; split <;> simp
      rw [this, one_mul]
    have hkle : k ≤ 2 := by
      by_contra hgt
      have h1 : S.natAbs * 8 ≤ S.natAbs * 2 ^ k := by
        apply Nat.mul_le_mul_left
        calc 8 = 2 ^ 3 := rfl
          _ ≤ _ := Nat.pow_le_pow_right (by norm_num) (by omega)
      have h2 : 2 ^ (2 * f.M + 5) = 32 * (2 ^ f.M * 2 ^ f.M) := by ring
      have h3 : (((2 ^ f.M : ℕ) : ℤ)) * ((2 ^ f.M : ℕ) : ℤ) ≤ c.man * ((2 ^ f.M : ℕ) : ℤ) := by
        apply mul_le_mul_of_nonneg_right _ (by positivity); exact_mod_cast hL1
      rw [hP3] at hSn
      have h5 : ((2 ^ f.M : ℕ) : ℤ) ≤ ((2 ^ f.M : ℕ) : ℤ) * ((2 ^ f.M : ℕ) : ℤ) := by exact_mod_cast Nat.le_mul_self _
      rw [hP] at hT
      have h4 : -(2 * ((2 ^ f.M : ℕ) : ℤ)) < T := by omega
      have h6 : (S.natAbs : ℤ) * 8 < 32 * (((2 ^ f.M : ℕ) : ℤ) * ((2 ^ f.M : ℕ) : ℤ)) := by
        have := lt_of_le_of_lt h1 hb2
        rw [h2] at this; exact_mod_cast this
      rw [hSn] at h6
      linarith
    have hexp : f.eNormalMin ≤ c.exp + 1 - k := by
      have := ha.exp_ge G
      omega
    refine ⟨?_, ?_, ⟨hok.lo, hok.hi⟩, fun h => absurd h (by omega), ?_, fun h => absurd h (by omega)⟩
    · intro h; rw [h, abs_zero] at habs; linarith
    · rw [hsum, hSε]
      have hposr : (0:ℝ) < (τ + c.man * 2 ^ (f.M + 3)) * (2:ℝ) ^ (c.exp - 2 * f.M - 3) := hwpos
      rw [hε]
      split
      · push_cast; constructor
        · intro _; linarith
        · intro _; linarith
      · push_cast; constructor
        · intro _; linarith
        · intro _; linarith
    · rw [habs]; exact sum_round hM1 hok hexp

end ZkLoc
