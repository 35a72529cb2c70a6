import Verif.AddVal2

/-!
# Helper lemmas: native encoding and decoding of floats
-/

namespace ZkLoc

open Ieee (Datum)

variable {f : Fmt}

/-- The integer-level float denoted by a bit pattern. -/
def fltOf (f : Fmt) (v : ℕ) : Flt :=
  let s : Bool := decide (v / 2 ^ (f.E + f.M) % 2 = 1)
  let e := v / 2 ^ f.M % 2 ^ f.E
  let m := v % 2 ^ f.M
  if e = 2 ^ f.E - 1 then ⟨s, f.eMax, if m = 0 then 2 ^ f.M else 0, true⟩
  else if e = 0 then ⟨s, f.eNormalMin - 1 - leadingZeros m f.M, m * 2 ^ leadingZeros m f.M * 2, false⟩
  else ⟨s, e - (f.eMax - 1), m + 2 ^ f.M, false⟩

/-- The native components of an integer-level float. -/
def Flt.comps (x : Flt) : Components := ⟨x.sign.toNat, x.exp, x.man, x.abn.toNat⟩

/-- The bit pattern of a valid float (NaN: fraction 1). -/
def bitsOf (f : Fmt) (x : Flt) : ℕ :=
  x.sign.toNat * 2 ^ (f.E + f.M) +
    (if x.abn then (2 ^ f.E - 1) * 2 ^ f.M + (if x.man = 0 then 1 else 0)
     else if x.man = 0 then 0
     else if x.exp < f.eNormalMin then x.man / 2 ^ (f.eNormalMin - x.exp).toNat
     else (x.exp + (f.eMax - 1)).toNat * 2 ^ f.M + (x.man - 2 ^ f.M))

theorem leadingZeros_zero (n : ℕ) : leadingZeros 0 n = n := by
  induction n with
  | zero => rfl
  | succ n ih => unfold leadingZeros; simp [ih]

/-- Fields of an assembled pattern. -/
theorem enc_fields {E M s e m : ℕ} (he : e < 2 ^ E) (hm : m < 2 ^ M) :
    (s * 2 ^ (E + M) + e * 2 ^ M + m) / 2 ^ (E + M) = s ∧ (s * 2 ^ (E + M) + e * 2 ^ M + m) / 2 ^ M = s * 2 ^ E + e ∧
    (s * 2 ^ (E + M) + e * 2 ^ M + m) / 2 ^ M % 2 ^ E = e ∧ (s * 2 ^ (E + M) + e * 2 ^ M + m) % 2 ^ M = m := by
  have hM : 0 < 2 ^ M := by positivity
  have hE : 0 < 2 ^ E := by positivity
  have h1 : e * 2 ^ M + m < 2 ^ (E + M) := by
    rw [pow_add]
    calc e * 2 ^ M + m < e * 2 ^ M + 2 ^ M := by omega
      _ = (e + 1) * 2 ^ M := by ring
      _ ≤ 2 ^ E * 2 ^ M := Nat.mul_le_mul_right _ he
  have h2 : (s * 2 ^ (E + M) + e * 2 ^ M + m) / 2 ^ M = s * 2 ^ E + e := by
    rw [pow_add, show s * (2 ^ E * 2 ^ M) + e * 2 ^ M + m = m + (s * 2 ^ E + e) * 2 ^ M by ring, Nat.add_mul_div_right _ _ hM,
      Nat.div_eq_of_lt hm, zero_add]
  refine ⟨?_, h2, ?_, ?_⟩
  · rw [add_assoc, add_comm, Nat.add_mul_div_right _ _ (by positivity), Nat.div_eq_of_lt h1, zero_add]
  · rw [h2, add_comm, Nat.add_mul_mod_self_right, Nat.mod_eq_of_lt he]
  · rw [pow_add, show s * (2 ^ E * 2 ^ M) + e * 2 ^ M + m = m + (s * 2 ^ E + e) * 2 ^ M by ring, Nat.add_mul_mod_self_right,
      Nat.mod_eq_of_lt hm]

theorem enc_lt {E M s e m : ℕ} (hs : s < 2) (he : e < 2 ^ E) (hm : m < 2 ^ M) :
    s * 2 ^ (E + M) + e * 2 ^ M + m < 2 ^ (1 + E + M) := by
  have h1 : e * 2 ^ M + m < 2 ^ (E + M) := by
    rw [pow_add]
    calc e * 2 ^ M + m < e * 2 ^ M + 2 ^ M := by omega
      _ = (e + 1) * 2 ^ M := by ring
      _ ≤ 2 ^ E * 2 ^ M := Nat.mul_le_mul_right _ he
  have h2 : 2 ^ (1 + E + M) = 2 * 2 ^ (E + M) := by rw [show 1 + E + M = (E + M) + 1 by ring]; ring
  rw [h2]
  have : s = 0 ∨ s = 1 := by omega
  rcases this with rfl | rfl <;> omega

/-- Every pattern is assembled from its fields. -/
theorem exists_enc {E M v : ℕ} (hv : v < 2 ^ (1 + E + M)) :
    ∃ s e m, s < 2 ∧ e < 2 ^ E ∧ m < 2 ^ M ∧ v = s * 2 ^ (E + M) + e * 2 ^ M + m := by
  refine ⟨v / 2 ^ (E + M), v / 2 ^ M % 2 ^ E, v % 2 ^ M, ?_, Nat.mod_lt _ (by positivity), Nat.mod_lt _ (by positivity), ?_⟩
  · rw [Nat.div_lt_iff_lt_mul (by positivity)]
    calc v < _ := hv
      _ = _ := by rw [show 1 + E + M = (E + M) + 1 by ring]; ring
  · have h1 := Nat.div_add_mod v (2 ^ M)
    have h2 := Nat.div_add_mod (v / 2 ^ M) (2 ^ E)
    rw [Nat.div_div_eq_div_mul, ← pow_add, Nat.add_comm M E] at h2
    calc v = 2 ^ M * (v / 2 ^ M) + v % 2 ^ M := h1.symm
      _ = 2 ^ M * (2 ^ E * (v / 2 ^ (E + M)) + v / 2 ^ M % 2 ^ E) + v % 2 ^ M := by rw [h2]
      _ = _ := by rw [pow_add]; ring

theorem fltOf_enc {s e m : ℕ} (hs : s < 2) (he : e < 2 ^ f.E) (hm : m < 2 ^ f.M) :
    fltOf f (s * 2 ^ (f.E + f.M) + e * 2 ^ f.M + m) =
      if e = 2 ^ f.E - 1 then ⟨decide (s = 1), f.eMax, if m = 0 then 2 ^ f.M else 0, true⟩
      else if e = 0 then ⟨decide (s = 1), f.eNormalMin - 1 - leadingZeros m f.M, m * 2 ^ leadingZeros m f.M * 2, false⟩
      else ⟨decide (s = 1), e - (f.eMax - 1), m + 2 ^ f.M, false⟩ := by
  obtain ⟨h1, h2, h3, h4⟩ := enc_fields (s := s) he hm
  unfold fltOf
  simp only
  rw [h1, h3, h4, Nat.mod_eq_of_lt hs]

theorem two_pow_E (hE : 1 ≤ f.E) : ((2 ^ f.E : ℕ) : ℤ) = 2 * f.eMax := by
  rw [Fmt.eMax_eq]
  obtain ⟨k, hk⟩ : ∃ k, f.E = k + 1 := ⟨f.E - 1, by omega⟩
  rw [hk, Nat.add_sub_cancel]; push_cast; ring

theorem sub64_eq {a b : ℕ} (h : b ≤ a) (ha : a < 2 ^ 64) : sub64 a (u64 b) = a - b := by
  unfold sub64 u64
  rw [Nat.mod_mod, Nat.mod_eq_of_lt (lt_of_le_of_lt h ha), show a + 2 ^ 64 - b = (a - b) + 2 ^ 64 by omega, Nat.add_mod_right,
    Nat.mod_eq_of_lt (by omega)]

theorem componentsOf_eq (hE : 1 ≤ f.E) (h64 : 1 + f.E + f.M ≤ 64) {v : ℕ} (hv : v < 2 ^ (1 + f.E + f.M)) :
    componentsOf v f.E f.M = (fltOf f v).comps := by
  have hv64 : v < 2 ^ 64 := lt_of_lt_of_le hv (Nat.pow_le_pow_right (by norm_num) h64)
  obtain ⟨s, e, m, hs, he, hm, rfl⟩ := exists_enc hv
  rw [fltOf_enc hs he hm]
  obtain ⟨h1, h2, h3, h4⟩ := enc_fields (s := s) he hm
  have h2E := two_pow_E hE
  have hpos := f.eMax_pos
  have hN := f.eNormalMin_eq
  have e1 : s * 2 ^ f.E + e - s * 2 ^ f.E = e := by omega
  have e2 : s * 2 ^ (f.E + f.M) + e * 2 ^ f.M + m - s * 2 ^ (f.E + f.M) - e * 2 ^ f.M = m := by omega
  have hsB : (decide (s = 1)).toNat = s := by
    have : s = 0 ∨ s = 1 := by omega
    rcases this with rfl | rfl <;> rfl
  have hVM : s * 2 ^ f.E + e < 2 ^ 64 := by rw [← h2]; exact lt_of_le_of_lt (Nat.div_le_self _ _) hv64
  unfold componentsOf
  simp only
  rw [h1, h2, sub64_eq (by omega) hVM, e1, sub64_eq (by omega) hv64, sub64_eq (by omega) (by omega), e2]
  unfold componentsCore
  simp only
  rw [show (2:ℤ) ^ (f.E - 1) = f.eMax from rfl]
  have hez : (e:ℤ) < 2 * f.eMax := by rw [← h2E]; exact_mod_cast he
  have hlast : (e:ℤ) + (1 - f.eMax) = f.eMax ↔ e = 2 ^ f.E - 1 := by
    have : 1 ≤ 2 ^ f.E := Nat.one_le_two_pow
    rw [← Nat.cast_inj (R := ℤ), Nat.cast_sub this, h2E]; push_cast
    constructor <;> intro h <;> omega
  have hfirst : (e:ℤ) + (1 - f.eMax) = 1 - f.eMax ↔ e = 0 := by omega
  by_cases hmax : e = 2 ^ f.E - 1
  · have he0 : ¬ e = 0 := by
      have : 2 ^ 1 ≤ 2 ^ f.E := Nat.pow_le_pow_right (by norm_num) hE
      omega
    rw [if_neg (fun h => he0 (hfirst.1 h)), if_pos hmax]
    have hx := hlast.2 hmax
    by_cases hm0 : m = 0
    · rw [if_neg (by rintro ⟨_, h⟩; exact h hm0), if_pos hx, if_pos hm0, hm0, hx]
      simp [Flt.comps, hsB]
    · rw [if_pos ⟨hx, hm0⟩, if_neg hm0, hx]
      simp [Flt.comps, hsB]
  · have hx : ¬ (e:ℤ) + (1 - f.eMax) = f.eMax := fun h => hmax (hlast.1 h)
    rw [if_neg hmax]
    by_cases he0 : e = 0
    · rw [if_pos (hfirst.2 he0), if_pos he0, if_neg hx, he0]
      simp only [Flt.comps, hsB, Nat.cast_zero, zero_add, Bool.toNat_false]
      congr 1
      rw [hN]; ring
    · rw [if_neg (fun h => he0 (hfirst.1 h)), if_neg he0, if_neg (by rintro ⟨h, _⟩; exact hx h), if_neg hx]
      simp only [Flt.comps, hsB, Bool.toNat_false]
      congr 1
      ring

theorem leadingZeros_lt {m n : ℕ} (h0 : 0 < m) (hm : m < 2 ^ n) : leadingZeros m n < n := by
  have := leadingZeros_spec h0 hm
  by_contra h
  have h1 : 2 ^ n ≤ m * 2 ^ leadingZeros m n :=
    le_trans (Nat.pow_le_pow_right (by norm_num) (by omega)) (Nat.le_mul_of_pos_left _ h0)
  omega

/-- Decoding gives well-formed floats. -/
theorem fltOf_valid (hE : 2 ≤ f.E) {v : ℕ} (hv : v < 2 ^ (1 + f.E + f.M)) : (fltOf f v).Valid f := by
  obtain ⟨s, e, m, hs, he, hm, rfl⟩ := exists_enc hv
  rw [fltOf_enc hs he hm]
  have h2E := two_pow_E (f := f) (by omega)
  have hpos := f.eMax_pos
  have hN := f.eNormalMin_eq
  have hmn := f.eMin_eq
  have hmaxe : 2 ≤ f.eMax := by
    rw [Fmt.eMax_eq]
    calc (2:ℤ) = 2 ^ 1 := rfl
      _ ≤ 2 ^ (f.E - 1) := pow_le_pow_right₀ (by norm_num) (by omega)
  have hP : 2 ^ (f.M + 1) = 2 * 2 ^ f.M := by ring
  by_cases hmax : e = 2 ^ f.E - 1
  · rw [if_pos hmax]
    by_cases hm0 : m = 0
    · rw [if_pos hm0]; exact Flt.Valid.inf _
    · rw [if_neg hm0]; exact Flt.Valid.nan _
  · rw [if_neg hmax]
    by_cases he0 : e = 0
    · rw [if_pos he0]
      by_cases hm0 : m = 0
      · rw [hm0, leadingZeros_zero, zero_mul, zero_mul]
        rw [show f.eNormalMin - 1 - (f.M:ℤ) = f.eMin by rw [hmn, hN]; ring]
        exact Flt.Valid.zero _
      · have h1 := leadingZeros_spec (by omega : 0 < m) hm
        have h2 := leadingZeros_lt (by omega : 0 < m) hm
        have h3 : 2 ^ f.M = 2 * 2 ^ (f.M - 1) := by rw [← pow_succ']; congr 1; omega
        refine Flt.Valid.fin _ _ _ (by omega) (by omega) (by omega) (by omega) (fun _ => ?_)
        rw [show (f.eNormalMin - (f.eNormalMin - 1 - ((leadingZeros m f.M : ℕ) : ℤ))).toNat = leadingZeros m f.M + 1 by omega,
          mul_assoc, ← pow_succ]
        exact Dvd.intro_left _ rfl
    · rw [if_neg he0]
      have hez : (e:ℤ) < 2 * f.eMax - 1 := by
        rw [← h2E]
        have : 1 ≤ 2 ^ f.E := Nat.one_le_two_pow
        have : e + 1 < 2 ^ f.E := by omega
        omega
      have he1 : (1:ℤ) ≤ e := by omega
      exact Flt.Valid.fin _ _ _ (by omega) (by omega) (by omega) (by omega) (by omega)

/-- Decoding preserves the IEEE datum. -/
theorem fltOf_datum (hE : 1 ≤ f.E) {v : ℕ} (hv : v < 2 ^ (1 + f.E + f.M)) :
    (fltOf f v).datum f = Ieee.decodeBits f.ieee v := by
  obtain ⟨s, e, m, hs, he, hm, rfl⟩ := exists_enc hv
  rw [fltOf_enc hs he hm]
  obtain ⟨h1, h2, h3, h4⟩ := enc_fields (s := s) he hm
  have hbit : (s * 2 ^ (f.E + f.M) + e * 2 ^ f.M + m).testBit (f.E + f.M) = decide (s = 1) := by
    rw [Nat.testBit_eq_decide_div_mod_eq, h1, Nat.mod_eq_of_lt hs]
  have hbias := ieee_bias f
  unfold Ieee.decodeBits
  simp only
  rw [show f.ieee.E = f.E from rfl, show f.ieee.M = f.M from rfl, hbit, h3, h4, ieee_qmin]
  by_cases hmax : e = 2 ^ f.E - 1
  · rw [if_pos hmax, if_pos hmax]
    by_cases hm0 : m = 0
    · simp [Flt.datum, hm0]
    · simp [Flt.datum, hm0]
  · rw [if_neg hmax, if_neg hmax]
    by_cases he0 : e = 0
    · rw [if_pos he0, if_pos he0]
      simp only [Flt.datum, Bool.false_eq_true, if_false]
      congr 1
      push_cast
      rw [mul_assoc, mul_assoc]
      congr 1
      rw [← zpow_natCast, ← zpow_one_add₀ (by norm_num), ← zpow_add₀ (by norm_num)]
      congr 1; ring
    · rw [if_neg he0, if_neg he0]
      simp only [Flt.datum, Bool.false_eq_true, if_false]
      congr 1
      push_cast
      rw [show (m:ℝ) + 2 ^ f.M = 2 ^ f.M + m by ring]
      congr 2

/-- The fields of the encoding of a valid float. -/
theorem bitsOf_enc (hE : 2 ≤ f.E) (hM : 1 ≤ f.M) {x : Flt} (hx : x.Valid f) :
    ∃ s e m, s < 2 ∧ e < 2 ^ f.E ∧ m < 2 ^ f.M ∧ bitsOf f x = s * 2 ^ (f.E + f.M) + e * 2 ^ f.M + m ∧
      fltOf f (bitsOf f x) = x := by
  have h2E := two_pow_E (f := f) (by omega)
  have hpos := f.eMax_pos
  have hN := f.eNormalMin_eq
  have hmn := f.eMin_eq
  have hmaxe : 2 ≤ f.eMax := by
    rw [Fmt.eMax_eq]
    calc (2:ℤ) = 2 ^ 1 := rfl
      _ ≤ 2 ^ (f.E - 1) := pow_le_pow_right₀ (by norm_num) (by omega)
  have hP : 2 ^ (f.M + 1) = 2 * 2 ^ f.M := by ring
  have hsB : ∀ s : Bool, s.toNat < 2 ∧ decide (s.toNat = 1) = s := by intro s; cases s <;> simp
  have h1E : 4 ≤ 2 ^ f.E := by
    calc 4 = 2 ^ 2 := rfl
      _ ≤ _ := Nat.pow_le_pow_right (by norm_num) hE
  have h1M : 2 ≤ 2 ^ f.M := by
    calc 2 = 2 ^ 1 := rfl
      _ ≤ _ := Nat.pow_le_pow_right (by norm_num) hM
  have mk : ∀ s e m, s < 2 → e < 2 ^ f.E → m < 2 ^ f.M → bitsOf f x = s * 2 ^ (f.E + f.M) + e * 2 ^ f.M + m →
      (if e = 2 ^ f.E - 1 then (⟨decide (s = 1), f.eMax, if m = 0 then 2 ^ f.M else 0, true⟩ : Flt)
      else if e = 0 then ⟨decide (s = 1), f.eNormalMin - 1 - leadingZeros m f.M, m * 2 ^ leadingZeros m f.M * 2, false⟩
      else ⟨decide (s = 1), e - (f.eMax - 1), m + 2 ^ f.M, false⟩) = x →
      ∃ s e m, s < 2 ∧ e < 2 ^ f.E ∧ m < 2 ^ f.M ∧ bitsOf f x = s * 2 ^ (f.E + f.M) + e * 2 ^ f.M + m ∧
      fltOf f (bitsOf f x) = x := by
    intro s e m hs he hm hb hx
    exact ⟨s, e, m, hs, he, hm, hb, by rw [hb, fltOf_enc hs he hm]; exact hx⟩
  cases hx with
  | nan s =>
    refine mk s.toNat (2 ^ f.E - 1) 1 (hsB s).1 (by omega) (by omega) ?_ ?_
    · simp [bitsOf, add_assoc]
    · simp [(hsB s).2]
  | inf s =>
    refine mk s.toNat (2 ^ f.E - 1) 0 (hsB s).1 (by omega) (by omega) ?_ ?_
    · simp [bitsOf]
    · simp [(hsB s).2]
  | zero s =>
    refine mk s.toNat 0 0 (hsB s).1 (by omega) (by omega) ?_ ?_
    · simp [bitsOf]
    · rw [if_neg (by omega), if_pos rfl, leadingZeros_zero, zero_mul, zero_mul, (hsB s).2]
      congr 1; rw [hmn, hN]; ring
  | fin s e m h1 h2 h3 h4 h5 =>
    have hm0 : m ≠ 0 := by omega
    by_cases he : e < f.eNormalMin
    · obtain ⟨j, hj⟩ := h5 he
      obtain ⟨d, hd⟩ : ∃ d, (f.eNormalMin - e).toNat = d + 1 := ⟨(f.eNormalMin - e).toNat - 1, by omega⟩
      rw [hd] at hj
      have hdM : d < f.M := by omega
      have hp : 2 ^ (f.M - 1 - d) * 2 ^ (d + 1) = 2 ^ f.M := by rw [← pow_add]; congr 1; omega
      have hp2 : 2 ^ (f.M - d) * 2 ^ (d + 1) = 2 ^ (f.M + 1) := by rw [← pow_add]; congr 1; omega
      have hjd : m / 2 ^ (d + 1) = j := by rw [hj]; exact Nat.mul_div_cancel_left _ (by positivity)
      have hj1 : 2 ^ (f.M - 1 - d) ≤ j := by
        by_contra hc
        have : j * 2 ^ (d + 1) < 2 ^ (f.M - 1 - d) * 2 ^ (d + 1) := Nat.mul_lt_mul_of_pos_right (by omega) (by positivity)
        rw [hp] at this; rw [hj, mul_comm] at h1; omega
      have hj2 : j < 2 ^ (f.M - d) := by
        by_contra hc
        have : 2 ^ (f.M - d) * 2 ^ (d + 1) ≤ j * 2 ^ (d + 1) := Nat.mul_le_mul_right _ (by omega)
        rw [hp2] at this; rw [hj, mul_comm] at h2; omega
      have hjM : j < 2 ^ f.M := lt_of_lt_of_le hj2 (Nat.pow_le_pow_right (by norm_num) (by omega))
      have hj0 : 0 < j := lt_of_lt_of_le (by positivity) hj1
      have hlz : leadingZeros j f.M = d := by
        obtain ⟨hle, ha, hb⟩ := leadingZeros_spec hj0 hjM
        refine norm_unique (m := j) (n := f.M - 1) ha (by rw [show f.M - 1 + 1 = f.M by omega]; exact hb) ?_ ?_
        · calc 2 ^ (f.M - 1) = 2 ^ (f.M - 1 - d) * 2 ^ d := by rw [← pow_add]; congr 1; omega
            _ ≤ j * 2 ^ d := Nat.mul_le_mul_right _ hj1
        · calc j * 2 ^ d < 2 ^ (f.M - d) * 2 ^ d := Nat.mul_lt_mul_of_pos_right hj2 (by positivity)
            _ = _ := by rw [← pow_add]; congr 1; omega
      refine mk s.toNat 0 j (hsB s).1 (by omega) hjM ?_ ?_
      · simp [bitsOf, hm0, he, hd, hjd]
      · rw [if_neg (by omega), if_pos rfl, hlz, (hsB s).2]
        congr 1
        · omega
        · rw [hj]; ring
    · have hea : (((e + (f.eMax - 1)).toNat : ℕ) : ℤ) = e + (f.eMax - 1) := by omega
      refine mk s.toNat (e + (f.eMax - 1)).toNat (m - 2 ^ f.M) (hsB s).1 ?_ (by omega) ?_ ?_
      · omega
      · simp [bitsOf, hm0, he, add_assoc]
      · rw [if_neg, if_neg (by omega), (hsB s).2]
        · congr 1
          · omega
          · omega
        · intro hc
          have : (((e + (f.eMax - 1)).toNat : ℕ) : ℤ) = ((2 ^ f.E : ℕ) : ℤ) - 1 := by rw [hc]; push_cast [Nat.cast_sub (show 1 ≤ 2 ^ f.E by omega)]; ring
          omega

/-- Encoding then decoding. -/
theorem fltOf_bitsOf (hE : 2 ≤ f.E) (hM : 1 ≤ f.M) {x : Flt} (hx : x.Valid f) : fltOf f (bitsOf f x) = x := by
  obtain ⟨_, _, _, _, _, _, _, h⟩ := bitsOf_enc hE hM hx; exact h

theorem bitsOf_lt (hE : 2 ≤ f.E) (hM : 1 ≤ f.M) {x : Flt} (hx : x.Valid f) : bitsOf f x < 2 ^ (1 + f.E + f.M) := by
  obtain ⟨s, e, m, hs, he, hm, h, _⟩ := bitsOf_enc hE hM hx
  rw [h]; exact enc_lt hs he hm

/-- Decoding is injective up to the payload of NaN. -/
theorem fltOf_inj (hE : 2 ≤ f.E) {v w : ℕ} (hv : v < 2 ^ (1 + f.E + f.M)) (hw : w < 2 ^ (1 + f.E + f.M))
    (hnan : ¬ ((fltOf f v).abn = true ∧ (fltOf f v).man = 0)) (h : fltOf f v = fltOf f w) : v = w := by
  obtain ⟨s, e, m, hs, he, hm, rfl⟩ := exists_enc hv
  obtain ⟨s', e', m', hs', he', hm', rfl⟩ := exists_enc hw
  rw [fltOf_enc hs he hm] at h hnan
  rw [fltOf_enc hs' he' hm'] at h
  have hss : decide (s = 1) = decide (s' = 1) → s = s' := by
    intro h
    rw [decide_eq_decide] at h
    omega
  have hMpos : 0 < 2 ^ f.M := by positivity
  have hge : ∀ m, m < 2 ^ f.M → m * 2 ^ leadingZeros m f.M * 2 < 2 * 2 ^ f.M := by
    intro m hm
    rcases Nat.eq_zero_or_pos m with h | h
    · rw [h]; simp
    · have := (leadingZeros_spec h hm).2.2; omega
  by_cases h1 : e = 2 ^ f.E - 1
  · rw [if_pos h1] at h hnan
    have hm0 : m = 0 := by
      by_contra hc
      simp [hc] at hnan
    by_cases h1' : e' = 2 ^ f.E - 1
    · rw [if_pos h1'] at h
      simp only [Flt.mk.injEq, hm0, if_true, true_and, and_true] at h
      have hm0' : m' = 0 := by
        by_contra hc
        rw [if_neg hc] at h; omega
      rw [hss h.1, h1, h1', hm0, hm0']
    · rw [if_neg h1'] at h
      by_cases h0 : e' = 0
      · rw [if_pos h0] at h; simp at h
      · rw [if_neg h0] at h; simp at h
  · rw [if_neg h1] at h
    by_cases h1' : e' = 2 ^ f.E - 1
    · rw [if_pos h1'] at h
      by_cases h0 : e = 0
      · rw [if_pos h0] at h; simp at h
      · rw [if_neg h0] at h; simp at h
    · rw [if_neg h1'] at h
      by_cases h0 : e = 0
      · rw [if_pos h0] at h
        by_cases h0' : e' = 0
        · rw [if_pos h0'] at h
          simp only [Flt.mk.injEq, and_true] at h
          obtain ⟨ha, hb, hc⟩ := h
          have hk : leadingZeros m f.M = leadingZeros m' f.M := by omega
          rw [hk] at hc
          have hmm : m = m' := by
            have h3 : m * 2 ^ leadingZeros m' f.M = m' * 2 ^ leadingZeros m' f.M := by omega
            exact Nat.eq_of_mul_eq_mul_right (by positivity) h3
          rw [hss ha, h0, h0', hmm]
        · rw [if_neg h0'] at h
          simp only [Flt.mk.injEq, and_true] at h
          have hN := f.eNormalMin_eq
          omega
      · rw [if_neg h0] at h
        by_cases h0' : e' = 0
        · rw [if_pos h0'] at h
          simp only [Flt.mk.injEq, and_true] at h
          have hN := f.eNormalMin_eq
          omega
        · rw [if_neg h0'] at h
          simp only [Flt.mk.injEq, and_true] at h
          obtain ⟨ha, hb, hc⟩ := h
          rw [hss ha, show e = e' by omega, show m = m' by omega]

/-- Encoding a decoded pattern returns it, except that NaN payloads are normalised. -/
theorem bitsOf_fltOf (hE : 2 ≤ f.E) (hM : 1 ≤ f.M) {v : ℕ} (hv : v < 2 ^ (1 + f.E + f.M))
    (hnan : ¬ ((fltOf f v).abn = true ∧ (fltOf f v).man = 0)) : bitsOf f (fltOf f v) = v := by
  have hval := fltOf_valid hE hv
  have h := fltOf_bitsOf hE hM hval
  refine (fltOf_inj hE hv (bitsOf_lt hE hM hval) hnan h.symm).symm

theorem u64_eq {n : ℕ} (h : n < 2 ^ 64) : u64 n = n := Nat.mod_eq_of_lt h

/-- `ValueOf` succeeds on every valid float and returns its encoding. -/
theorem valueOf_eq (hE : 2 ≤ f.E) (hM : 1 ≤ f.M) (h64 : 1 + f.E + f.M ≤ 64) {x : Flt} (hx : x.Valid f) :
    valueOf x.comps f.E f.M = some (bitsOf f x) := by
  have h2E := two_pow_E (f := f) (by omega)
  have hpos := f.eMax_pos
  have hN := f.eNormalMin_eq
  have hmn := f.eMin_eq
  have hlt := lt_of_lt_of_le (bitsOf_lt hE hM hx) (Nat.pow_le_pow_right (by norm_num) h64)
  have hmaxe : 2 ≤ f.eMax := by
    rw [Fmt.eMax_eq]
    calc (2:ℤ) = 2 ^ 1 := rfl
      _ ≤ 2 ^ (f.E - 1) := pow_le_pow_right₀ (by norm_num) (by omega)
  have hP : 2 ^ (f.M + 1) = 2 * 2 ^ f.M := by ring
  have hEM : 2 ^ (f.M + f.E) = 2 ^ (f.E + f.M) := by rw [Nat.add_comm]
  have hE63 : 2 ^ f.E ≤ 2 ^ 62 := Nat.pow_le_pow_right (by norm_num) (by omega)
  have hM63 : 2 ^ f.M ≤ 2 ^ 61 := Nat.pow_le_pow_right (by norm_num) (by omega)
  have hMpos : 0 < 2 ^ f.M := by positivity
  have hEM63 : 2 ^ (f.E + f.M) ≤ 2 ^ 63 := Nat.pow_le_pow_right (by norm_num) (by omega)
  have hM62 : f.M ≤ 61 := by omega
  have hs64 : ∀ s : Bool, u64 (s.toNat * 2 ^ (f.M + f.E)) = s.toNat * 2 ^ (f.E + f.M) := by
    intro s; rw [hEM]; apply u64_eq
    cases s
    · simp
    · simp only [Bool.toNat_true, one_mul]; omega
  have hs1 : ∀ s : Bool, u64 s.toNat = s.toNat := by intro s; cases s <;> rfl
  have hsub : sub64 (2 ^ f.M) (2 ^ f.M) = 0 := by
    have := sub64_eq (le_refl (2 ^ f.M)) (show 2 ^ f.M < 2 ^ 64 by omega)
    rwa [u64_eq (by omega), Nat.sub_self] at this
  have hmax1 : ∀ e : ℤ, e = f.eMax → u64 (e + (2 ^ (f.E - 1) - 1 + (f.M:ℤ))).natAbs = 2 ^ f.E - 1 + f.M := by
    intro e he
    rw [he, show (2:ℤ) ^ (f.E - 1) = f.eMax from rfl]
    have : (f.eMax + (f.eMax - 1 + (f.M:ℤ))).natAbs = 2 ^ f.E - 1 + f.M := by omega
    rw [this, u64_eq (by omega)]
  have h2E4 : 4 ≤ 2 ^ f.E := by
    calc 4 = 2 ^ 2 := rfl
      _ ≤ _ := Nat.pow_le_pow_right (by norm_num) hE
  have hEMmul : 2 ^ f.E * 2 ^ f.M = 2 ^ (f.E + f.M) := by rw [pow_add]
  have hexp : (2 ^ f.E - 1) * 2 ^ f.M + 2 ^ f.M = 2 ^ (f.E + f.M) := by
    rw [Nat.sub_mul, hEMmul, one_mul, Nat.sub_add_cancel (by rw [← hEMmul]; exact Nat.le_mul_of_pos_left _ (by omega))]
  cases hx with
  | nan s =>
    simp only [bitsOf, if_true] at hlt ⊢
    unfold valueOf
    simp only [Flt.comps, hmax1 _ rfl, Bool.toNat_true]
    rw [if_neg (by omega), Nat.add_sub_cancel]
    simp only [hs1, hs64, u64_eq (show 1 < 2 ^ 64 by norm_num), u64_eq (show 0 < 2 ^ 64 by norm_num)]
    simp only [decide_true, bne_self_eq_false, Bool.false_eq_true, if_false, Bool.and_self, if_true]
    rw [u64_eq (show (2 ^ f.E - 1) * 2 ^ f.M < 2 ^ 64 by omega)]
    rw [← Nat.add_assoc] at hlt
    rw [u64_eq (show s.toNat * 2 ^ (f.E + f.M) + (2 ^ f.E - 1) * 2 ^ f.M < 2 ^ 64 by omega), u64_eq hlt, Nat.add_assoc]
  | inf s =>
    have h0 : ¬ (2 ^ f.M = 0) := by omega
    simp only [bitsOf, if_true, h0, if_false, add_zero] at hlt ⊢
    unfold valueOf
    simp only [Flt.comps, hmax1 _ rfl, Bool.toNat_true]
    rw [if_neg (by omega), Nat.add_sub_cancel]
    simp only [hs1, hs64, u64_eq (show 1 < 2 ^ 64 by norm_num), u64_eq (show 2 ^ f.M < 2 ^ 64 by omega)]
    simp only [decide_true, bne_self_eq_false, Bool.false_eq_true, if_false, h0, decide_false, Bool.and_false, hsub]
    rw [u64_eq (show (2 ^ f.E - 1) * 2 ^ f.M < 2 ^ 64 by omega), u64_eq hlt, add_zero, u64_eq hlt]
  | zero s =>
    simp only [bitsOf, Bool.false_eq_true, if_false, if_true, add_zero] at hlt ⊢
    unfold valueOf
    have he : u64 (f.eMin + (2 ^ (f.E - 1) - 1 + (f.M:ℤ))).natAbs = 0 := by
      rw [show (2:ℤ) ^ (f.E - 1) = f.eMax from rfl]
      have : (f.eMin + (f.eMax - 1 + (f.M:ℤ))).natAbs = 0 := by omega
      rw [this]; rfl
    simp only [Flt.comps, he, Bool.toNat_false]
    rw [if_pos (by omega)]
    simp only [hs1, hs64, u64_eq (show 0 < 2 ^ 64 by norm_num)]
    simp [u64_eq hlt, u64_eq (show 0 < 2 ^ 64 by norm_num)]
  | fin s e m h1 h2 h3 h4 h5 =>
    have hm0 : ¬ m = 0 := by omega
    have hm64 : m < 2 ^ 64 := by omega
    have hev : (e + (2 ^ (f.E - 1) - 1 + (f.M:ℤ))).natAbs < 2 ^ 64 := by
      rw [show (2:ℤ) ^ (f.E - 1) = f.eMax from rfl]; omega
    simp only [bitsOf, Bool.false_eq_true, if_false, hm0] at hlt ⊢
    unfold valueOf
    simp only [Flt.comps, Bool.toNat_false, hs1, hs64, u64_eq hev, u64_eq hm64, u64_eq (show 0 < 2 ^ 64 by norm_num)]
    rw [show (2:ℤ) ^ (f.E - 1) = f.eMax from rfl]
    by_cases he : e < f.eNormalMin
    · rw [if_pos (show (e + (f.eMax - 1 + (f.M:ℤ))).natAbs ≤ f.M by omega)]
      rw [if_pos he] at hlt ⊢
      have he0 : ¬ (e + (f.eMax - 1 + (f.M:ℤ))).natAbs = 0 := by omega
      simp only [he0, hm0, decide_false, bne_self_eq_false, Bool.or_false, show ¬ (0 = 1) by norm_num, Bool.false_eq_true, if_false]
      rw [show f.M + 1 - (e + (f.eMax - 1 + (f.M:ℤ))).natAbs = (f.eNormalMin - e).toNat by omega]
      rw [Nat.div_mul_cancel (h5 he), u64_eq hm64]
      simp only [ne_eq, not_true, if_false]
      rw [u64_eq hlt]
    · rw [if_neg (show ¬ (e + (f.eMax - 1 + (f.M:ℤ))).natAbs ≤ f.M by omega)]
      rw [if_neg he] at hlt ⊢
      have hx : (e + (f.eMax - 1 + (f.M:ℤ))).natAbs - f.M = (e + (f.eMax - 1)).toNat := by omega
      have hne : ¬ (e + (f.eMax - 1)).toNat = 2 ^ f.E - 1 := by omega
      simp only [hx, hne, decide_false, show ¬ (0 = 1) by norm_num, bne_self_eq_false, Bool.false_eq_true, if_false, Bool.false_and]
      have hsm : sub64 m (2 ^ f.M) = m - 2 ^ f.M := by
        have := sub64_eq h1 hm64
        rwa [u64_eq (by omega)] at this
      rw [hsm, u64_eq (show (e + (f.eMax - 1)).toNat * 2 ^ f.M < 2 ^ 64 by omega)]
      rw [← Nat.add_assoc] at hlt
      rw [u64_eq (show s.toNat * 2 ^ (f.E + f.M) + (e + (f.eMax - 1)).toNat * 2 ^ f.M < 2 ^ 64 by omega), u64_eq hlt, Nat.add_assoc]

end ZkLoc
