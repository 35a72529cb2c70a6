import Verif.Value

/-!
# Helper lemmas: `Mul` and `Div` at integer level compute the IEEE result
-/

namespace ZkLoc

open Ieee (Datum IsRNE RoundsTo Representable)

variable {f : Fmt}

/-- Magnitude of a finite integer-level float. -/
noncomputable def Flt.mag (f : Fmt) (x : Flt) : ℝ := x.man * (2:ℝ) ^ (x.exp - f.M)

theorem Flt.Valid.exp_of_abn {x : Flt} (hx : x.Valid f) (h : x.abn = true) : x.exp = f.eMax := by
  cases hx with
  | nan s => rfl
  | inf s => rfl
  | zero s => exact absurd h (by simp)
  | fin s e m => exact absurd h (by simp)

theorem Flt.Valid.exp_of_zero {x : Flt} (hx : x.Valid f) (h : x.abn = false) (hm : x.man = 0) : x.exp = f.eMin := by
  have h2 : 0 < 2 ^ f.M := by positivity
  cases hx with
  | nan s => exact absurd h (by simp)
  | inf s => exact absurd h (by simp)
  | zero s => rfl
  | fin s e m h1 h2 h3 h4 h5 => simp only at hm; omega

/-- The significand computed by `Mul`/`Div` from a normalised `L`-bit product or quotient `N`. -/
def rndSub (f : Fmt) (N L : ℕ) (e : ℤ) (h : Bool) : ℕ :=
  rnd (N * 2 ^ (f.M + 2 - subShift f e (f.M + 2))) (f.M + 2 + L - f.M - 1) h * 2 ^ subShift f e (f.M + 2)

/-- Rounding a normalised significand, with gradual underflow, is IEEE rounding of the exact value `v`.
`u` is the exact (real) significand: equal to `N`, or strictly between `N` and `N + D`. -/
theorem rndSub_correct (hM1 : 1 ≤ f.M) {N L D : ℕ} {e : ℤ} {h : Bool} {u : ℝ} (hL : f.M + 2 ≤ L)
    (hN1 : 2 ^ (L - 1) ≤ N) (hN2 : N < 2 ^ L) (hD : D ∣ N) (hD2 : D ∣ 2 ^ (L - f.M - 2)) (hu1 : h = true → u = N)
    (hu2 : h = false → (N:ℝ) < u ∧ u < N + D) :
    (rndSub f N L e h = 0 ∨ (2 ^ f.M ≤ rndSub f N L e h ∧ rndSub f N L e h ≤ 2 ^ (f.M + 1))) ∧
    (e < f.eNormalMin → rndSub f N L e h ≠ 0 → 2 ^ (f.eNormalMin - e).toNat ∣ rndSub f N L e h) ∧
    (rndSub f N L e h = 0 → e < f.eNormalMin) ∧
    IsRNE f.ieee (u * (2:ℝ) ^ (e + 1 - L)) (rndSub f N L e h * (2:ℝ) ^ (e - f.M)) := by
  obtain ⟨σ, hσ⟩ : ∃ σ, σ = subShift f e (f.M + 2) := ⟨_, rfl⟩
  have hσle : σ ≤ f.M + 2 := hσ ▸ subShift_le _ _
  have hσ1 : f.eNormalMin ≤ e → σ = 0 := by intro h; rw [hσ]; unfold subShift; omega
  have hσ2 : e < f.eNormalMin → σ < f.M + 2 → (σ:ℤ) = f.eNormalMin - e := by
    intro h h2; rw [hσ] at h2 ⊢; unfold subShift at h2 ⊢; omega
  have hσ3 : σ = f.M + 2 → e ≤ f.eNormalMin - (f.M + 2) := by
    intro h2; rw [hσ] at h2; unfold subShift at h2; omega
  obtain ⟨q, hq⟩ : ∃ q, q = f.M + 2 + L - f.M - 1 := ⟨_, rfl⟩
  have hqL : q = L + 1 := by omega
  obtain ⟨n, hn⟩ : ∃ n, n = rnd (N * 2 ^ (f.M + 2 - σ)) q h := ⟨_, rfl⟩
  have hm : rndSub f N L e h = n * 2 ^ σ := by unfold rndSub; rw [← hσ, ← hq, ← hn]
  rw [hm]
  -- exact value bounds
  have hu : (N:ℝ) ≤ u ∧ u ≤ N + D := by
    cases h
    · exact ⟨(hu2 rfl).1.le, (hu2 rfl).2.le⟩
    · rw [hu1 rfl]; exact ⟨le_rfl, by linarith [show (0:ℝ) ≤ D by positivity]⟩
  have hDpos : 0 < D := Nat.pos_of_dvd_of_pos hD2 (by positivity)
  have hND : N + D ≤ 2 ^ L := by
    have hd : D ∣ 2 ^ L := dvd_trans hD2 (pow_dvd_pow _ (by omega))
    obtain ⟨i, rfl⟩ := hD
    obtain ⟨j, hj⟩ := hd
    rw [hj] at hN2 ⊢
    have hij : i < j := Nat.lt_of_mul_lt_mul_left hN2
    calc D * i + D = D * (i + 1) := by ring
      _ ≤ D * j := Nat.mul_le_mul_left _ hij
  by_cases hclamp : σ = f.M + 2
  · -- far below the subnormal range: everything rounds to zero
    have hn0 : n = 0 := by
      rw [hn, hclamp, Nat.sub_self, pow_zero, mul_one, hqL]
      unfold rnd
      have h1 : N % 2 ^ (L + 1) = N := Nat.mod_eq_of_lt (lt_trans hN2 (Nat.pow_lt_pow_right (by norm_num) (by omega)))
      have h2 : N / 2 ^ (L + 1) = 0 := Nat.div_eq_of_lt (lt_trans hN2 (Nat.pow_lt_pow_right (by norm_num) (by omega)))
      rw [h1, h2, Nat.add_sub_cancel]
      have h3 : ¬ (N = 2 ^ L ∧ h = true) := by omega
      rw [if_neg h3, if_neg (by omega)]
    have he := hσ3 hclamp
    rw [hn0, zero_mul]
    refine ⟨Or.inl rfl, fun _ h => absurd rfl h, fun _ => by omega, ?_⟩
    have h1 : IsRNE f.ieee (u * (2:ℝ) ^ (e + 1 - L)) ((0:ℕ) * (2:ℝ) ^ f.ieee.qmin) := by
      refine Ieee.isRNE_of_quantum hM1 le_rfl (by positivity) ?_ (fun _ => ⟨0, rfl⟩) (Or.inl rfl)
      have h2 : u * (2:ℝ) ^ (e + 1 - L) ≤ 2 ^ (e + 1) := by
        have h3 : u ≤ 2 ^ L := by
          have : ((N + D : ℕ) : ℝ) ≤ 2 ^ L := by exact_mod_cast hND
          push_cast at this; linarith [hu.2]
        have h4 : (2:ℝ) ^ (e + 1) = 2 ^ L * 2 ^ (e + 1 - L) := by
          rw [← zpow_natCast, ← zpow_add₀ (by norm_num)]; congr 1; ring
        rw [h4]; exact mul_le_mul_of_nonneg_right h3 (by positivity)
      have h5 : (2:ℝ) ^ (e + 1) ≤ 2 ^ f.ieee.qmin / 2 := by
        rw [div_eq_mul_inv, ← zpow_sub_one₀ (by norm_num)]
        apply zpow_le_zpow_right₀ (by norm_num)
        rw [ieee_qmin]; omega
      have h6 : 0 ≤ u * (2:ℝ) ^ (e + 1 - L) := mul_nonneg (le_trans (by positivity) hu.1) (by positivity)
      rw [Nat.cast_zero, zero_mul, sub_zero, abs_of_nonneg h6]
      linarith
    simpa using h1
  · have hσlt : σ ≤ f.M + 1 := by omega
    -- the rounded significand is at most `2^(M+1-σ)`
    have hV : N * 2 ^ (f.M + 2 - σ) < 2 ^ (q + (f.M + 1 - σ)) := by
      have h1 : N * 2 ^ (f.M + 2 - σ) < 2 ^ L * 2 ^ (f.M + 2 - σ) := Nat.mul_lt_mul_of_pos_right hN2 (by positivity)
      rw [← pow_add] at h1
      rw [show q + (f.M + 1 - σ) = L + (f.M + 2 - σ) by omega]; exact h1
    have hnle : n ≤ 2 ^ (f.M + 1 - σ) := hn ▸ rnd_le hV
    have hmle : n * 2 ^ σ ≤ 2 ^ (f.M + 1) := by
      calc n * 2 ^ σ ≤ 2 ^ (f.M + 1 - σ) * 2 ^ σ := Nat.mul_le_mul_right _ hnle
        _ = _ := by rw [← pow_add]; congr 1; omega
    have hnge : σ ≤ f.M → 2 ^ (f.M - σ) ≤ n := by
      intro hs
      have h1 : 2 ^ (f.M - σ) ≤ N * 2 ^ (f.M + 2 - σ) / 2 ^ q := by
        rw [Nat.le_div_iff_mul_le (by positivity), ← pow_add]
        calc 2 ^ (f.M - σ + q) = 2 ^ (L - 1) * 2 ^ (f.M + 2 - σ) := by rw [← pow_add]; congr 1; omega
          _ ≤ _ := Nat.mul_le_mul_right _ hN1
      rw [hn]; unfold rnd
      split
      · omega
      · split <;> omega
    have hmge : σ ≤ f.M → 2 ^ f.M ≤ n * 2 ^ σ := by
      intro hs
      calc 2 ^ f.M = 2 ^ (f.M - σ) * 2 ^ σ := by rw [← pow_add]; congr 1; omega
        _ ≤ _ := Nat.mul_le_mul_right _ (hnge hs)
    refine ⟨?_, ?_, ?_, ?_⟩
    · by_cases hs : σ ≤ f.M
      · exact Or.inr ⟨hmge hs, hmle⟩
      · have hs : σ = f.M + 1 := by omega
        rw [hs, Nat.sub_self, pow_zero] at hnle
        rcases Nat.le_one_iff_eq_zero_or_eq_one.1 hnle with h0 | h1
        · left; rw [h0, zero_mul]
        · right; rw [h1, one_mul, hs]
          exact ⟨Nat.pow_le_pow_right (by norm_num) (by omega), le_rfl⟩
    · intro he _
      have := hσ2 he (by omega)
      rw [show (f.eNormalMin - e).toNat = σ by omega]
      exact Dvd.intro_left _ rfl
    · intro h0
      by_contra hge
      have hs := hσ1 (by omega)
      have := hmge (by omega)
      have h3 : 0 < 2 ^ f.M := by positivity
      omega
    · -- rounding at quantum `2^(e + σ - M)`
      obtain ⟨hr1, hr2⟩ := rnd_real (V := N * 2 ^ (f.M + 2 - σ)) (q := q) (D := D * 2 ^ (f.M + 2 - σ)) (h := h)
        (w := u * 2 ^ (f.M + 2 - σ)) (by omega) (Nat.mul_dvd_mul_right hD _) (by
          have h1 : D * 2 ^ (f.M + 2 - σ) ∣ 2 ^ (L - f.M - 2) * 2 ^ (f.M + 2 - σ) := Nat.mul_dvd_mul_right hD2 _
          rw [← pow_add] at h1
          exact dvd_trans h1 (pow_dvd_pow _ (by omega)))
        (by intro h; rw [hu1 h]; push_cast; ring)
        (by
          intro h
          have hp : (0:ℝ) < 2 ^ (f.M + 2 - σ) := by positivity
          push_cast
          refine ⟨mul_lt_mul_of_pos_right (hu2 h).1 hp, ?_⟩
          rw [← add_mul]; exact mul_lt_mul_of_pos_right (hu2 h).2 hp)
      rw [← hn] at hr1 hr2
      obtain ⟨k, hk⟩ : ∃ k : ℤ, k = e + σ - f.M := ⟨_, rfl⟩
      have hval : ((n * 2 ^ σ : ℕ) : ℝ) * 2 ^ (e - f.M) = n * (2:ℝ) ^ k := by
        rw [hk, show e + (σ:ℤ) - f.M = σ + (e - f.M) by ring, zpow_add₀ (by norm_num), zpow_natCast]; push_cast; ring
      have hscale : (0:ℝ) < 2 ^ (k - q) := by positivity
      have hv : u * (2:ℝ) ^ (e + 1 - L) - n * 2 ^ k = (u * 2 ^ (f.M + 2 - σ) - n * 2 ^ q) * 2 ^ (k - q) := by
        rw [sub_mul]
        congr 1
        · rw [mul_assoc, ← zpow_natCast, ← zpow_add₀ (by norm_num)]
          congr 2; push_cast [Nat.cast_sub (show σ ≤ f.M + 2 by omega)]; rw [hk, hqL]; push_cast; ring
        · rw [mul_assoc, ← zpow_natCast, ← zpow_add₀ (by norm_num)]
          congr 2; ring
      have hhalf : (2:ℝ) ^ k / 2 = 2 ^ q / 2 * 2 ^ (k - q) := by
        rw [div_mul_eq_mul_div, ← zpow_natCast, ← zpow_add₀ (by norm_num)]
        congr 2; ring
      rw [hval]
      refine Ieee.isRNE_of_quantum hM1 ?_ (le_trans hnle (Nat.pow_le_pow_right (by norm_num) (by rw [ieee_M]; omega))) ?_ ?_ ?_
      · rw [ieee_qmin, hk]
        by_cases he : e < f.eNormalMin
        · have := hσ2 he (by omega); omega
        · have := hσ1 (by omega); omega
      · rw [hv, abs_mul, abs_of_pos hscale, hhalf]
        exact mul_le_mul_of_nonneg_right hr1 hscale.le
      · rw [hv, abs_mul, abs_of_pos hscale, hhalf]
        intro heq
        exact hr2 (mul_right_cancel₀ hscale.ne' heq)
      · by_cases he : e < f.eNormalMin
        · left; rw [ieee_qmin, hk]; have := hσ2 he (by omega); omega
        · right
          have hs := hσ1 (by omega)
          rw [hk, hs, ieee_M]
          have h1 : (2:ℝ) ^ f.M * 2 ^ (e + (0:ℕ) - (f.M:ℤ)) = 2 ^ (L - 1) * 2 ^ (e + 1 - L) := by
            rw [← zpow_natCast, ← zpow_natCast, ← zpow_add₀ (by norm_num), ← zpow_add₀ (by norm_num)]
            congr 1; push_cast [Nat.cast_sub (show 1 ≤ L by omega)]; ring
          rw [h1]
          have h2 : ((2 ^ (L - 1) : ℕ) : ℝ) ≤ N := by exact_mod_cast hN1
          push_cast at h2
          exact mul_le_mul_of_nonneg_right (le_trans h2 hu.1) (by positivity)

theorem rnd_zero' (q : ℕ) (h : Bool) : rnd 0 q h = 0 := rnd_zero q h

theorem isRNE_zero (f : Fmt) : IsRNE f.ieee 0 0 := by
  apply Representable.isRNE
  exact ⟨0, f.ieee.qmin, by positivity, le_rfl, by simp⟩

/-- `fixZ` on abnormal input. -/
theorem fixZ_abn (f : Fmt) (m : ℕ) (mz : Bool) (e : ℤ) (c : Bool) :
    fixZ f m mz e true c = (2 ^ f.M, f.eMax, true) := by
  unfold fixZ; simp

/-- Integer-level `Mul` computes the IEEE product. -/
theorem mulZ_correct {p b : ℕ} [Fact p.Prime] (G : Good p b f) {x y : Flt} (hx : x.Valid f) (hy : y.Valid f) :
    (mulZ f x y true).Valid f ∧ Ieee.Mul f.ieee (x.datum f) (y.datum f) ((mulZ f x y true).datum f) ∧
    ((mulZ f x y false = mulZ f x y true ∧ (x.abn = false → y.abn = false → NoTop f (x.mag f * y.mag f))) ∨ (x.abn = false ∧ y.abn = false ∧
      Pseudo f (xor x.sign y.sign) (x.mag f * y.mag f) (mulZ f x y false))) := by
  have hMz := G.hMz
  have hmn := f.eMin_eq
  have hNm := f.eNormalMin_eq
  have hpos := f.eMax_pos
  have hM1 : 1 ≤ f.M := by have := G.hEM; have := G.hE; omega
  have hbx := hx.bdd G
  have hby := hy.bdd G
  have hcx := hx.man_cases
  have hcy := hy.man_cases
  -- common data of the model function
  obtain ⟨N0, hN0⟩ : ∃ N0, N0 = x.man * y.man := ⟨_, rfl⟩
  obtain ⟨msb, hmsb⟩ : ∃ msb : Bool, msb = decide (2 ^ (2 * f.M + 1) ≤ N0) := ⟨_, rfl⟩
  obtain ⟨N, hN⟩ : ∃ N, N = if msb then N0 else N0 + N0 := ⟨_, rfl⟩
  obtain ⟨e, he⟩ : ∃ e : ℤ, e = x.exp + y.exp + (if msb then 1 else 0) := ⟨_, rfl⟩
  obtain ⟨m, hm⟩ : ∃ m, m = rndSub f N (2 * f.M + 2) e true := ⟨_, rfl⟩
  have hmul : ∀ c, mulZ f x y c = ⟨xor x.sign y.sign, (fixZ f m (decide (m = 0)) e (x.abn || y.abn) c).2.1,
      if m = 0 then 0 else (fixZ f m (decide (m = 0)) e (x.abn || y.abn) c).1,
      (fixZ f m (decide (m = 0)) e (x.abn || y.abn) c).2.2⟩ := by
    intro c
    have : m = rnd (N * 2 ^ (f.M + 2 - subShift f e (f.M + 2))) (2 * f.M + 3) true * 2 ^ subShift f e (f.M + 2) := by
      rw [hm]; unfold rndSub; rw [show f.M + 2 + (2 * f.M + 2) - f.M - 1 = 2 * f.M + 3 by omega]
    unfold mulZ
    simp only
    rw [← hN0, ← hmsb, ← hN, ← he, ← this]
  have hMM : 2 ^ f.M * 2 ^ f.M = 2 ^ (2 * f.M) := by rw [← pow_add]; congr 1; omega
  have h21 : 2 ^ (2 * f.M + 1) = 2 * 2 ^ (2 * f.M) := by ring
  have h22 : 2 ^ (2 * f.M + 2) = 4 * 2 ^ (2 * f.M) := by ring
  have hN0lt : N0 < 2 ^ (2 * f.M + 2) := by
    rw [hN0, show 2 ^ (2 * f.M + 2) = 2 ^ (f.M + 1) * 2 ^ (f.M + 1) by rw [← pow_add]; congr 1; omega]
    exact Nat.mul_lt_mul'' hbx.man hby.man
  have hN0z : N0 = 0 ↔ x.man = 0 ∨ y.man = 0 := by rw [hN0]; exact Nat.mul_eq_zero
  have hnz : N0 ≠ 0 → 2 ^ (2 * f.M + 1) ≤ N ∧ N < 2 ^ (2 * f.M + 2) := by
    intro h0
    have hx' : 2 ^ f.M ≤ x.man := by rcases hcx with h | h; · exact absurd (hN0z.2 (Or.inl h)) h0
                                     · exact h
    have hy' : 2 ^ f.M ≤ y.man := by rcases hcy with h | h; · exact absurd (hN0z.2 (Or.inr h)) h0
                                     · exact h
    have h1 : 2 ^ (2 * f.M) ≤ N0 := by rw [hN0, ← hMM]; exact Nat.mul_le_mul hx' hy'
    rw [hN, hmsb]
    by_cases hb : 2 ^ (2 * f.M + 1) ≤ N0
    · simp [hb]; exact hN0lt
    · simp [hb]; omega
  -- the significand
  have hkey : N0 ≠ 0 → _ := fun h0 => rndSub_correct (f := f) hM1 (N := N) (L := 2 * f.M + 2) (D := 1) (e := e) (h := true)
    (u := (N:ℝ)) (by omega) (by rw [show 2 * f.M + 2 - 1 = 2 * f.M + 1 by omega]; exact (hnz h0).1) (hnz h0).2
    (one_dvd _) (one_dvd _) (fun _ => rfl) (by simp)
  rw [← hm] at hkey
  have hm0 : N0 = 0 → m = 0 := by
    intro h0
    rw [hm, hN, h0]; unfold rndSub; simp [rnd_zero]
  by_cases habn : (x.abn || y.abn) = true
  · -- an operand is abnormal
    have hres : ∀ c, mulZ f x y c = ⟨xor x.sign y.sign, f.eMax, if m = 0 then 0 else 2 ^ f.M, true⟩ := by
      intro c; rw [hmul, habn, fixZ_abn]
    have hexp : N0 ≠ 0 → m ≠ 0 := by
      intro h0 hmz
      have := (hkey h0).2.2.1 hmz
      have h1 : f.eMin + f.eMax ≤ e := by
        rw [he]
        have hxe : x.exp = f.eMax ∨ y.exp = f.eMax := by
          rw [Bool.or_eq_true] at habn
          rcases habn with h | h
          · exact Or.inl (hx.exp_of_abn h)
          · exact Or.inr (hy.exp_of_abn h)
        have := hbx.lo
        have := hby.lo
        have h3 : (0:ℤ) ≤ (if msb then 1 else 0) := by split <;> norm_num
        rcases hxe with h | h <;> omega
      omega
    have hmN : m = 0 ↔ x.man = 0 ∨ y.man = 0 :=
      ⟨fun h => by by_contra hc; exact hexp (fun h0 => hc (hN0z.1 h0)) h, fun h => hm0 (hN0z.2 h)⟩
    refine ⟨?_, ?_, Or.inl ⟨by rw [hres, hres], fun h1 h2 => by simp [h1, h2] at habn⟩⟩
    · rw [hres]
      by_cases h : m = 0
      · rw [if_pos h]; exact Flt.Valid.nan _
      · rw [if_neg h]; exact Flt.Valid.inf _
    · rw [hres]
      simp only [hmN]
      have h2M : (2:ℕ) ^ f.M ≠ 0 := by positivity
      have hzp : ∀ k : ℤ, (2:ℝ) ^ k ≠ 0 := fun k => by positivity
      cases hx with
      | nan s => cases hy <;> simp [Flt.datum, Ieee.Mul]
      | inf s =>
        cases hy with
        | nan t => simp [Flt.datum, Ieee.Mul]
        | inf t => simp [Flt.datum, Ieee.Mul]
        | zero t => simp [Flt.datum, Ieee.Mul]
        | fin t e' m' h1 h2 h3 h4 h5 =>
          have hm' : m' ≠ 0 := by have := Nat.pos_of_ne_zero h2M; omega
          simp [Flt.datum, Ieee.Mul, hm', hzp]
      | zero s =>
        cases hy with
        | nan t => simp [Flt.datum, Ieee.Mul]
        | inf t => simp [Flt.datum, Ieee.Mul]
        | zero t => simp at habn
        | fin t e' m' h1 h2 h3 h4 h5 => simp at habn
      | fin s e' m' h1 h2 h3 h4 h5 =>
        have hm' : m' ≠ 0 := by have := Nat.pos_of_ne_zero h2M; omega
        cases hy with
        | nan t => simp [Flt.datum, Ieee.Mul]
        | inf t => simp [Flt.datum, Ieee.Mul, hm', hzp]
        | zero t => simp at habn
        | fin t e'' m'' h1 h2 h3 h4 h5 => simp at habn
  · -- finite operands
    have habn' : (x.abn || y.abn) = false := by simpa using habn
    have hxa : x.abn = false := by cases h : x.abn <;> simp_all
    have hya : y.abn = false := by cases h : y.abn <;> simp_all
    have hres : ∀ c, mulZ f x y c = fixRec f (xor x.sign y.sign) m e c := by
      intro c; rw [hmul, habn']; rfl
    have hdx : x.datum f = .fin x.sign (x.mag f) := by simp [Flt.datum, Flt.mag, hxa]
    have hdy : y.datum f = .fin y.sign (y.mag f) := by simp [Flt.datum, Flt.mag, hya]
    have hval : N0 ≠ 0 → x.mag f * y.mag f = (N:ℝ) * 2 ^ (e + 1 - ((2 * f.M + 2 : ℕ) : ℤ)) := by
      intro _
      have h1 : x.mag f * y.mag f = (N0:ℝ) * 2 ^ (x.exp + y.exp - 2 * f.M) := by
        unfold Flt.mag
        rw [hN0, show x.exp + y.exp - 2 * (f.M:ℤ) = (x.exp - f.M) + (y.exp - f.M) by ring, zpow_add₀ (by norm_num)]
        push_cast; ring
      rw [h1, hN, he]
      cases msb
      · simp only [Bool.false_eq_true, if_false]
        rw [show x.exp + y.exp + 0 + 1 - ((2 * f.M + 2 : ℕ) : ℤ) = x.exp + y.exp - 2 * f.M - 1 by push_cast; ring,
          zpow_sub_one₀ (by norm_num)]
        push_cast; ring
      · simp only [if_true]
        congr 2; push_cast; ring
    have hrne : IsRNE f.ieee (x.mag f * y.mag f) (m * (2:ℝ) ^ (e - f.M)) := by
      by_cases h0 : N0 = 0
      · rw [hm0 h0]
        have : x.mag f * y.mag f = 0 := by
          unfold Flt.mag
          rcases hN0z.1 h0 with h | h <;> rw [h] <;> simp
        rw [this]; simpa using isRNE_zero f
      · rw [hval h0]; exact (hkey h0).2.2.2
    have hfix := fix_correct (f := f) hMz (s := xor x.sign y.sign) (m := m) (e := e)
      (by
        by_cases h0 : N0 = 0
        · exact Or.inl (hm0 h0)
        · exact (hkey h0).1)
      (by
        intro h1 h2
        exact (hkey (fun h0 => h2 (hm0 h0))).2.1 h1 h2)
      (by
        intro h1
        by_cases h0 : N0 = 0
        · have hb : msb = false := by
            rw [hmsb, h0]; have : 0 < 2 ^ (2 * f.M + 1) := by positivity
            simp
          rw [he, hb]
          simp only [Bool.false_eq_true, if_false]
          have h3 : x.exp = f.eMin ∨ y.exp = f.eMin := by
            rcases hN0z.1 h0 with h | h
            · exact Or.inl (hx.exp_of_zero hxa h)
            · exact Or.inr (hy.exp_of_zero hya h)
          have := hbx.hi
          have := hby.hi
          rcases h3 with h3 | h3 <;> omega
        · have := (hkey h0).2.2.1 h1; omega) hrne
    rw [hres, hres, hdx, hdy]
    exact ⟨hfix.1.1, hfix.1.2, hfix.2.imp (fun h => ⟨h.1, fun _ _ => h.2⟩) (fun h => ⟨hxa, hya, h⟩)⟩

end ZkLoc
