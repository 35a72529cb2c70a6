import Verif.MulVal

/-!
# Helper lemmas: `Sqrt` at integer level computes the IEEE square root
-/

namespace ZkLoc

open Ieee (Datum IsRNE RoundsTo Representable)

variable {f : Fmt}

/-- Bounds on the rounded root: no carry out of the significand. -/
theorem sqrt_round {M X m n : ℕ} {odd : Bool} (hX1 : 2 ^ M ≤ X) (hX2 : X < 2 ^ (M + 1))
    (hm : m = X * 2 ^ (M + 4) * (if odd then 2 else 1)) (hn : n = Nat.sqrt m) (h : Bool) :
    2 ^ (M + 2) ≤ n ∧ 2 ^ M ≤ rnd n 2 h ∧ rnd n 2 h < 2 ^ (M + 1) := by
  obtain ⟨P, hP⟩ : ∃ P, P = 2 ^ M := ⟨_, rfl⟩
  have hPpos : 1 ≤ P := by rw [hP]; exact Nat.one_le_two_pow
  have h1 : 2 ^ (M + 1) = 2 * P := by rw [hP]; ring
  have h2 : 2 ^ (M + 2) = 4 * P := by rw [hP]; ring
  have h4 : 2 ^ (M + 4) = 16 * P := by rw [hP]; ring
  rw [h1] at *; rw [h2]; rw [h4] at hm; rw [← hP] at hX1 ⊢
  have hlo : (4 * P) * (4 * P) ≤ m := by
    rw [hm]; cases odd <;> simp <;> nlinarith
  have hhi : m < (8 * P - 2) * (8 * P - 2) := by
    obtain ⟨Q, rfl⟩ : ∃ Q, P = Q + 1 := ⟨P - 1, by omega⟩
    rw [show 8 * (Q + 1) - 2 = 8 * Q + 6 by omega]
    have : m ≤ (2 * (Q + 1) - 1) * (16 * (Q + 1)) * 2 := by
      rw [hm]
      have hXle : X ≤ 2 * (Q + 1) - 1 := by omega
      cases odd
      · simp only [Bool.false_eq_true, if_false, mul_one]
        calc _ ≤ (2 * (Q + 1) - 1) * (16 * (Q + 1)) := Nat.mul_le_mul_right _ hXle
          _ ≤ _ := by omega
      · simp only [if_true]
        exact Nat.mul_le_mul_right _ (Nat.mul_le_mul_right _ hXle)
    rw [show 2 * (Q + 1) - 1 = 2 * Q + 1 by omega] at this
    nlinarith
  have hn1 : 4 * P ≤ n := by rw [hn]; exact Nat.le_sqrt.2 hlo
  have hn2 : n < 8 * P - 2 := by rw [hn]; exact Nat.sqrt_lt.2 hhi
  refine ⟨hn1, ?_, ?_⟩ <;> unfold rnd <;> norm_num <;> split_ifs <;> omega

/-- Integer-level `Sqrt` computes the IEEE square root. -/
theorem sqrtZ_correct {p b : ℕ} [Fact p.Prime] (G : Good p b f) {x : Flt} (hx : x.Valid f) :
    (sqrtZ f x).Valid f ∧ Ieee.Sqrt f.ieee (x.datum f) ((sqrtZ f x).datum f) := by
  have hMz := G.hMz
  have hmn := f.eMin_eq
  have hNm := f.eNormalMin_eq
  have hpos := f.eMax_pos
  have hM1 : 1 ≤ f.M := by have := G.hEM; have := G.hE; omega
  have hbx := hx.bdd G
  obtain ⟨odd, hodd⟩ : ∃ odd : Bool, odd = decide (x.exp % 2 = 1) := ⟨_, rfl⟩
  obtain ⟨e, he⟩ : ∃ e : ℤ, e = (x.exp - (if odd then 1 else 0)) / 2 := ⟨_, rfl⟩
  obtain ⟨m, hm⟩ : ∃ m : ℕ, m = x.man * 2 ^ (f.M + 4) * (if odd then 2 else 1) := ⟨_, rfl⟩
  obtain ⟨n, hn⟩ : ∃ n, n = Nat.sqrt m := ⟨_, rfl⟩
  obtain ⟨h, hh⟩ : ∃ h : Bool, h = decide (m = n * n) := ⟨_, rfl⟩
  obtain ⟨q, hq⟩ : ∃ q, q = rnd n 2 h := ⟨_, rfl⟩
  have hsq : sqrtZ f x = ⟨x.sign, if ((x.sign && !decide (n = 0)) || x.abn) then f.eMax else if n = 0 then f.eMin else e,
      if x.sign then 0 else q, (x.sign && !decide (n = 0)) || x.abn⟩ := by
    have hm' : m = if odd then x.man * 2 ^ (f.M + 4) + x.man * 2 ^ (f.M + 4) else x.man * 2 ^ (f.M + 4) := by
      rw [hm]; cases odd <;> simp; ring
    unfold sqrtZ
    simp only
    rw [← hodd, ← he, ← hm', ← hn, ← hh, ← hq]
  have he2 : x.exp = 2 * e + (if odd then 1 else 0) := by
    rw [he, hodd]
    rcases Int.emod_two_eq_zero_or_one x.exp with h | h <;> simp [h] <;> omega
  have h2M : (2:ℕ) ^ f.M ≠ 0 := by positivity
  have hzp : ∀ k : ℤ, (2:ℝ) ^ k ≠ 0 := fun k => by positivity
  have h0 : x.man = 0 → n = 0 ∧ q = 0 := by
    intro h
    have hn0 : n = 0 := by rw [hn, hm, h]; simp
    exact ⟨hn0, by rw [hq, hn0]; exact rnd_zero _ _⟩
  have hnz : 2 ^ f.M ≤ x.man → n ≠ 0 ∧ 2 ^ f.M ≤ q ∧ q < 2 ^ (f.M + 1) := by
    intro h1
    have := sqrt_round h1 hbx.man hm hn h
    rw [← hq] at this
    have h3 : 0 < 2 ^ (f.M + 2) := by positivity
    exact ⟨by omega, this.2⟩
  rw [hsq]
  cases hx with
  | nan s =>
    obtain ⟨hn0, hq0⟩ := h0 rfl
    simp only [hn0, hq0]
    simp [Flt.datum, Ieee.Sqrt]
    exact Flt.Valid.nan s
  | inf s =>
    obtain ⟨hn0, _⟩ := hnz le_rfl
    have hodd0 : odd = false := by
      rw [hodd, Fmt.eMax_eq]
      have := G.hE
      obtain ⟨k, hk⟩ : ∃ k, f.E - 1 = k + 1 := ⟨f.E - 2, by omega⟩
      simp only [hk, pow_succ, decide_eq_false_iff_not]; omega
    have hq0 : q = 2 ^ f.M := by
      have hm1 : m = (2 ^ (f.M + 2)) ^ 2 := by
        rw [hm, hodd0]; simp only [Bool.false_eq_true, if_false]; ring
      have hn1 : n = 2 ^ (f.M + 2) := by rw [hn, hm1, sq, Nat.sqrt_eq]
      rw [hq, hn1, hh, hn1, hm1]
      unfold rnd
      rw [show 2 ^ (f.M + 2) = 2 ^ f.M * 2 ^ 2 by ring]
      simp
    simp only [hn0, hq0]
    cases s
    · simp [Flt.datum, Ieee.Sqrt]; exact Flt.Valid.inf _
    · simp [Flt.datum, Ieee.Sqrt]; exact Flt.Valid.nan _
  | zero s =>
    obtain ⟨hn0, hq0⟩ := h0 rfl
    simp only [hn0, hq0]
    simp [Flt.datum, Ieee.Sqrt]
    exact Flt.Valid.zero s
  | fin s ex X hX1 hX2 hX3 hX4 hX5 =>
    obtain ⟨hn0, hq1, hq2⟩ := hnz hX1
    dsimp only at hm he2
    have hX0 : X ≠ 0 := by omega
    cases s
    · -- positive
      simp only [Bool.false_and, Bool.false_or, Bool.false_eq_true, if_false, hn0]
      have hodd01 : (0:ℤ) ≤ (if odd then 1 else 0) ∧ (if odd then 1 else 0) ≤ (1:ℤ) := by cases odd <;> simp
      have hev : f.eNormalMin ≤ e ∧ e ≤ f.eMax - 1 := by
        generalize (if odd = true then (1:ℤ) else 0) = o at *
        omega
      refine ⟨Flt.Valid.fin _ _ _ hq1 hq2 (by omega) hev.2 (by omega), ?_⟩
      simp only [Flt.datum, Bool.false_eq_true, if_false, Ieee.Sqrt]
      refine ⟨fun h => by simp [hX0, hzp] at h, fun _ h => absurd h (by simp), fun _ _ => ?_⟩
      -- the exact root
      obtain ⟨u, hu⟩ : ∃ u : ℝ, u = Real.sqrt m := ⟨_, rfl⟩
      have hu0 : 0 ≤ u := hu ▸ Real.sqrt_nonneg _
      have huu : u * u = m := by rw [hu]; exact Real.mul_self_sqrt (by positivity)
      have hv : Real.sqrt ((X:ℝ) * 2 ^ (ex - f.M)) = u * 2 ^ (e - f.M - 2) := by
        rw [Real.sqrt_eq_iff_mul_self_eq (by positivity) (by positivity)]
        have h1 : (2:ℝ) ^ (e - f.M - 2) * 2 ^ (e - f.M - 2) = 2 ^ (2 * e - 2 * f.M - 4) := by
          rw [← zpow_add₀ (by norm_num)]; congr 1; ring
        have h2 : (m:ℝ) * 2 ^ (2 * e - 2 * f.M - 4) = (X:ℝ) * 2 ^ (ex - f.M) := by
          rw [hm, he2]
          push_cast
          rw [mul_assoc, mul_assoc]
          congr 1
          cases odd
          · simp only [Bool.false_eq_true, if_false, one_mul]
            rw [← zpow_natCast, ← zpow_add₀ (by norm_num)]; congr 1; push_cast; ring
          · simp only [if_true]
            rw [← zpow_natCast, ← zpow_one_add₀ (by norm_num), ← zpow_add₀ (by norm_num)]; congr 1; push_cast; ring
        symm
        calc _ = (u * u) * ((2:ℝ) ^ (e - f.M - 2) * 2 ^ (e - f.M - 2)) := by ring
          _ = _ := by rw [huu, h1, h2]
      have hn1 : (n:ℝ) * n ≤ m := by rw [hn]; exact_mod_cast Nat.sqrt_le m
      have hn2 : (m:ℝ) < ((n:ℝ) + 1) * (n + 1) := by
        rw [hn]; exact_mod_cast Nat.lt_succ_sqrt m
      have hun : (n:ℝ) ≤ u := by
        rw [hu]; exact Real.le_sqrt_of_sq_le (by rw [sq]; exact hn1)
      have hun2 : u < n + 1 := by
        rw [hu, Real.sqrt_lt' (by positivity), sq]; exact hn2
      obtain ⟨hr1, hr2⟩ := rnd_real (V := n) (q := 2) (D := 1) (h := h) (w := u) (by norm_num) (one_dvd _) (one_dvd _)
        (by
          intro ht
          rw [hh, decide_eq_true_eq] at ht
          rw [ht] at huu
          push_cast at huu
          exact (mul_self_inj hu0 (by positivity)).1 huu)
        (by
          intro ht
          rw [hh, decide_eq_false_iff_not] at ht
          refine ⟨lt_of_le_of_ne hun (fun hc => ht ?_), by push_cast; exact hun2⟩
          rw [← hc] at huu
          exact_mod_cast huu.symm)
      rw [← hq] at hr1 hr2
      have hscale : (0:ℝ) < 2 ^ (e - f.M - 2) := by positivity
      have h4 : (2:ℝ) ^ (e - f.M) = 4 * 2 ^ (e - f.M - 2) := by
        rw [zpow_sub₀ (by norm_num) (e - f.M) 2]; norm_num; ring
      have hd : u * 2 ^ (e - f.M - 2) - q * 2 ^ (e - f.M) = (u - q * 2 ^ 2) * 2 ^ (e - f.M - 2) := by rw [h4]; ring
      have hhalf : (2:ℝ) ^ (e - f.M) / 2 = 2 ^ 2 / 2 * 2 ^ (e - f.M - 2) := by rw [h4]; ring
      refine ⟨q * 2 ^ (e - f.M), ?_, fun _ => rfl, fun hc => ?_⟩
      · rw [hv]
        refine Ieee.isRNE_of_quantum hM1 (by rw [ieee_qmin]; omega) (by rw [ieee_M]; omega) ?_ ?_ (Or.inr ?_)
        · rw [hd, abs_mul, abs_of_pos hscale, hhalf]
          exact mul_le_mul_of_nonneg_right hr1 hscale.le
        · rw [hd, abs_mul, abs_of_pos hscale, hhalf]
          intro heq
          exact hr2 (mul_right_cancel₀ hscale.ne' heq)
        · rw [ieee_M, h4, ← mul_assoc]
          apply mul_le_mul_of_nonneg_right _ hscale.le
          have := (sqrt_round hX1 hX2 hm hn h).1
          have h5 : ((2 ^ (f.M + 2) : ℕ) : ℝ) ≤ n := by exact_mod_cast this
          push_cast at h5
          calc (2:ℝ) ^ f.M * 4 = 2 ^ (f.M + 2) := by ring
            _ ≤ u := le_trans h5 hun
      · rw [ieee_bias] at hc
        have h5 := pow_real_lt (e := e) hq2
        have h6 : (2:ℝ) ^ (e + 1) ≤ 2 ^ f.eMax := zpow_le_zpow_right₀ (by norm_num) (by omega)
        linarith
    · -- negative
      simp only [Bool.true_and, if_true, hn0, decide_false, Bool.not_false, Bool.true_or]
      refine ⟨Flt.Valid.nan _, ?_⟩
      simp only [Flt.datum, Bool.false_eq_true, if_false, if_true, Ieee.Sqrt]
      refine ⟨fun h => by simp [hX0, hzp] at h, fun _ _ => trivial, fun _ h => absurd h (by simp)⟩

end ZkLoc
