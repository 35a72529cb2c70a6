import Verif.MulVal

/-!
# Helper lemmas: `Div` at integer level computes the IEEE quotient
-/

namespace ZkLoc

open Ieee (Datum IsRNE RoundsTo Representable)

variable {f : Fmt}

/-- The quotient of two normalised significands. -/
theorem div_quot {M X Y : ℕ} (hX1 : 2 ^ M ≤ X) (hX2 : X < 2 ^ (M + 1)) (hY1 : 2 ^ M ≤ Y) (hY2 : Y < 2 ^ (M + 1)) :
    2 ^ (M + 1) ≤ X * 2 ^ (M + 2) / Y ∧ X * 2 ^ (M + 2) / Y < 2 ^ (M + 3) := by
  have hpos : 0 < 2 ^ M := by positivity
  have hYpos : 0 < Y := by omega
  have h1 : 2 ^ (M + 1) = 2 * 2 ^ M := by ring
  have h2 : 2 ^ (M + 2) = 4 * 2 ^ M := by ring
  have h3 : 2 ^ (M + 3) = 8 * 2 ^ M := by ring
  constructor
  · rw [Nat.le_div_iff_mul_le hYpos, h1, h2]
    nlinarith
  · rw [Nat.div_lt_iff_lt_mul hYpos, h2, h3]
    nlinarith

/-- Integer-level `Div` computes the IEEE quotient. -/
theorem divZ_correct {p b : ℕ} [Fact p.Prime] (G : Good p b f) {x y : Flt} (hx : x.Valid f) (hy : y.Valid f) :
    (divZ f x y true).Valid f ∧ Ieee.Div f.ieee (x.datum f) (y.datum f) ((divZ f x y true).datum f) ∧
    ((divZ f x y false = divZ f x y true ∧ (x.abn = false → y.abn = false → y.man ≠ 0 → NoTop f (x.mag f / y.mag f))) ∨
      (x.abn = false ∧ y.abn = false ∧ y.man ≠ 0 ∧
      Pseudo f (xor x.sign y.sign) (x.mag f / y.mag f) (divZ f x y false))) := by
  have hMz := G.hMz
  have hmn := f.eMin_eq
  have hNm := f.eNormalMin_eq
  have hpos := f.eMax_pos
  have hM1 : 1 ≤ f.M := by have := G.hEM; have := G.hE; omega
  have hbx := hx.bdd G
  have hby := hy.bdd G
  have hcx := hx.man_cases
  have hcy := hy.man_cases
  have h2M : 0 < 2 ^ f.M := by positivity
  have hp1 : 2 ^ (f.M + 1) = 2 * 2 ^ f.M := by ring
  have hp2 : 2 ^ (f.M + 2) = 4 * 2 ^ f.M := by ring
  have hp3 : 2 ^ (f.M + 3) = 8 * 2 ^ f.M := by ring
  obtain ⟨Y, hY⟩ : ∃ Y, Y = if (decide (y.man = 0)) then 2 ^ f.M else y.man := ⟨_, rfl⟩
  have hY1 : 2 ^ f.M ≤ Y := by rw [hY]; by_cases h : y.man = 0 <;> simp [h]; omega
  have hY2 : Y < 2 ^ (f.M + 1) := by
    rw [hY]; have := hby.man; by_cases h : y.man = 0
    · simp [h]; omega
    · simp [h]; exact this
  obtain ⟨Q0, hQ0⟩ : ∃ Q0, Q0 = x.man * 2 ^ (f.M + 2) / Y := ⟨_, rfl⟩
  obtain ⟨msb, hmsb⟩ : ∃ msb : Bool, msb = decide (2 ^ (f.M + 2) ≤ Q0) := ⟨_, rfl⟩
  obtain ⟨Q, hQ⟩ : ∃ Q, Q = if msb then Q0 else Q0 + Q0 := ⟨_, rfl⟩
  obtain ⟨e, he⟩ : ∃ e : ℤ, e = x.exp - y.exp - (if msb then 0 else 1) := ⟨_, rfl⟩
  obtain ⟨h, hh⟩ : ∃ h : Bool, h = decide (x.man * 2 ^ (f.M + 2) % Y = 0) := ⟨_, rfl⟩
  obtain ⟨m, hm⟩ : ∃ m, m = rndSub f Q (f.M + 3) e h := ⟨_, rfl⟩
  have hdiv : ∀ c, divZ f x y c =
      ⟨xor x.sign y.sign, (fixZ f m (decide (m = 0) || y.abn) e (x.abn || decide (y.man = 0)) c).2.1,
      if (decide (m = 0) || y.abn) = true then 0 else (fixZ f m (decide (m = 0) || y.abn) e (x.abn || decide (y.man = 0)) c).1,
      (fixZ f m (decide (m = 0) || y.abn) e (x.abn || decide (y.man = 0)) c).2.2⟩ := by
    intro c
    have : m = rnd (Q * 2 ^ (f.M + 2 - subShift f e (f.M + 2))) (f.M + 4) h * 2 ^ subShift f e (f.M + 2) := by
      rw [hm]; unfold rndSub; rw [show f.M + 2 + (f.M + 3) - f.M - 1 = f.M + 4 by omega]
    unfold divZ
    simp only
    rw [← hY, ← hQ0, ← hmsb, ← hQ, ← he, ← hh, ← this]
  have he2 : x.exp - y.exp - 1 ≤ e ∧ e ≤ x.exp - y.exp := by rw [he]; split <;> omega
  -- the exact quotient of significands
  obtain ⟨D, hD⟩ : ∃ D : ℕ, D = if msb then 1 else 2 := ⟨_, rfl⟩
  obtain ⟨u, hu⟩ : ∃ u : ℝ, u = (x.man * 2 ^ (f.M + 2) / Y : ℝ) * D := ⟨_, rfl⟩
  have hYr : (0:ℝ) < Y := by exact_mod_cast (by omega : 0 < Y)
  have hQD : Q = Q0 * D := by rw [hQ, hD]; cases msb <;> simp; ring
  have hdm : ((x.man * 2 ^ (f.M + 2) : ℕ) : ℝ) = Y * Q0 + (x.man * 2 ^ (f.M + 2) % Y : ℕ) := by
    rw [hQ0]; exact_mod_cast (Nat.div_add_mod _ Y).symm
  have hkey : x.man ≠ 0 → _ := fun h0 => rndSub_correct (f := f) hM1 (N := Q) (L := f.M + 3) (D := D) (e := e) (h := h)
    (u := u) (by omega)
    (by
      have := (div_quot (hcx.resolve_left h0) hbx.man hY1 hY2).1
      rw [← hQ0] at this
      rw [show f.M + 3 - 1 = f.M + 2 by omega, hQ, hmsb]
      by_cases hb : 2 ^ (f.M + 2) ≤ Q0
      · simp [hb]
      · simp [hb]; omega)
    (by
      have := (div_quot (hcx.resolve_left h0) hbx.man hY1 hY2).2
      rw [← hQ0] at this
      rw [hQ, hmsb]
      by_cases hb : 2 ^ (f.M + 2) ≤ Q0
      · simp [hb]; exact this
      · simp [hb]; omega)
    (by rw [hQD]; exact Dvd.intro_left _ rfl)
    (by rw [show f.M + 3 - f.M - 2 = 1 by omega, hD]; cases msb <;> simp)
    (by
      intro ht
      rw [hh, decide_eq_true_eq] at ht
      rw [ht] at hdm
      rw [hu, hQD]; push_cast at hdm ⊢; rw [hdm]; field_simp; ring)
    (by
      intro ht
      rw [hh, decide_eq_false_iff_not] at ht
      have hr1 : (0:ℝ) < (x.man * 2 ^ (f.M + 2) % Y : ℕ) := by exact_mod_cast Nat.pos_of_ne_zero ht
      have hr2 : ((x.man * 2 ^ (f.M + 2) % Y : ℕ) : ℝ) < Y := by exact_mod_cast Nat.mod_lt _ (by omega)
      have hDpos : (0:ℝ) < D := by rw [hD]; cases msb <;> norm_num
      have h1 : (x.man * 2 ^ (f.M + 2) / Y : ℝ) = Q0 + (x.man * 2 ^ (f.M + 2) % Y : ℕ) / Y := by
        push_cast at hdm ⊢
        rw [hdm]; field_simp
      rw [hu, hQD, h1]
      have h2 : (0:ℝ) < (x.man * 2 ^ (f.M + 2) % Y : ℕ) / Y := div_pos hr1 hYr
      have h3 : ((x.man * 2 ^ (f.M + 2) % Y : ℕ) : ℝ) / Y < 1 := (div_lt_one hYr).2 hr2
      push_cast at h2 h3 ⊢
      constructor <;> nlinarith)
  rw [← hm] at hkey
  have hm0 : x.man = 0 → m = 0 := by
    intro h0
    have : Q0 = 0 := by rw [hQ0, h0]; simp
    rw [hm, hQD, this]; unfold rndSub; simp [rnd_zero]
  have hmz : x.man ≠ 0 → f.eNormalMin ≤ e → m ≠ 0 := fun h0 h1 h2 => by
    have := (hkey h0).2.2.1 h2; omega
  have hzp : ∀ k : ℤ, (2:ℝ) ^ k ≠ 0 := fun k => by positivity
  by_cases habn : (x.abn || decide (y.man = 0)) = true
  · -- infinite or NaN dividend, zero or NaN divisor
    have hres : ∀ c, divZ f x y c = ⟨xor x.sign y.sign, f.eMax, if m = 0 ∨ y.abn = true then 0 else 2 ^ f.M, true⟩ := by
      intro c; rw [hdiv, habn, fixZ_abn]; simp
    have hmN : y.abn = false → (m = 0 ↔ x.man = 0) := by
      intro hya
      refine ⟨fun h1 => ?_, hm0⟩
      by_contra h0
      refine hmz h0 ?_ h1
      rw [Bool.or_eq_true, decide_eq_true_eq] at habn
      have h3 := hbx.lo
      rcases habn with h2 | h2
      · have := hx.exp_of_abn h2
        have h4 : y.exp ≤ f.eMax - 1 := by
          cases hy with
          | nan s => simp at hya
          | inf s => simp at hya
          | zero s => dsimp only; omega
          | fin s e m h1 h2 h3 h4 h5 => exact h4
        omega
      · have := hy.exp_of_zero hya h2
        omega
    refine ⟨?_, ?_, Or.inl ⟨by rw [hres, hres], fun h1 _ h2 => by simp [h1, h2] at habn⟩⟩
    · rw [hres]
      by_cases h : m = 0 ∨ y.abn = true
      · rw [if_pos h]; exact Flt.Valid.nan _
      · rw [if_neg h]; exact Flt.Valid.inf _
    · rw [hres]
      by_cases hya : y.abn = true
      · have hd : Flt.datum f ⟨xor x.sign y.sign, f.eMax, if m = 0 ∨ y.abn = true then 0 else 2 ^ f.M, true⟩ = .nan := by
          simp [Flt.datum, hya]
        rw [hd]
        have hxy : x.datum f = .nan ∨ (∃ s, x.datum f = .inf s) ∨ y.datum f = .nan := by
          rw [Bool.or_eq_true, decide_eq_true_eq] at habn
          rcases habn with h2 | h2
          · by_cases h3 : x.man = 0
            · left; simp [Flt.datum, h2, h3]
            · right; left; exact ⟨x.sign, by simp [Flt.datum, h2, h3]⟩
          · right; right; simp [Flt.datum, hya, h2]
        have hyd : y.datum f = .nan ∨ ∃ s, y.datum f = .inf s := by
          by_cases h3 : y.man = 0
          · left; simp [Flt.datum, hya, h3]
          · right; exact ⟨y.sign, by simp [Flt.datum, hya, h3]⟩
        rcases hxy with h | ⟨s, h⟩ | h
        · rw [h]; rcases hyd with h' | ⟨t, h'⟩ <;> rw [h'] <;> simp [Ieee.Div]
        · rw [h]; rcases hyd with h' | ⟨t, h'⟩ <;> rw [h'] <;> simp [Ieee.Div]
        · rw [h]; cases x.datum f <;> simp [Ieee.Div]
      · have hya : y.abn = false := by simpa using hya
        simp only [hmN hya, hya, Bool.false_eq_true, or_false]
        have hyd : y.datum f = .fin y.sign (y.mag f) := by simp [Flt.datum, Flt.mag, hya]
        rw [hyd]
        by_cases hxa : x.abn = true
        · by_cases h3 : x.man = 0
          · simp [Flt.datum, Ieee.Div, hxa, h3]
          · simp [Flt.datum, Ieee.Div, hxa, h3]
        · have hxa : x.abn = false := by simpa using hxa
          have hxd : x.datum f = .fin x.sign (x.mag f) := by simp [Flt.datum, Flt.mag, hxa]
          rw [hxd]
          rw [hxa, Bool.false_or, decide_eq_true_eq] at habn
          have hyz : y.mag f = 0 := by simp [Flt.mag, habn]
          rw [hyz]
          by_cases h3 : x.man = 0
          · have : x.mag f = 0 := by simp [Flt.mag, h3]
            simp [Flt.datum, Ieee.Div, h3, this]
          · have : x.mag f ≠ 0 := by simp [Flt.mag, h3, hzp]
            simp [Flt.datum, Ieee.Div, h3, this]
  · -- finite dividend, non-zero divisor
    have habn' : (x.abn || decide (y.man = 0)) = false := by simpa using habn
    have hxa : x.abn = false := by cases h : x.abn <;> simp_all
    have hym : y.man ≠ 0 := by intro h; simp [h] at habn
    have hdx : x.datum f = .fin x.sign (x.mag f) := by simp [Flt.datum, Flt.mag, hxa]
    have hxe : x.exp ≤ f.eMax - 1 := by
      cases hx with
      | nan s => simp at hxa
      | inf s => simp at hxa
      | zero s => dsimp only; omega
      | fin s e m h1 h2 h3 h4 h5 => exact h4
    by_cases hya : y.abn = true
    · -- infinite divisor
      have hye := hy.exp_of_abn hya
      have hres : ∀ c, divZ f x y c = ⟨xor x.sign y.sign, f.eMin, 0, false⟩ := by
        intro c
        rw [hdiv, habn', hya]
        have h1 : ∀ k : ℤ, k ≤ 1 → ¬ f.eMax < e + k ∧ ¬ e + k = f.eMax := by intro k hk; omega
        by_cases hmo : m = 2 ^ (f.M + 1)
        · simp [fixZ, hmo, h1 1 le_rfl]
        · have h2 := h1 0 (by norm_num)
          rw [add_zero] at h2
          simp [fixZ, hmo, h2]
      refine ⟨?_, ?_, Or.inl ⟨by rw [hres, hres], fun _ h2 => by simp [hya] at h2⟩⟩
      · rw [hres]; exact Flt.Valid.zero _
      · rw [hres, hdx]
        simp [Flt.datum, Ieee.Div, hya, hym]
    · have hya : y.abn = false := by simpa using hya
      have hYm : Y = y.man := by rw [hY]; simp [hym]
      have hdy : y.datum f = .fin y.sign (y.mag f) := by simp [Flt.datum, Flt.mag, hya]
      have hres : ∀ c, divZ f x y c = fixRec f (xor x.sign y.sign) m e c := by
        intro c; rw [hdiv, habn', hya]; simp [fixRec]
      have hymag : y.mag f ≠ 0 := by simp [Flt.mag, hym, hzp]
      have hval : x.mag f / y.mag f = u * 2 ^ (e + 1 - ((f.M + 3 : ℕ) : ℤ)) := by
        have h1 : x.mag f / y.mag f = (x.man / Y : ℝ) * 2 ^ (x.exp - y.exp) := by
          unfold Flt.mag
          rw [hYm, mul_div_mul_comm, ← zpow_sub₀ (by norm_num)]
          congr 2; ring
        have h2 : (D:ℝ) * 2 ^ (f.M + 2) * 2 ^ (e + 1 - ((f.M + 3 : ℕ) : ℤ)) = 2 ^ (x.exp - y.exp) := by
          rw [hD, he]
          cases msb
          · simp only [Bool.false_eq_true, if_false]
            rw [show x.exp - y.exp - 1 + 1 - ((f.M + 3 : ℕ) : ℤ) = x.exp - y.exp - ((f.M + 3 : ℕ) : ℤ) by ring,
              zpow_sub₀ (by norm_num), zpow_natCast]
            push_cast; rw [show (2:ℝ) ^ (f.M + 3) = 2 * 2 ^ (f.M + 2) by ring]; field_simp
          · simp only [if_true]
            rw [show x.exp - y.exp - 0 + 1 - ((f.M + 3 : ℕ) : ℤ) = x.exp - y.exp - ((f.M + 2 : ℕ) : ℤ) by push_cast; ring,
              zpow_sub₀ (by norm_num), zpow_natCast]
            push_cast; field_simp
        rw [h1, hu, ← h2]; ring
      have hrne : IsRNE f.ieee (x.mag f / y.mag f) (m * (2:ℝ) ^ (e - f.M)) := by
        by_cases h0 : x.man = 0
        · rw [hm0 h0]
          have : x.mag f / y.mag f = 0 := by simp [Flt.mag, h0]
          rw [this]; simpa using isRNE_zero f
        · rw [hval]; exact (hkey h0).2.2.2
      have hfix := fix_correct (f := f) hMz (s := xor x.sign y.sign) (m := m) (e := e)
        (by
          by_cases h0 : x.man = 0
          · exact Or.inl (hm0 h0)
          · exact (hkey h0).1)
        (by
          intro h1 h2
          exact (hkey (fun h0 => h2 (hm0 h0))).2.1 h1 h2)
        (by
          intro h1
          by_cases h0 : x.man = 0
          · have := hx.exp_of_zero hxa h0
            have := hby.lo
            omega
          · have := (hkey h0).2.2.1 h1; omega) hrne
      rw [hres, hres, hdx, hdy]
      refine ⟨hfix.1.1, ⟨fun h => absurd h hymag, fun h => absurd h hymag, fun _ => hfix.1.2⟩,
        hfix.2.imp (fun h => ⟨h.1, fun _ _ _ => h.2⟩) (fun h => ⟨hxa, hya, hym, h⟩)⟩

end ZkLoc
