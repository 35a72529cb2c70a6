import Verif.Spec.Firm
import Verif.FloorAny

/-!
# Helper lemmas: firm operations accept at every width what they accept at width one
-/

namespace ZkLoc

open Ieee (Datum)

variable {p b : ℕ} [Fact p.Prime] {f : Fmt}

theorem spare_eq {size : ℕ} (hb : 0 < b) : spare b size = slack b size := by
  have h := slack_add size hb
  unfold spare
  have h2 : slack b size < b := by
    rcases Nat.eq_zero_or_pos size with rfl | hs
    · have : slack b 0 = 0 := by
        unfold slack decompSize
        rw [Nat.div_eq_of_lt (by omega)]; simp
      omega
    · have := decompSize_mul_lt hb hs; omega
  have h3 : (size + slack b size) % b = 0 := by rw [h]; exact Nat.mul_mod_left _ _
  have h4 := Nat.mod_lt size hb
  rcases Nat.eq_zero_or_pos (size % b) with h0 | h0
  · rw [h0, Nat.sub_zero, Nat.mod_self]
    rw [Nat.add_mod, h0, zero_add, Nat.mod_mod, Nat.mod_eq_of_lt h2] at h3
    exact h3.symm
  · rw [Nat.mod_eq_of_lt (by omega)]
    rw [Nat.add_mod, Nat.mod_eq_of_lt h2] at h3
    obtain ⟨c, hc⟩ := Nat.dvd_of_mod_eq_zero h3
    have : c = 1 := by
      rcases c with _ | _ | c
      · omega
      · rfl
      · have : b * (c + 1 + 1) = b * c + b + b := by ring
        have : 0 ≤ b * c := Nat.zero_le _
        omega
    subst this; omega

theorem lookupSize_eq : lookupSize f = f.pow2Size := by unfold lookupSize Fmt.pow2Size; omega

omit [Fact p.Prime] in
theorem Good.one (G : Good p b f) : Good p 1 f := { G with width := ⟨by norm_num, by norm_num⟩ }

/-- The magnitude of a record. -/
theorem magnitude_datum {x : Flt} (hx : x.Valid f) : ∃ k : ℤ, magnitude (x.datum f) = x.man * 2 ^ k ∧ (x.abn = false → k = x.exp - f.M) := by
  cases hx with
  | nan => exact ⟨0, by simp [Flt.datum, magnitude], by simp⟩
  | inf s => exact ⟨-f.M, by simp [Flt.datum, magnitude], by simp⟩
  | zero s => exact ⟨_, by simp [Flt.datum, magnitude], fun _ => rfl⟩
  | fin s e m => exact ⟨_, by simp [Flt.datum, magnitude], fun _ => rfl⟩

/-- A forged rounding contradicts `Resists`. -/
theorem Resists.not_forge {N N' mbl σ smax w : ℕ} {v : ℝ} {k : ℤ} (hb : 0 < b) (h : Resists b (lookupSize f) σ w v) (h1 : 2 ^ w ≤ 2 * N)
    (h2 : N < 2 ^ w) (h3 : (N : ℝ) ≤ v * 2 ^ k) (h4 : v * 2 ^ k < N + 1) (hN : N' = N ∨ N' = 2 * N) : ¬ RoundForge b f N' mbl σ smax := by
  intro hf
  obtain ⟨t, g0, g1, g2, g3⟩ := hf.odd
  rw [lookupSize_eq] at h
  refine h k N h1 h2 h3 h4 _ ⟨t, g0, by rwa [spare_eq hb], g2, rfl⟩ ?_
  rcases hN with rfl | rfl
  · exact g3
  · refine (Nat.Coprime.dvd_mul_left ?_).1 g3
    rw [Nat.coprime_two_right]
    refine Nat.odd_add.2 ⟨fun _ => ?_, fun _ => odd_one⟩
    obtain ⟨d, hd⟩ : ∃ d, f.pow2Size - (σ + t) = d + 1 := ⟨f.pow2Size - (σ + t) - 1, by omega⟩
    rw [hd, pow_succ, ← mul_assoc]; exact even_two.mul_left _

theorem two_zpow_cancel (k : ℤ) : (2:ℝ) ^ k * 2 ^ (-k) = 1 := by rw [← zpow_add₀ (by norm_num)]; simp

/-- Firm products. -/
theorem mul_firm (G : Good p b f) (hpw : 2 ^ (4 * f.M + f.E + 5 + 3 * (b - 1)) ≤ p) {x y : Flt} (hx : x.Valid f) (hy : y.Valid f)
    (hf : FirmMul b f (x.datum f) (y.datum f)) {st : Bool} {r : FloatVar p} (hr : (fMul f (x.toVar : FloatVar p) y.toVar).Sat b st r) :
    (fMul f (x.toVar : FloatVar p) y.toVar).Sat 1 st r := by
  have hMz := G.hMz
  have hmn := f.eMin_eq
  have hNm := f.eNormalMin_eq
  have hE := G.hE
  have s1 := fMul_spec_any (p := p) (b := 1) (H := True) G.one (hx.bdd G) (hy.bdd G)
    (le_trans (Nat.pow_le_pow_right (by norm_num) (by omega)) hpw)
  rw [s1.sat trivial]
  rcases ((fMul_spec_any (p := p) (H := True) G (hx.bdd G) (hy.bdd G) hpw).sat trivial st r).1 hr with h | ⟨hfo, c, rfl⟩
  · exact Or.inl h
  left
  by_cases h0 : x.man * y.man = 0
  · refine ⟨c, ?_⟩
    have hN : mulN f x y = 0 := by unfold mulN; rw [h0]; split <;> rfl
    rw [mulZ_eq, hN, zero_mul, rnd_zero, zero_mul]
  · exfalso
    have hx0 : x.man ≠ 0 := fun h => h0 (by rw [h, zero_mul])
    have hy0 : y.man ≠ 0 := fun h => h0 (by rw [h, mul_zero])
    have hx1 := hx.man_cases.resolve_left hx0
    have hy1 := hy.man_cases.resolve_left hy0
    have hx2 := hx.man_lt
    have hy2 := hy.man_lt
    obtain ⟨kx, ex, fx⟩ := magnitude_datum hx
    obtain ⟨ky, ey, fy⟩ := magnitude_datum hy
    have hlo : 2 ^ (2 * f.M) ≤ x.man * y.man := by
      have := Nat.mul_le_mul hx1 hy1
      rwa [← pow_add, ← two_mul] at this
    have hhi : x.man * y.man < 2 ^ (2 * f.M + 2) := by
      have := Nat.mul_lt_mul'' hx2 hy2
      rwa [← pow_add, show f.M + 1 + (f.M + 1) = 2 * f.M + 2 by ring] at this
    have hv : magnitude (x.datum f) * magnitude (y.datum f) = ((x.man * y.man : ℕ) : ℝ) * 2 ^ (kx + ky) := by
      rw [ex, ey, zpow_add₀ (by norm_num)]; push_cast; ring
    have hb0 : 0 < b := G.width.pos
    -- the shift is zero or the product is subnormal
    have hσ : mulShift f x y = 0 ∨ magnitude (x.datum f) * magnitude (y.datum f) < 2 ^ (Ieee.Format.emin ⟨f.E, f.M⟩) := by
      by_cases hE0 : f.eNormalMin ≤ mulE f x y
      · left; unfold mulShift subShift; omega
      right
      have hxe := hx.exp_ge G
      have hye := hy.exp_ge G
      have ha : x.abn = false ∧ y.abn = false := by
        constructor
        · by_contra h
          have := hx.exp_of_abn (by simpa using h)
          refine hE0 ?_
          unfold mulE; split <;> omega
        · by_contra h
          have := hy.exp_of_abn (by simpa using h)
          refine hE0 ?_
          unfold mulE; split <;> omega
      have e1 : Ieee.Format.emin ⟨f.E, f.M⟩ = f.eNormalMin := by
        have := ieee_bias f
        unfold Ieee.Format.emin; change 1 - f.ieee.bias = _; omega
      rw [hv, fx ha.1, fy ha.2, e1]
      have hP : ((x.man * y.man : ℕ) : ℝ) < 2 ^ (2 * f.M + 1 + (mulE f x y - x.exp - y.exp)) := by
        unfold mulE
        split
        · have : ((x.man * y.man : ℕ) : ℝ) < 2 ^ (2 * f.M + 2) := by exact_mod_cast hhi
          refine this.trans_le (le_of_eq ?_)
          rw [← zpow_natCast]; congr 1; push_cast; ring
        · rename_i hlt
          have h1 : x.man * y.man < 2 ^ (2 * f.M + 1) := by simpa using hlt
          have : ((x.man * y.man : ℕ) : ℝ) < 2 ^ (2 * f.M + 1) := by exact_mod_cast h1
          refine this.trans_le (le_of_eq ?_)
          rw [← zpow_natCast]; congr 1; push_cast; ring
      calc _ < (2:ℝ) ^ (2 * f.M + 1 + (mulE f x y - x.exp - y.exp)) * 2 ^ (x.exp - f.M + (y.exp - f.M)) :=
            mul_lt_mul_of_pos_right hP (by positivity)
        _ = 2 ^ (mulE f x y + 1) := by rw [← zpow_add₀ (by norm_num)]; congr 1; ring
        _ ≤ 2 ^ f.eNormalMin := zpow_le_zpow_right₀ (by norm_num) (by omega)
    have hR := hf (mulShift f x y) (subShift_le _ _) hσ
    have hN : mulN f x y = if 2 ^ (2 * f.M + 1) ≤ x.man * y.man then x.man * y.man else 2 * (x.man * y.man) := by
      unfold mulN; simp only [decide_eq_true_eq]; split <;> omega
    split at hN
    · refine hR.not_forge (N := x.man * y.man) (k := -(kx + ky)) hb0 ?_ hhi ?_ ?_ (Or.inl hN) hfo
      · rename_i h; rw [show 2 * f.M + 2 = 2 * f.M + 1 + 1 by ring, pow_succ]; omega
      · rw [hv, mul_assoc, two_zpow_cancel, mul_one]
      · rw [hv, mul_assoc, two_zpow_cancel, mul_one]; linarith
    · refine hR.not_forge (N := 2 * (x.man * y.man)) (k := -(kx + ky) + 1) hb0 ?_ ?_ ?_ ?_ (Or.inl hN) hfo
      · rw [show 2 * f.M + 2 = 2 * f.M + 1 + 1 by ring, pow_succ, pow_succ]; omega
      · rename_i h; rw [show 2 * f.M + 2 = 2 * f.M + 1 + 1 by ring, pow_succ]; omega
      · rw [hv, mul_assoc, zpow_add_one₀ (by norm_num), ← mul_assoc (_ ^ _), two_zpow_cancel]; push_cast; linarith
      · rw [hv, mul_assoc, zpow_add_one₀ (by norm_num), ← mul_assoc (_ ^ _), two_zpow_cancel]; push_cast; linarith

omit [Fact p.Prime] in
/-- A divisor that is not a number leaves nothing to forge. -/
theorem div_abn (G : Good p b f) {x y : Flt} (hx : x.Valid f) (hy : y.Valid f) (ha : y.abn = true) (m : ℕ) (c : Bool) :
    divFin f x y m c = divFin f x y 0 c := by
  have hMz := G.hMz
  have h1 := hx.exp_le G
  have h2 := hy.exp_of_abn ha
  have hE0 : divE f x y ≤ 0 := by unfold divE; split <;> omega
  have hpos : ¬ (0 = 2 ^ (f.M + 1)) := by have := Nat.two_pow_pos (f.M + 1); omega
  have e1 : ¬ f.eMax < divE f x y + 1 := by omega
  have e2 : ¬ divE f x y + 1 = f.eMax := by omega
  have e3 : ¬ f.eMax < divE f x y := by omega
  have e4 : ¬ divE f x y = f.eMax := by omega
  unfold divFin fixZ
  by_cases hm : m = 2 ^ (f.M + 1) <;> simp [hm, ha, hpos, e1, e2, e3, e4]

/-- Firm quotients. -/
theorem div_firm (G : Good p b f) (hpw : 2 ^ (3 * f.M + f.E + 6 + 3 * (b - 1)) ≤ p) {x y : Flt} (hx : x.Valid f) (hy : y.Valid f)
    (hf : FirmDiv b f (x.datum f) (y.datum f)) {st : Bool} {r : FloatVar p} (hr : (fDiv f (x.toVar : FloatVar p) y.toVar).Sat b st r) :
    (fDiv f (x.toVar : FloatVar p) y.toVar).Sat 1 st r := by
  have hMz := G.hMz
  have hmn := f.eMin_eq
  have hNm := f.eNormalMin_eq
  have hE := G.hE
  have s1 := fDiv_spec_any (p := p) (b := 1) (H := True) G.one (hx.bdd G) (hy.bdd G) hy.man_cases
    (le_trans (Nat.pow_le_pow_right (by norm_num) (by omega)) hpw)
  rw [s1.sat trivial]
  rcases ((fDiv_spec_any (p := p) (H := True) G (hx.bdd G) (hy.bdd G) hy.man_cases hpw).sat trivial st r).1 hr with h | ⟨hfo, c, rfl⟩
  · exact Or.inl h
  left
  by_cases ha : y.abn = true
  · exact ⟨c, by rw [divZ_eq, ← div_abn G hx hy ha]⟩
  by_cases h0 : x.man = 0
  · refine ⟨c, ?_⟩
    have hN : divN f x y = 0 := by unfold divN divQ; rw [h0, zero_mul, Nat.zero_div]; split <;> rfl
    rw [divZ_eq, hN, zero_mul, rnd_zero, zero_mul]
  exfalso
  have hya : y.abn = false := by simpa using ha
  have hx1 := hx.man_cases.resolve_left h0
  have hx2 := hx.man_lt
  have hP : 0 < 2 ^ f.M := Nat.two_pow_pos _
  have hb0 : 0 < b := G.width.pos
  obtain ⟨Y, hY⟩ : ∃ Y, Y = divY f y := ⟨_, rfl⟩
  have hY1 : 2 ^ f.M ≤ Y := by
    rw [hY]; unfold divY
    split
    · exact le_rfl
    · rename_i h; exact hy.man_cases.resolve_left (by simpa using h)
  have hY2 : Y < 2 ^ (f.M + 1) := by
    rw [hY]; unfold divY
    split
    · exact Nat.pow_lt_pow_right (by norm_num) (by omega)
    · exact hy.man_lt
  obtain ⟨kx, ex, fx⟩ := magnitude_datum hx
  obtain ⟨ky, ey, fy⟩ := magnitude_datum hy
  have hYr : (0:ℝ) < Y := by exact_mod_cast (by omega : 0 < Y)
  obtain ⟨m, k, hm, hm0, hm1, hk⟩ : ∃ (m : ℝ) (k : ℤ), m = Y * 2 ^ k ∧ (magnitude (y.datum f) = 0 → m = 1) ∧
      (magnitude (y.datum f) ≠ 0 → m = magnitude (y.datum f)) ∧ (y.man ≠ 0 → k = y.exp - f.M) := by
    by_cases hy0 : y.man = 0
    · refine ⟨1, -f.M, ?_, fun _ => rfl, fun h => absurd (by rw [ey, hy0]; simp) h, fun h => absurd hy0 h⟩
      rw [hY]; unfold divY; simp [hy0]
    · refine ⟨_, ky, ?_, fun h => ?_, fun _ => rfl, fun _ => fy hya⟩
      · rw [ey, hY]; unfold divY; simp [hy0]
      · rw [ey] at h
        have : (y.man : ℝ) ≠ 0 := by exact_mod_cast hy0
        have h2 : (2:ℝ) ^ ky ≠ 0 := by positivity
        exact absurd h (mul_ne_zero this h2)
  obtain ⟨Q, hQ⟩ : ∃ Q, Q = divQ f x y := ⟨_, rfl⟩
  have hQe : Q = x.man * 2 ^ (f.M + 2) / Y := by rw [hQ, hY]; rfl
  have hQ1 : Q * Y ≤ x.man * 2 ^ (f.M + 2) := by rw [hQe]; exact Nat.div_mul_le_self _ _
  have hQ2 : x.man * 2 ^ (f.M + 2) < (Q + 1) * Y := by
    rw [hQe, mul_comm (_ + 1)]; exact Nat.lt_mul_div_succ _ (by omega)
  have hQlo : 2 ^ (f.M + 1) ≤ Q := by
    rw [hQe, Nat.le_div_iff_mul_le (by omega)]
    calc 2 ^ (f.M + 1) * Y ≤ 2 ^ (f.M + 1) * 2 ^ (f.M + 1) := Nat.mul_le_mul_left _ hY2.le
      _ = 2 ^ f.M * 2 ^ (f.M + 2) := by rw [← pow_add, ← pow_add]; congr 1; ring
      _ ≤ _ := Nat.mul_le_mul_right _ hx1
  have hQhi : Q < 2 ^ (f.M + 3) := by
    rw [hQe, Nat.div_lt_iff_lt_mul (by omega)]
    calc _ < 2 ^ (f.M + 1) * 2 ^ (f.M + 2) := Nat.mul_lt_mul_of_pos_right hx2 (by positivity)
      _ = 2 ^ (f.M + 3) * 2 ^ f.M := by rw [← pow_add, ← pow_add]; congr 1; ring
      _ ≤ _ := Nat.mul_le_mul_left _ hY1
  have hQr1 : (Q:ℝ) * Y ≤ x.man * 2 ^ (f.M + 2) := by exact_mod_cast hQ1
  have hQr2 : (x.man:ℝ) * 2 ^ (f.M + 2) < (Q + 1) * Y := by exact_mod_cast hQ2
  have hv : magnitude (x.datum f) / m = x.man / Y * 2 ^ (kx - k) := by
    rw [ex, hm, zpow_sub₀ (by norm_num)]; field_simp
  have hvk : magnitude (x.datum f) / m * 2 ^ ((f.M:ℤ) + 2 - (kx - k)) = x.man * 2 ^ (f.M + 2) / Y := by
    rw [hv, mul_assoc, ← zpow_add₀ (by norm_num), show kx - k + ((f.M:ℤ) + 2 - (kx - k)) = ((f.M + 2 : ℕ) : ℤ) by push_cast; ring, zpow_natCast]
    ring
  have g3 : (Q:ℝ) ≤ magnitude (x.datum f) / m * 2 ^ ((f.M:ℤ) + 2 - (kx - k)) := by rw [hvk, le_div_iff₀ hYr]; exact hQr1
  have g4 : magnitude (x.datum f) / m * 2 ^ ((f.M:ℤ) + 2 - (kx - k)) < Q + 1 := by rw [hvk, div_lt_iff₀ hYr]; exact hQr2
  have hσ : divShift f x y = 0 ∨ magnitude (x.datum f) / m < 2 ^ (Ieee.Format.emin ⟨f.E, f.M⟩) := by
    by_cases hE0 : f.eNormalMin ≤ divE f x y
    · left; unfold divShift subShift; omega
    right
    have hxe := hx.exp_ge G
    have hye := hy.exp_fin G hya
    have hxa : x.abn = false := by
      by_contra h
      have := hx.exp_of_abn (by simpa using h)
      refine hE0 ?_
      unfold divE; split <;> omega
    have hy0 : y.man ≠ 0 := by
      intro h
      have hy3 : y.exp = f.eMin := by
        cases hy with
        | nan => simp at hya
        | inf => simp at hya
        | zero => rfl
        | fin s e m h1 => have : 2 ^ f.M ≤ 0 := by simp_all
                          omega
      refine hE0 ?_
      unfold divE; split <;> omega
    have e1 : Ieee.Format.emin ⟨f.E, f.M⟩ = f.eNormalMin := by
      have := ieee_bias f
      unfold Ieee.Format.emin; change 1 - f.ieee.bias = _; omega
    rw [hv, fx hxa, hk hy0, e1, show x.exp - f.M - (y.exp - f.M) = x.exp - y.exp by ring]
    have hq : (x.man:ℝ) / Y < 2 ^ (divE f x y + 1 - (x.exp - y.exp)) := by
      unfold divE
      rw [← hQ]
      rw [div_lt_iff₀ hYr]
      split
      · rw [show x.exp - y.exp - 0 + 1 - (x.exp - y.exp) = 1 by ring, zpow_one]
        have h1 : x.man < 2 * Y := by rw [pow_succ] at hx2; omega
        exact_mod_cast h1
      · rename_i h
        rw [show x.exp - y.exp - 1 + 1 - (x.exp - y.exp) = 0 by ring, zpow_zero, one_mul]
        have h1 : Q < 2 ^ (f.M + 2) := by simpa using h
        have h2 : x.man * 2 ^ (f.M + 2) < Y * 2 ^ (f.M + 2) := by
          calc _ < (Q + 1) * Y := hQ2
            _ ≤ 2 ^ (f.M + 2) * Y := Nat.mul_le_mul_right _ h1
            _ = _ := mul_comm _ _
        exact_mod_cast lt_of_mul_lt_mul_right h2 (Nat.zero_le _)
    calc _ < (2:ℝ) ^ (divE f x y + 1 - (x.exp - y.exp)) * 2 ^ (x.exp - y.exp) := mul_lt_mul_of_pos_right hq (by positivity)
      _ = 2 ^ (divE f x y + 1) := by rw [← zpow_add₀ (by norm_num)]; congr 1; ring
      _ ≤ 2 ^ f.eNormalMin := zpow_le_zpow_right₀ (by norm_num) (by omega)
  obtain ⟨hR1, hR2⟩ := hf m hm0 hm1
  have hN : divN f x y = if 2 ^ (f.M + 2) ≤ Q then Q else 2 * Q := by
    unfold divN; rw [← hQ]; simp only [decide_eq_true_eq]; split <;> omega
  split at hN
  · refine (hR2 (divShift f x y) (subShift_le _ _) hσ).not_forge (N := Q) hb0 ?_ hQhi g3 g4 (Or.inl hN) hfo
    rename_i h; rw [pow_succ]; omega
  · refine (hR1 (divShift f x y) (subShift_le _ _) hσ).not_forge (N := Q) hb0 ?_ ?_ g3 g4 (Or.inr hN) hfo
    · rw [show f.M + 2 = f.M + 1 + 1 by ring, pow_succ]; omega
    · omega

/-- Firm square roots. -/
theorem sqrt_firm (G : Good p b f) {x : Flt} (hx : x.Valid f) (hf : FirmSqrt b f (x.datum f)) {st : Bool} {r : FloatVar p}
    (hr : (fSqrt f (x.toVar : FloatVar p)).Sat b st r) : (fSqrt f (x.toVar : FloatVar p)).Sat 1 st r := by
  rw [(fSqrt_spec_any (p := p) (b := 1) (H := True) G.one (hx.bdd G)).sat trivial]
  rcases ((fSqrt_spec_any (p := p) (H := True) G (hx.bdd G)).sat trivial st r).1 hr with h | ⟨hfo, rfl⟩
  · exact Or.inl h
  left
  have hE := G.hE
  have hb0 : 0 < b := G.width.pos
  by_cases h0 : x.man = 0
  · have hN : sqrtN f x = 0 := by unfold sqrtN sqrtM; rw [h0]; simp
    rw [sqrtZ_eq, hN, rnd_zero]
  exfalso
  have hx1 := hx.man_cases.resolve_left h0
  have hx2 := hx.man_lt
  by_cases ha : x.abn = true
  · have he := hx.exp_of_abn ha
    have hman : x.man = 2 ^ f.M := by
      cases hx with
      | nan => simp at h0
      | inf => rfl
      | zero => simp at ha
      | fin => simp at ha
    have hev : x.exp % 2 = 0 := by
      rw [he]; unfold Fmt.eMax
      obtain ⟨d, hd⟩ : ∃ d, f.E = d + 2 := ⟨f.E - 2, by omega⟩
      rw [hd]; simp [pow_succ]
    have hN : sqrtN f x = 2 ^ (f.M + 2) := by
      unfold sqrtN sqrtM
      rw [if_neg (by simp [hev]), hman, ← pow_add, show f.M + (f.M + 4) = f.M + 2 + (f.M + 2) by ring, pow_add, Nat.sqrt_eq]
    unfold SqrtForge at hfo
    rw [hN] at hfo
    exact RoundForge.not_two_pow hfo
  have ha' : x.abn = false := by simpa using ha
  obtain ⟨kx, ex, fx⟩ := magnitude_datum hx
  rw [fx ha'] at ex
  obtain ⟨o, ho, hoe, hM⟩ : ∃ o : ℕ, o ≤ 1 ∧ x.exp = 2 * ((x.exp - o) / 2) + o ∧ sqrtM f x = x.man * 2 ^ (f.M + 4 + o) := by
    unfold sqrtM
    by_cases hod : x.exp % 2 = 1
    · exact ⟨1, le_rfl, by omega, by simp only [hod, decide_true, if_true]; ring⟩
    · exact ⟨0, by omega, by omega, by simp only [hod, decide_false, Bool.false_eq_true, if_false, add_zero]⟩
  obtain ⟨e, he⟩ : ∃ e, e = (x.exp - o) / 2 := ⟨_, rfl⟩
  rw [← he] at hoe
  have hlo : 2 ^ (f.M + 2) * 2 ^ (f.M + 2) ≤ sqrtM f x := by
    rw [hM]
    calc _ = 2 ^ f.M * 2 ^ (f.M + 4) := by rw [← pow_add, ← pow_add]; congr 1; ring
      _ ≤ _ := Nat.mul_le_mul hx1 (Nat.pow_le_pow_right (by norm_num) (by omega))
  have hhi : sqrtM f x < 2 ^ (f.M + 3) * 2 ^ (f.M + 3) := by
    rw [hM]
    calc _ < 2 ^ (f.M + 1) * 2 ^ (f.M + 4 + o) := Nat.mul_lt_mul_of_pos_right hx2 (by positivity)
      _ ≤ 2 ^ (f.M + 1) * 2 ^ (f.M + 4 + 1) := Nat.mul_le_mul_left _ (Nat.pow_le_pow_right (by norm_num) (by omega))
      _ = _ := by rw [← pow_add, ← pow_add]; congr 1; ring
  have hval : Real.sqrt (magnitude (x.datum f)) * 2 ^ ((f.M : ℤ) + 2 - e) = Real.sqrt (sqrtM f x) := by
    have h2 : (0:ℝ) ≤ 2 ^ ((f.M : ℤ) + 2 - e) := by positivity
    rw [← Real.sqrt_sq h2, ← Real.sqrt_mul (by rw [ex]; positivity), ex, hM]
    congr 1
    rw [mul_assoc]
    push_cast
    congr 1
    rw [← zpow_natCast, ← zpow_mul, ← zpow_add₀ (by norm_num), ← zpow_natCast]
    congr 1
    push_cast
    omega
  have hs0 : (0:ℝ) ≤ sqrtM f x := by positivity
  refine Resists.not_forge (N := sqrtN f x) (k := (f.M : ℤ) + 2 - e) hb0 hf ?_ ?_ ?_ ?_ (Or.inl rfl) hfo
  · have : 2 ^ (f.M + 2) ≤ sqrtN f x := Nat.le_sqrt.2 hlo
    rw [show f.M + 3 = f.M + 2 + 1 by ring, pow_succ]; omega
  · exact Nat.sqrt_lt.2 hhi
  · rw [hval]; unfold sqrtN; exact Real.nat_sqrt_le_real_sqrt
  · rw [hval]; unfold sqrtN; exact Real.real_sqrt_lt_nat_sqrt_succ

/-- A sum whose aligned significands form the integer `S`, read as a multiple of a real number. -/
theorem add_not_forge (hb0 : 0 < b) {x y : Flt} (hx : x.Valid f) (hy : y.Valid f) (hS0 : addS f x y ≠ 0) {v : ℝ} {k : ℤ}
    (hv : (addS f x y : ℝ) = v * 2 ^ k) (hR : Resists b (lookupSize f) 0 (2 * f.M + 5) |v|) : ¬ AddForge b f x y := by
  have h := leadingZeros_spec (by omega : 0 < (addS f x y).natAbs) (addS_bound (f := f) hx.man_lt hy.man_lt)
  have hN : addN f x y = (addS f x y).natAbs * 2 ^ leadingZeros (addS f x y).natAbs (2 * f.M + 5) := by
    unfold addN lzShift; rw [if_neg hS0]
  have hval : |v| * 2 ^ (k + (leadingZeros (addS f x y).natAbs (2 * f.M + 5) : ℕ)) = (addN f x y : ℝ) := by
    rw [hN, zpow_add₀ (by norm_num), zpow_natCast]
    push_cast
    rw [Nat.cast_natAbs, Int.cast_abs, hv, abs_mul, abs_of_pos (show (0:ℝ) < 2 ^ k by positivity)]; ring
  refine hR.not_forge (N := addN f x y) hb0 ?_ ?_ hval.ge ?_ (Or.inl rfl)
  · rw [hN, show 2 * f.M + 5 = 2 * f.M + 5 - 1 + 1 by omega, pow_succ]
    have := h.2.1
    simp only [show 2 * f.M + 5 - 1 + 1 = 2 * f.M + 5 by omega]; omega
  · rw [hN]; exact h.2.2
  · rw [hval]; linarith

/-- Firm sums. -/
theorem add_firm (G : Good p b f) (hE5 : 5 ≤ f.E) (hpw : 2 ^ (3 * f.M + 2 * f.E + 6 + 3 * b) ≤ p) {x y : Flt} (hx : x.Valid f)
    (hy : y.Valid f) (hf : FirmAdd b f (x.datum f) (y.datum f)) {st : Bool} {r : FloatVar p}
    (hr : (fAdd f (x.toVar : FloatVar p) y.toVar).Sat b st r) : (fAdd f (x.toVar : FloatVar p) y.toVar).Sat 1 st r := by
  have hb0 : 0 < b := G.width.pos
  rw [(fAdd_spec_any (p := p) (b := 1) (H := True) G.one (hx.bdd G) (hy.bdd G) hx.man_cases hy.man_cases (abn_of_eMax G hx hy) hE5
    (le_trans (Nat.pow_le_pow_right (by norm_num) (by omega)) hpw)).sat trivial]
  rcases ((fAdd_spec_any (p := p) (H := True) G (hx.bdd G) (hy.bdd G) hx.man_cases hy.man_cases (abn_of_eMax G hx hy) hE5 hpw).sat trivial
    st r).1 hr with h | ⟨hfo, c1, c2, rfl⟩
  · exact Or.inl h
  left
  by_cases hab : (x.abn || y.abn) = true
  · refine ⟨c1, c2, ?_⟩
    unfold addZ0 addZ
    simp only [addTail_eq, addFin, fixZ, hab, Bool.or_true, if_true]
  by_cases hS0 : addS f x y = 0
  · refine ⟨c1, c2, ?_⟩
    unfold addZ0 addZ
    simp only [addTail_eq]
    rw [hS0, Int.natAbs_zero, zero_mul, rnd_zero]
  exfalso
  have hxa : x.abn = false := by cases h : x.abn; rfl; rw [h] at hab; simp at hab
  have hya : y.abn = false := by cases h : y.abn; rfl; rw [h] at hab; simp at hab
  have dx : x.datum f = .fin x.sign (x.mag f) := by unfold Flt.datum Flt.mag; rw [hxa]; simp
  have dy : y.datum f = .fin y.sign (y.mag f) := by unfold Flt.datum Flt.mag; rw [hya]; simp
  have hxe := hx.exp_ge G
  have hye := hy.exp_ge G
  have hx2 := hx.man_lt
  have hy2 := hy.man_lt
  have key : ∀ {u w : Flt}, u.Valid f → w.Valid f → w.abn = false → u.exp ≤ w.exp → ∃ (j : ℕ) (k : ℤ), (j = 0 ∨ u.mag f * 2 ^ j ≤ w.mag f) ∧
      ((u.smant * 2 ^ (f.M + 3 - expGap u w) + w.smant * 2 ^ (f.M + 3) : ℤ) : ℝ) = (u.sval f * 2 ^ j + w.sval f) * 2 ^ k := by
    intro u w hu hw hwa hle
    have hg : (expGap u w : ℤ) = w.exp - u.exp := by unfold expGap; omega
    have hue := hu.exp_ge G
    by_cases hgap : expGap u w ≤ f.M + 3
    · refine ⟨0, 2 * f.M + 3 - w.exp, Or.inl rfl, ?_⟩
      unfold Flt.sval
      push_cast
      rw [pow_zero, mul_one, add_mul, mul_assoc, mul_assoc, ← zpow_add₀ (by norm_num), ← zpow_add₀ (by norm_num), ← zpow_natCast, ← zpow_natCast]
      congr 3 <;> [skip; congr 1] <;> omega
    · refine ⟨expGap u w - (f.M + 3), 2 * f.M + 3 - w.exp, Or.inr ?_, ?_⟩
      · have hw0 : w.man ≠ 0 := by
          intro h
          have hw3 : w.exp = f.eMin := by
            cases hw with
            | nan => simp at hwa
            | inf => simp at hwa
            | zero => rfl
            | fin s e m h1 => have : 2 ^ f.M ≤ 0 := by simp_all
                              have := Nat.two_pow_pos f.M
                              omega
          omega
        have hw1 := hw.man_cases.resolve_left hw0
        have hu2 := hu.man_lt
        have a1 : (u.man : ℝ) ≤ 2 ^ (f.M + 1) := by exact_mod_cast hu2.le
        have a2 : (2:ℝ) ^ f.M ≤ w.man := by exact_mod_cast hw1
        unfold Flt.mag
        calc (u.man:ℝ) * 2 ^ (u.exp - f.M) * 2 ^ (expGap u w - (f.M + 3))
            ≤ 2 ^ (f.M + 1) * 2 ^ (u.exp - f.M) * 2 ^ (expGap u w - (f.M + 3)) := by gcongr
          _ = 2 ^ (w.exp - f.M - 2) := by
              rw [← zpow_natCast, ← zpow_natCast, ← zpow_add₀ (by norm_num), ← zpow_add₀ (by norm_num)]; congr 1; omega
          _ ≤ 2 ^ (w.exp) := zpow_le_zpow_right₀ (by norm_num) (by omega)
          _ = 2 ^ f.M * 2 ^ (w.exp - f.M) := by rw [← zpow_natCast, ← zpow_add₀ (by norm_num)]; congr 1; omega
          _ ≤ _ := by gcongr
      · unfold Flt.sval
        rw [show f.M + 3 - expGap u w = 0 by omega]
        push_cast
        have e1 : (2:ℝ) ^ (u.exp - f.M) * 2 ^ (expGap u w - (f.M + 3)) * 2 ^ (2 * f.M + 3 - w.exp) = 1 := by
          rw [← zpow_natCast, ← zpow_add₀ (by norm_num), ← zpow_add₀ (by norm_num)]
          rw [show u.exp - f.M + ((expGap u w - (f.M + 3) : ℕ) : ℤ) + (2 * f.M + 3 - w.exp) = 0 by omega, zpow_zero]
        have e2 : (2:ℝ) ^ (w.exp - f.M) * 2 ^ (2 * f.M + 3 - w.exp) = 2 ^ (f.M + 3) := by
          rw [← zpow_add₀ (by norm_num), ← zpow_natCast]; congr 1; push_cast; omega
        rw [mul_one, add_mul, mul_assoc (w.smant : ℝ), e2, mul_assoc, mul_assoc, ← mul_assoc ((2:ℝ) ^ (u.exp - f.M)), e1, mul_one]
  rcases le_total x.exp y.exp with hle | hle
  · obtain ⟨j, k, hj, hS⟩ := key hx hy hya hle
    have hR := (hf _ _ _ _ dx dy j).1 hj
    rw [signed_mag, signed_mag] at hR
    refine add_not_forge (k := k) hb0 hx hy hS0 ?_ hR hfo
    unfold addS; rw [if_pos hle]; exact hS
  · obtain ⟨j, k, hj, hS⟩ := key hy hx hxa hle
    have hR := (hf _ _ _ _ dx dy j).2 hj
    rw [signed_mag, signed_mag, add_comm (x.sval f)] at hR
    refine add_not_forge (k := k) hb0 hx hy hS0 ?_ hR hfo
    have hgc : expGap y x = expGap x y := by unfold expGap; omega
    rw [hgc] at hS
    unfold addS
    split
    · rename_i h
      have : expGap x y = 0 := by unfold expGap; omega
      rw [← hS, this, add_comm]; rfl
    · exact hS

omit [Fact p.Prime] in
/-- In a firm rounding to an integer no dishonest answer divides. -/
theorem int_not_forge (G : Good p b f) {x : Flt} (hx : x.Valid f) (hf : FirmInt b f (x.datum f)) (hm : x.man ≠ 0) {c : Bool}
    (hc2 : x.exp < 0 → c = false) (hc : c = false → x.abn = false → x.exp < 0) {t : ℕ} (h0 : 0 < t) (h1 : t < 2 ^ slack b f.pow2Size)
    (ht : intShift f x c + t < f.pow2Size) :
    ¬ 2 ^ (intShift f x c + t) + t * 2 ^ f.pow2Size ∣ x.man * 2 ^ (f.M + 1) * 2 ^ slack b (f.M + 1) := by
  intro hd
  have hb0 : 0 < b := G.width.pos
  have hx1 := hx.man_cases.resolve_left hm
  have hx2 := hx.man_lt
  cases ha : x.abn with
  | true =>
    have hman : x.man = 2 ^ f.M := by
      cases hx with
      | nan => simp at hm
      | inf => rfl
      | zero => simp at ha
      | fin => simp at ha
    rw [hman, ← pow_add, ← pow_add] at hd
    exact pow2Answer_not_dvd h0 ht hd
  | false =>
    have dx : x.datum f = .fin x.sign (x.mag f) := by unfold Flt.datum Flt.mag; rw [ha]; simp
    have a1 : (2:ℝ) ^ f.M ≤ x.man := by exact_mod_cast hx1
    have a2 : (x.man:ℝ) < 2 ^ (f.M + 1) := by exact_mod_cast hx2
    have hlo : (2:ℝ) ^ x.exp ≤ x.mag f := by
      unfold Flt.mag
      calc (2:ℝ) ^ x.exp = 2 ^ f.M * 2 ^ (x.exp - f.M) := by rw [← zpow_natCast, ← zpow_add₀ (by norm_num)]; congr 1; omega
        _ ≤ _ := by gcongr
    have hhi : x.mag f < (2:ℝ) ^ (x.exp + 1) := by
      unfold Flt.mag
      calc _ < (2:ℝ) ^ (f.M + 1) * 2 ^ (x.exp - f.M) := mul_lt_mul_of_pos_right a2 (by positivity)
        _ = _ := by rw [← zpow_natCast, ← zpow_add₀ (by norm_num)]; congr 1; push_cast; ring
    have hσ : intShift f x c = ((f.M : ℤ) - (if c then x.exp else -1)).toNat := rfl
    obtain ⟨e, he, hE⟩ : ∃ e : ℤ, e = (if c then x.exp else -1) ∧ (x.exp ≤ e ∧ (0 ≤ e → e = x.exp) ∧ -1 ≤ e) := by
      refine ⟨_, rfl, ?_⟩
      cases c with
      | true => have : ¬ x.exp < 0 := fun h => by have := hc2 h; cases this
                rw [if_pos rfl]; omega
      | false => have := hc rfl ha
                 simp only [Bool.false_eq_true, if_false]; omega
    rw [← he] at hσ
    have hR := hf _ _ dx (intShift f x c) (by omega) (fun h => le_trans ?_ hlo) (fun h => lt_of_lt_of_le hhi ?_) (fun h => le_trans ?_ hlo)
    · refine Resists.not_forge (f := f) (N := x.man) (N' := x.man) (mbl := f.M + 2) (smax := f.M + 1) (k := f.M - x.exp) hb0 hR ?_ hx2 ?_ ?_ (Or.inl rfl) ?_
      · rw [pow_succ]; omega
      · unfold Flt.mag; rw [mul_assoc, ← zpow_add₀ (by norm_num)]; simp
      · unfold Flt.mag; rw [mul_assoc, ← zpow_add₀ (by norm_num)]; simp
      · refine ⟨t, h0, h1, ht, ?_⟩
        rw [show f.M + 1 + (f.M + 2) - f.M - 2 = f.M + 1 by omega]
        exact hd
    · rw [← zpow_natCast]; exact zpow_le_zpow_right₀ (by norm_num) (by omega)
    · rw [← zpow_natCast]; exact zpow_le_zpow_right₀ (by norm_num) (by omega)
    · rw [← zpow_natCast]; exact zpow_le_zpow_right₀ (by norm_num) (by omega)

/-- Numbers outside `[1, 2)` have no exponent zero. -/
theorem exp_ne_zero {x : Flt} (hx : x.Valid f) (hm : x.man ≠ 0) (ha : x.abn = false)
    (h12 : ∀ s v, x.datum f = .fin s v → v < 1 ∨ 2 ≤ v) : x.exp ≠ 0 := by
  intro h
  have hx1 := hx.man_cases.resolve_left hm
  have hx2 := hx.man_lt
  have a1 : (2:ℝ) ^ f.M ≤ x.man := by exact_mod_cast hx1
  have a2 : (x.man:ℝ) < 2 ^ (f.M + 1) := by exact_mod_cast hx2
  have dx : x.datum f = .fin x.sign (x.man / 2 ^ f.M) := by unfold Flt.datum; rw [ha, h]; simp [zpow_neg, div_eq_mul_inv]
  have hp : (0:ℝ) < 2 ^ f.M := by positivity
  rcases h12 _ _ dx with h | h
  · rw [div_lt_one hp] at h; linarith
  · rw [le_div_iff₀ hp] at h; rw [pow_succ] at a2; linarith

/-- Firm truncations. -/
theorem trunc_firm (G : Good p b f) (hpw : 2 ^ (3 * f.M + f.E + 3 + 3 * b) ≤ p) {x : Flt} (hx : x.Valid f)
    (hf : FirmInt b f (x.datum f)) (h12 : ∀ s v, x.datum f = .fin s v → v < 1 ∨ 2 ≤ v) {st : Bool} {r : FloatVar p}
    (hr : (fTrunc f (x.toVar : FloatVar p)).Sat b st r) : (fTrunc f (x.toVar : FloatVar p)).Sat 1 st r := by
  have hb0 : 0 < b := G.width.pos
  rw [(fTrunc_spec_any (p := p) (b := 1) (H := True) G.one (hx.bdd G) (le_trans (Nat.pow_le_pow_right (by norm_num) (by omega)) hpw)).sat trivial]
  obtain ⟨c, hc1, hc2, h | ⟨t, h0, h1, ht, hd, rfl⟩⟩ := ((fTrunc_spec_any (p := p) (H := True) G (hx.bdd G) hpw).sat trivial st r).1 hr
  · exact ⟨c, hc1, hc2, Or.inl h⟩
  refine ⟨c, hc1, hc2, Or.inl ?_⟩
  by_cases hm : x.man = 0
  · congr 1; unfold truncZ0 truncZ intQuot dq; rw [hm]; simp
  refine absurd hd (int_not_forge G hx hf hm hc2 (fun hc ha => ?_) h0 h1 ht)
  have h2 := exp_ne_zero hx hm ha h12
  by_contra h3
  have := hc1 (by omega)
  rw [hc] at this; cases this

/-- Firm floors. -/
theorem floor_firm (G : Good p b f) (hpw : 2 ^ (3 * f.M + f.E + 4 + 3 * b) ≤ p) {x : Flt} (hx : x.Valid f)
    (hf : FirmInt b f (x.datum f)) (h12 : ∀ s v, x.datum f = .fin s v → v < 1 ∨ 2 ≤ v) {st : Bool} {r : FloatVar p}
    (hr : (fFloor f (x.toVar : FloatVar p)).Sat b st r) : (fFloor f (x.toVar : FloatVar p)).Sat 1 st r := by
  have hb0 : 0 < b := G.width.pos
  rw [(fFloor_spec_any (p := p) (b := 1) (H := True) G.one (hx.bdd G) (le_trans (Nat.pow_le_pow_right (by norm_num) (by omega)) hpw)).sat trivial]
  obtain ⟨c, hc1, hc2, h | ⟨t, h0, h1, ht, hd, rfl⟩⟩ := ((fFloor_spec_any (p := p) (H := True) G (hx.bdd G) hpw).sat trivial st r).1 hr
  · exact ⟨c, hc1, hc2, Or.inl h⟩
  refine ⟨c, hc1, hc2, Or.inl ?_⟩
  by_cases hm : x.man = 0
  · congr 1
    unfold floorZ0 floorZ intQuot dq
    rw [hm]
    have h1 : (2 ^ (f.M + 1) - 1) / 2 ^ (f.M + 1) = 0 := Nat.div_eq_of_lt (Nat.sub_lt (Nat.two_pow_pos _) (by norm_num))
    have h2 : ¬ 0 = 2 ^ (f.M + 1) := by have := Nat.two_pow_pos (f.M + 1); omega
    cases x.sign <;> simp [floorExp, h1, h2]
  refine absurd hd (int_not_forge G hx hf hm hc2 (fun hc ha => ?_) h0 h1 ht)
  have h2 := exp_ne_zero hx hm ha h12
  by_contra h3
  have := hc1 (by omega)
  rw [hc] at this; cases this

end ZkLoc
