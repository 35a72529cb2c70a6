import Verif.Props.Circuits

/-!
# Helper lemmas: what a forged rounding leaves behind

At a table width that does not divide the size of the power-of-two lookup, `round` may return zero. Here the
resulting records of `Sqrt`, `Add`, `Mul` and `Div` are identified.
-/

namespace ZkLoc

open Ieee (Datum)

variable {p b : ℕ} [Fact p.Prime] {f : Fmt}

/-- The odd part of a forged lookup answer divides the significand. -/
theorem RoundForge.odd {N mbl σ smax : ℕ} (h : RoundForge b f N mbl σ smax) :
    ∃ t, 0 < t ∧ t < 2 ^ slack b f.pow2Size ∧ σ + t < f.pow2Size ∧ (1 + t * 2 ^ (f.pow2Size - (σ + t))) ∣ N := by
  obtain ⟨t, h0, h1, h2, h3⟩ := h
  refine ⟨t, h0, h1, h2, ?_⟩
  have e : 2 ^ (σ + t) + t * 2 ^ f.pow2Size = 2 ^ (σ + t) * (1 + t * 2 ^ (f.pow2Size - (σ + t))) := by
    have : 2 ^ f.pow2Size = 2 ^ (σ + t) * 2 ^ (f.pow2Size - (σ + t)) := by rw [← pow_add]; congr 1; omega
    rw [this]; ring
  rw [e] at h3
  have h4 : (1 + t * 2 ^ (f.pow2Size - (σ + t))) ∣ N * 2 ^ (smax + slack b (smax + mbl - f.M - 2)) := by
    rw [pow_add, ← mul_assoc]; exact dvd_trans (dvd_mul_left _ _) h3
  refine Nat.Coprime.dvd_of_dvd_mul_right (Nat.Coprime.pow_right _ ?_) h4
  rw [Nat.coprime_two_right]
  refine Nat.odd_add.2 ⟨fun _ => ?_, fun _ => odd_one⟩
  obtain ⟨d, hd⟩ : ∃ d, f.pow2Size - (σ + t) = d + 1 := ⟨f.pow2Size - (σ + t) - 1, by omega⟩
  rw [hd, pow_succ, ← mul_assoc]; exact even_two.mul_left _

/-- A power of two cannot be forged away. -/
theorem RoundForge.not_two_pow {n mbl σ smax : ℕ} : ¬ RoundForge b f (2 ^ n) mbl σ smax := by
  intro h
  obtain ⟨t, h0, h1, h2, h3⟩ := h.odd
  obtain ⟨k, hk, h4⟩ := (Nat.dvd_prime_pow Nat.prime_two).1 h3
  obtain ⟨d, hd⟩ : ∃ d, f.pow2Size - (σ + t) = d + 1 := ⟨f.pow2Size - (σ + t) - 1, by omega⟩
  rw [hd, pow_succ] at h4
  cases k with
  | zero => rw [pow_zero] at h4; have : 0 < t * (2 ^ d * 2) := by positivity
            omega
  | succ k => rw [pow_succ] at h4; have e : t * (2 ^ d * 2) = 2 * (t * 2 ^ d) := by ring
              omega

/-- Widths at which no forged answer is small enough for a significand below `2^n`. -/
def NarrowSlack (b size n : ℕ) : Prop := ∀ t, 0 < t → t < 2 ^ slack b size → t < size → 2 ^ n ≤ t * 2 ^ (size - t)

theorem RoundForge.not_narrow {N mbl smax n : ℕ} (hn : NarrowSlack b f.pow2Size n) (hN : N < 2 ^ n) (h0 : N ≠ 0) :
    ¬ RoundForge b f N mbl 0 smax := by
  intro h
  obtain ⟨t, h1, h2, h3, h4⟩ := h.odd
  rw [zero_add] at h3 h4
  have := hn t h1 h2 h3
  have := Nat.le_of_dvd (Nat.pos_of_ne_zero h0) h4
  omega

theorem vanished_of {z : Flt} (h1 : f.eMin < z.exp) (h2 : z.exp ≤ f.eMax) (h3 : z.man = 0) (h4 : z.abn = false) :
    Vanished f (z.toVar : FloatVar p) := by
  have hmn := f.eMin_eq
  refine ⟨z.sign, z.exp, ?_, h2, ?_⟩
  · unfold Fmt.eMax at *; omega
  · unfold Flt.toVar; rw [h3, h4]; cases z.sign <;> simp

/-! ### Square root -/

theorem sqrtN_zero {x : Flt} : sqrtN f x = 0 ↔ x.man = 0 := by
  unfold sqrtN sqrtM
  rw [Nat.sqrt_eq_zero]
  have : 0 < 2 ^ (f.M + 4) := by positivity
  split <;> simp

/-- A forged `Sqrt` yields the honest result or a vanished record. -/
theorem sqrt_forged (G : Good p b f) {x : Flt} (hx : x.Valid f) (h : SqrtForge b f x) :
    sqrtFin f x 0 = sqrtZ f x ∨ Vanished f ((sqrtFin f x 0).toVar : FloatVar p) := by
  have hMz := G.hMz
  have hmn := f.eMin_eq
  by_cases hs : x.sign = true
  · left; rw [sqrtZ_eq]; unfold sqrtFin; simp [hs]
  by_cases hN : sqrtN f x = 0
  · left; rw [sqrtZ_eq, hN, rnd_zero]
  have hm : x.man ≠ 0 := fun h => hN (sqrtN_zero.2 h)
  have hs : x.sign = false := by simpa using hs
  cases ha : x.abn
  · right
    have h1 := hx.exp_fin G ha
    have h2 : f.eMin < x.exp := by
      cases hx with
      | nan => simp at ha
      | inf => simp at ha
      | zero => simp at hm
      | fin s e m g1 g2 g3 g4 g5 => simp only; have := f.eNormalMin_eq; omega
    apply vanished_of
    · unfold sqrtFin; simp only [hs, ha, hN, Bool.false_and, Bool.or_false, Bool.false_eq_true, if_false]
      split <;> omega
    · unfold sqrtFin; simp only [hs, ha, hN, Bool.false_and, Bool.or_false, Bool.false_eq_true, if_false]
      split <;> omega
    · unfold sqrtFin; simp
    · unfold sqrtFin; simp [hs, ha]
  · exfalso
    cases hx with
    | nan => simp at hm
    | zero => simp at ha
    | fin => simp at ha
    | inf s =>
      have hE := G.hE
      have he : sqrtN f ⟨s, f.eMax, 2 ^ f.M, true⟩ = 2 ^ (f.M + 2) := by
        unfold sqrtN sqrtM
        have : ¬ (f.eMax % 2 = 1) := by
          unfold Fmt.eMax
          obtain ⟨d, hd⟩ : ∃ d, f.E - 1 = d + 1 := ⟨f.E - 2, by omega⟩
          rw [hd, pow_succ]; omega
        simp only [this, decide_false, Bool.false_eq_true, if_false]
        rw [← pow_add, show f.M + (f.M + 4) = (f.M + 2) + (f.M + 2) by omega, pow_add, Nat.sqrt_eq]
      unfold SqrtForge at h
      rw [he] at h
      exact h.not_two_pow

/-! ### Addition -/

/-- A forged `Add` yields a result that is possible anyway or a vanished record. -/
theorem add_forged (G : Good p b f) {x y : Flt} (hx : x.Valid f) (hy : y.Valid f) (c1 c2 : Bool) :
    addZ0 f x y c1 c2 = addZ f x y c1 c2 ∨ Vanished f ((addZ0 f x y c1 c2).toVar : FloatVar p) := by
  have hMz := G.hMz
  have hmn := f.eMin_eq
  have hNm := f.eNormalMin_eq
  obtain ⟨S, hS⟩ : ∃ S, S = addS f x y := ⟨_, rfl⟩
  obtain ⟨k, hk⟩ : ∃ k, k = lzShift S (2 * f.M + 5) := ⟨_, rfl⟩
  by_cases hab : (x.abn || y.abn) = true
  · left
    unfold addZ0 addZ
    simp only [addTail_eq, addFin, fixZ, hab, Bool.or_true, if_true]
  by_cases hS0 : S = 0
  · left
    unfold addZ0 addZ
    simp only [addTail_eq]
    rw [← hS, hS0, Int.natAbs_zero, zero_mul, rnd_zero]
  have hxa : x.abn = false := by cases h : x.abn; rfl; rw [h] at hab; simp at hab
  have hya : y.abn = false := by cases h : y.abn; rfl; rw [h] at hab; simp at hab
  obtain ⟨e0, he⟩ : ∃ e0, e0 = max x.exp y.exp := ⟨_, rfl⟩
  obtain ⟨m, hm⟩ : ∃ m, m = rnd (S.natAbs * 2 ^ k) (f.M + 4) true := ⟨_, rfl⟩
  obtain ⟨-, hnz⟩ := add_sum G hx hy hxa hya hS he hk
  obtain ⟨-, -, hb, -, -, hd⟩ := hnz hS0
  rw [← hm] at hb
  have hxe := hx.exp_fin G hxa
  have hye := hy.exp_fin G hya
  have hN0 : S.natAbs * 2 ^ k ≠ 0 := Nat.mul_ne_zero (by omega) (by positivity)
  have hNb : S.natAbs * 2 ^ k < 2 ^ (2 * f.M + 5) := by
    have := leadingZeros_spec (by omega : 0 < S.natAbs) (hS ▸ addS_bound (f := f) hx.man_lt hy.man_lt)
    rw [hk, lzShift, if_neg hS0]; exact this.2.2
  have hemin : f.eMin < e0 + 1 - k := by
    by_contra hlt
    have h1 := Nat.le_of_dvd (Nat.pos_of_ne_zero hN0) (hd (by omega))
    have h2 := lt_of_le_of_lt h1 hNb
    have h3 := (Nat.pow_lt_pow_iff_right (by norm_num : 1 < 2)).1 h2
    omega
  have hmax : e0 + 1 - k ≤ f.eMax := by omega
  have p1 : ¬ (0 = 2 ^ (f.M + 1)) := by have : 0 < 2 ^ (f.M + 1) := by positivity
                                        omega
  by_cases ha : e0 + 1 - k = f.eMax ∧ c2 = true
  · left
    unfold addZ0 addZ
    simp only [addTail_eq, addFin]
    rw [← hS, ← hk, ← he, ← hm, hxa, hya]
    have hfix : ∀ n, fixZ f n (decide (S.natAbs * 2 ^ k = 0)) (e0 + 1 - k) (false || false) c2 = (2 ^ f.M, f.eMax, true) := by
      intro n
      unfold fixZ
      rw [ha.2, ha.1]
      by_cases hn : n = 2 ^ (f.M + 1) <;> simp [hn]
    rw [hfix, hfix]
  · right
    have ha2 : (decide (f.eMax < e0 + 1 - k) || (decide (e0 + 1 - k = f.eMax) && c2) || (false || false)) = false := by
      have : ¬ f.eMax < e0 + 1 - k := by omega
      simp only [this, decide_false, Bool.false_or, Bool.or_false]
      by_cases h : e0 + 1 - k = f.eMax
      · have : c2 = false := by cases c2; rfl; exact absurd ⟨h, rfl⟩ ha
        simp [this]
      · simp [h]
    have hfix : fixZ f 0 (decide (S.natAbs * 2 ^ k = 0)) (e0 + 1 - k) (false || false) c2 = (0, e0 + 1 - k, false) := by
      unfold fixZ
      simp only [p1, decide_false, Bool.false_eq_true, if_false, add_zero, decide_eq_false hN0]
      rw [ha2]; simp
    have hz : addZ0 f x y c1 c2 = ⟨if x.sign = y.sign then x.sign else !(if S = 0 then c1 else decide (0 < S)), e0 + 1 - k, 0, false⟩ := by
      unfold addZ0 addFin
      simp only []
      rw [← hS, ← hk, ← he, hxa, hya, hfix]
      simp
    rw [hz]
    exact vanished_of hemin hmax rfl rfl

/-- Size conditions for addition at every table width: BN254 and BLS12-381 with binary32 at every width, with binary64
at every width. -/
def AddField (p b : ℕ) (f : Fmt) : Prop := 5 ≤ f.E ∧ 2 ^ (3 * f.M + 2 * f.E + 6 + 3 * b) ≤ p

/-- The outcomes of an addition at every table width. -/
theorem add_any (G : Good p b f) (hp : AddField p b f) {x y : Flt} (hx : x.Valid f) (hy : y.Valid f) {st : Bool} {r : FloatVar p} :
    ((∃ c1 c2, r = (addZ f x y c1 c2).toVar) → (fAdd f (x.toVar : FloatVar p) y.toVar).Sat b st r) ∧
    ((fAdd f (x.toVar : FloatVar p) y.toVar).Sat b st r → (∃ c1 c2, r = (addZ f x y c1 c2).toVar) ∨ Vanished f r) := by
  have hs := (fAdd_spec_any (p := p) (b := b) (H := True) G (hx.bdd G) (hy.bdd G) hx.man_cases hy.man_cases (abn_of_eMax G hx hy)
    hp.1 hp.2).sat trivial st r
  rw [hs]
  refine ⟨Or.inl, ?_⟩
  rintro (h | ⟨-, c1, c2, rfl⟩)
  · exact Or.inl h
  · rcases add_forged (p := p) G hx hy c1 c2 with h | h
    · exact Or.inl ⟨c1, c2, by rw [h]⟩
    · exact Or.inr h

/-! ### Multiplication and division -/

theorem mul_forged (G : Good p b f) {x y : Flt} (hx : x.Valid f) (hy : y.Valid f) (c : Bool) :
    Encodes f ((mulFin f x y 0 c).toVar : FloatVar p) .nan ∨
    (x.abn = false ∧ y.abn = false ∧ Encodes f ((mulFin f x y 0 c).toVar : FloatVar p) (.fin (xor x.sign y.sign) 0)) := by
  have p1 : ¬ (0 = 2 ^ (f.M + 1)) := by have : 0 < 2 ^ (f.M + 1) := by positivity
                                        omega
  obtain ⟨a, ha⟩ : ∃ a, a = (decide (f.eMax < mulE f x y) || (decide (mulE f x y = f.eMax) && c) || (x.abn || y.abn)) := ⟨_, rfl⟩
  have hz : mulFin f x y 0 c = ⟨xor x.sign y.sign, if a then f.eMax else f.eMin, 0, a⟩ := by
    unfold mulFin fixZ
    simp only [p1, decide_false, Bool.false_eq_true, if_false, add_zero, decide_true, if_true, ← ha]
  rw [hz]
  cases a
  · right
    have := ha.symm
    simp only [Bool.or_eq_false_iff] at this
    exact ⟨this.2.1, this.2.2, encodes_iff.2 ⟨_, .zero _, by simp [Flt.datum], rfl⟩⟩
  · left
    exact encodes_iff.2 ⟨_, .nan _, by simp [Flt.datum], rfl⟩

theorem div_forged (G : Good p b f) {x y : Flt} (hx : x.Valid f) (hy : y.Valid f) (c : Bool) :
    Encodes f ((divFin f x y 0 c).toVar : FloatVar p) .nan ∨
    (x.abn = false ∧ y.man ≠ 0 ∧ Encodes f ((divFin f x y 0 c).toVar : FloatVar p) (.fin (xor x.sign y.sign) 0)) := by
  have p1 : ¬ (0 = 2 ^ (f.M + 1)) := by have : 0 < 2 ^ (f.M + 1) := by positivity
                                        omega
  obtain ⟨a, ha⟩ : ∃ a, a = (decide (f.eMax < divE f x y) || (decide (divE f x y = f.eMax) && c) || (x.abn || decide (y.man = 0))) := ⟨_, rfl⟩
  have hz : divFin f x y 0 c = ⟨xor x.sign y.sign, if a then f.eMax else f.eMin, 0, a⟩ := by
    unfold divFin fixZ
    simp only [p1, decide_false, Bool.false_eq_true, if_false, add_zero, decide_true, if_true, ← ha, Bool.true_or]
  rw [hz]
  cases a
  · right
    have := ha.symm
    simp only [Bool.or_eq_false_iff, decide_eq_false_iff_not] at this
    exact ⟨this.2.1, this.2.2, encodes_iff.2 ⟨_, .zero _, by simp [Flt.datum], rfl⟩⟩
  · left
    exact encodes_iff.2 ⟨_, .nan _, by simp [Flt.datum], rfl⟩

/-! ### Truncation -/

/-- Sequencing after the power-of-two lookup at every table width. -/
theorem Spec.bind_query_any {H : Prop} {α : Type} (G : Good p b f) {k : ℕ} (hk : k < f.pow2Size) {g : ZMod p → Circ p α} {w : α}
    {S : α → Prop} {F : ℕ → α → Prop} (hg : Spec b H (g (2 ^ k)) w S)
    (hf : H → ∀ t, 0 < t → t < 2 ^ slack b f.pow2Size → k + t < f.pow2Size → ∀ st r,
      (g ((2 ^ (k + t) + t * 2 ^ f.pow2Size : ℕ) : ZMod p)).Sat b st r ↔ F t r) :
    Spec b H (Circ.bind (queryPowerOf2 f.pow2Size ((k : ℕ) : ZMod p)) g) w
      (fun r => S r ∨ ∃ t, 0 < t ∧ t < 2 ^ slack b f.pow2Size ∧ k + t < f.pow2Size ∧ F t r) := by
  have hE := G.hE
  have hEM := G.hEM
  have hM2 := G.hM2
  have hME := G.hME
  have hps : f.pow2Size = f.M + f.E + 1 := rfl
  refine ⟨?_, fun hH st r => ?_⟩
  · rw [Circ.run_bind, run_queryPowerOf2 (p := p) (b := b) (size := f.pow2Size) G.width (G.pow_le (by omega)) (k := k) (by omega) (by norm_num; omega)]
    exact hg.run
  · rw [Circ.sat_bind]
    simp only [sat_queryPowerOf2_nat G.width (show 5 ≤ f.pow2Size by omega) (G.pow_le (show 2 * f.pow2Size + 18 ≤ _ by omega))
      (lt_trans hk Nat.lt_two_pow_self)]
    constructor
    · rintro ⟨_, ⟨t, ht, hts, rfl⟩, hsat⟩
      rcases Nat.eq_zero_or_pos t with rfl | h0
      · rw [add_zero, zero_mul, add_zero, Nat.cast_pow, Nat.cast_ofNat] at hsat
        exact Or.inl ((hg.sat hH st r).1 hsat)
      · exact Or.inr ⟨t, h0, ht, hts, (hf hH t h0 ht hts st r).1 hsat⟩
    · rintro (hr | ⟨t, h0, ht, hts, hr⟩)
      · exact ⟨2 ^ k, ⟨0, by positivity, by omega, by simp⟩, (hg.sat hH st r).2 hr⟩
      · exact ⟨_, ⟨t, ht, hts, rfl⟩, (hf hH t h0 ht hts st r).2 hr⟩

/-- Integer-level `Trunc` after a forged lookup. -/
def truncZ0 (f : Fmt) (x : Flt) (c : Bool) : Flt := ⟨x.sign, if c then x.exp else f.eMin, 0, x.abn⟩

theorem truncRest_forged (G : Good p b f) {x : Flt} (hx : x.Bdd f) (c : Bool) {T : ℕ} (hT1 : 2 ^ f.pow2Size ≤ T)
    (hT2 : T < 2 ^ (f.pow2Size + slack b f.pow2Size)) (hpw : 2 ^ (3 * f.M + f.E + 3 + 3 * b) ≤ p) (st : Bool) (r0 : FloatVar p) :
    (truncRest f (x.toVar : FloatVar p) (B c) ((T : ℕ) : ZMod p)).Sat b st r0 ↔
      T ∣ x.man * 2 ^ (f.M + 1) * 2 ^ slack b (f.M + 1) ∧ r0 = (truncZ0 f x c).toVar := by
  have hE := G.hE
  have hEM := G.hEM
  have hM2 := G.hM2
  have hb0 := G.bpos
  have hb17 := G.width.le
  have hps : f.pow2Size = f.M + f.E + 1 := rfl
  obtain ⟨d, hd⟩ : ∃ d, d = slack b (f.M + 1) := ⟨_, rfl⟩
  have hsl := slack_add (f.M + 1) hb0
  rw [← hd] at hsl ⊢
  have hdb : d ≤ b - 1 := by have := slack_lt hb0 (show 0 < f.M + 1 by omega); omega
  have hdS : slack b f.pow2Size ≤ b - 1 := by have := slack_lt hb0 (show 0 < f.pow2Size by omega); omega
  have h2d := pow_two_ne_zero G (d := d) (by omega)
  have hTpos : 0 < T := lt_of_lt_of_le (by positivity) hT1
  have hTp : T < p := lt_of_lt_of_le hT2 (le_trans (Nat.pow_le_pow_right (by norm_num) (by omega)) hpw)
  have hT0 : ((T : ℕ) : ZMod p) ≠ 0 := by
    intro h
    have := (natCast_inj (p := p) (a := T) (c := 0) hTp (by omega)).1 (by simpa using h)
    omega
  have hmT : x.man < T := lt_of_lt_of_le hx.man (le_trans (Nat.pow_le_pow_right (by norm_num) (by omega)) hT1)
  have hKpos : 0 < 2 ^ (f.M + 1) * 2 ^ d := by positivity
  unfold truncRest
  simp only [Circ.bind_eq]
  rw [Circ.sat_det_bind (inverse_spec hT0)]
  simp only [newHint, Circ.bind_eq, Circ.bind, assertBitLength, Circ.Sat, Circ.pure_eq, select, softBool, Flt.toVar, sel_B]
  have hz : ((x.man : ℕ) : ZMod p) * tw (f.M + 1) * ((T : ℕ) : ZMod p)⁻¹ * 2 ^ d * ((T : ℕ) : ZMod p) =
      ((x.man * 2 ^ (f.M + 1) * 2 ^ d : ℕ) : ZMod p) := by
    push_cast; unfold tw
    rw [show ((x.man : ℕ) : ZMod p) * 2 ^ (f.M + 1) * ((T : ℕ) : ZMod p)⁻¹ * 2 ^ d * ((T : ℕ) : ZMod p) =
      ((x.man : ℕ) : ZMod p) * 2 ^ (f.M + 1) * 2 ^ d * (((T : ℕ) : ZMod p) * ((T : ℕ) : ZMod p)⁻¹) by ring, mul_inv_cancel₀ hT0, mul_one]
  have hfin : (⟨B x.sign, if c = true then ((x.exp : ℤ) : ZMod p) else ((f.eMin : ℤ) : ZMod p), 0 * ((T : ℕ) : ZMod p), B x.abn⟩ : FloatVar p)
      = ⟨B (truncZ0 f x c).sign, (((truncZ0 f x c).exp : ℤ) : ZMod p), (((truncZ0 f x c).man : ℕ) : ZMod p), B (truncZ0 f x c).abn⟩ := by
    unfold truncZ0; cases c <;> simp
  constructor
  · rintro ⟨q, h1, h2, -, rfl⟩
    rw [checkSat_loose_iff hb0 (by omega), ← hsl] at h1
    rw [checkSat_smallAbs_iff hb0 (by omega), ← hsl, ← hd] at h2
    have hqc : q = ((q.val : ℕ) : ZMod p) := by simp
    generalize q.val = Q at *
    subst hqc
    obtain ⟨u, hu1, hu2⟩ : ∃ u : ℕ, (((x.man : ℕ) : ZMod p) * tw (f.M + 1) * ((T : ℕ) : ZMod p)⁻¹ - ((Q : ℕ) : ZMod p) * tw (f.M + 1)) * 2 ^ d
        = ((u : ℕ) : ZMod p) ∧ u < 2 ^ (f.M + 1 + d) := ⟨_, by simp, h2⟩
    have hint : (Q * (2 ^ (f.M + 1) * 2 ^ d) + u) * T = x.man * 2 ^ (f.M + 1) * 2 ^ d := by
      rw [← natCast_inj (p := p)]
      · rw [← hz]; push_cast; rw [← hu1]; unfold tw; ring
      · refine lt_of_lt_of_le (b := 2 ^ (f.M + 1 + d + (f.M + 1 + d) + (f.pow2Size + slack b f.pow2Size))) ?_
          (le_trans (Nat.pow_le_pow_right (by norm_num) (by omega)) hpw)
        rw [pow_add _ _ (f.pow2Size + slack b f.pow2Size)]
        refine Nat.mul_lt_mul'' ?_ hT2
        rw [← pow_add, pow_add 2 (f.M + 1 + d)]
        have : (Q + 1) * 2 ^ (f.M + 1 + d) ≤ 2 ^ (f.M + 1 + d) * 2 ^ (f.M + 1 + d) := Nat.mul_le_mul_right _ h1
        rw [add_mul, one_mul] at this
        omega
      · refine lt_of_lt_of_le (b := 2 ^ (f.M + 1 + (f.M + 1) + d)) ?_
          (le_trans (Nat.pow_le_pow_right (by norm_num) (by omega)) hpw)
        rw [pow_add _ _ d, pow_add _ (f.M + 1) (f.M + 1)]
        exact Nat.mul_lt_mul_of_pos_right (Nat.mul_lt_mul_of_pos_right hx.man (by positivity)) (by positivity)
    have hQ : Q = 0 := by
      by_contra hne
      have h3 : 1 * (2 ^ (f.M + 1) * 2 ^ d) * T ≤ (Q * (2 ^ (f.M + 1) * 2 ^ d) + u) * T :=
        Nat.mul_le_mul_right _ (le_trans (Nat.mul_le_mul_right _ (Nat.one_le_iff_ne_zero.2 hne)) (Nat.le_add_right _ _))
      rw [hint, one_mul, mul_comm _ T, mul_assoc] at h3
      have := Nat.le_of_mul_le_mul_right h3 hKpos
      omega
    subst hQ
    refine ⟨Dvd.intro_left _ hint, ?_⟩
    rw [Nat.cast_zero]; exact hfin
  · rintro ⟨⟨X, hX⟩, rfl⟩
    have hXlt : X < 2 ^ (f.M + 1 + d) := by
      by_contra hge
      have h3 : T * 2 ^ (f.M + 1 + d) ≤ T * X := Nat.mul_le_mul_left _ (by omega)
      rw [← hX, mul_assoc, pow_add] at h3
      have := Nat.le_of_mul_le_mul_right h3 hKpos
      omega
    have hX' : ((x.man : ℕ) : ZMod p) * tw (f.M + 1) * ((T : ℕ) : ZMod p)⁻¹ * 2 ^ d = ((X : ℕ) : ZMod p) := by
      apply mul_right_cancel₀ hT0
      rw [hz, hX]; push_cast; ring
    refine ⟨0, ?_, ?_, fun _ => isBool_B _, hfin.symm⟩
    · rw [checkSat_loose_iff hb0 (by omega)]; simp
    · rw [checkSat_smallAbs_iff hb0 (by omega), ← hsl, ← hd, zero_mul, sub_zero, hX']
      exact lt_of_le_of_lt (val_natCast_le _) hXlt

/-- The exact outcomes of `Trunc` at every table width. -/
theorem fTrunc_spec_any {H : Prop} (G : Good p b f) {x : Flt} (hx : x.Bdd f) (hpw : 2 ^ (3 * f.M + f.E + 3 + 3 * b) ≤ p) :
    Spec b H (fTrunc f (x.toVar : FloatVar p)) (truncZ f x (decide (0 ≤ x.exp))).toVar
      (fun r => ∃ c : Bool, (0 < x.exp → c = true) ∧ (x.exp < 0 → c = false) ∧ (r = (truncZ f x c).toVar ∨
        ∃ t, 0 < t ∧ t < 2 ^ slack b f.pow2Size ∧ intShift f x c + t < f.pow2Size ∧
          (2 ^ (intShift f x c + t) + t * 2 ^ f.pow2Size ∣ x.man * 2 ^ (f.M + 1) * 2 ^ slack b (f.M + 1) ∧
            r = (truncZ0 f x c).toVar))) := by
  have hE := G.hE
  have hEM := G.hEM
  have hps : f.pow2Size = f.M + f.E + 1 := rfl
  refine fTrunc_front G hx fun c hk => ?_
  refine Spec.bind_query_any G (by omega) (truncRest_spec G hx c hk) fun _ t h0 h1 h2 st r => ?_
  obtain ⟨-, g2, g3⟩ := pow2Answer_bound h1 h2
  exact truncRest_forged G hx c (g3 h0) g2 hpw st r

/-- A forged `Trunc` yields a result that is possible anyway or a vanished record. -/
theorem trunc_forged (G : Good p b f) {x : Flt} (hx : x.Valid f) {c : Bool} (hc1 : 0 < x.exp → c = true) (hc2 : x.exp < 0 → c = false)
    {t : ℕ} (h0 : 0 < t) (ht : intShift f x c + t < f.pow2Size)
    (hd : 2 ^ (intShift f x c + t) + t * 2 ^ f.pow2Size ∣ x.man * 2 ^ (f.M + 1) * 2 ^ slack b (f.M + 1)) :
    truncZ0 f x c = truncZ f x c ∨ Vanished f ((truncZ0 f x c).toVar : FloatVar p) := by
  have hMz := G.hMz
  have hmn := f.eMin_eq
  by_cases hm : x.man = 0
  · left; unfold truncZ0 truncZ intQuot dq; rw [hm]; simp
  cases c with
  | false =>
    left
    have h1 : intShift f x false = f.M + 1 := by unfold intShift; simp
    unfold truncZ0 truncZ intQuot dq
    rw [h1]
    have : x.man * 2 ^ (f.M + 1 - (f.M + 1)) / 2 ^ (f.M + 1) = 0 := by
      rw [Nat.sub_self, pow_zero, mul_one]; exact Nat.div_eq_of_lt hx.man_lt
    simp only [this, Bool.false_eq_true, if_false, zero_mul]
  | true =>
    have he : 0 ≤ x.exp := by by_contra h; have := hc2 (by omega); cases this
    cases ha : x.abn
    · right
      have := hx.exp_fin G ha
      refine vanished_of ?_ ?_ rfl ha
      · simp only [truncZ0, if_true]; omega
      · simp only [truncZ0, if_true]; omega
    · exfalso
      have hman : x.man = 2 ^ f.M := by
        cases hx with
        | nan => simp at hm
        | inf => rfl
        | zero => simp at ha
        | fin => simp at ha
      rw [hman, ← pow_add, ← pow_add] at hd
      obtain ⟨k, hk, h4⟩ := (Nat.dvd_prime_pow Nat.prime_two).1 hd
      have e : 2 ^ (intShift f x true + t) + t * 2 ^ f.pow2Size =
          2 ^ (intShift f x true + t) * (1 + t * 2 ^ (f.pow2Size - (intShift f x true + t))) := by
        have : 2 ^ f.pow2Size = 2 ^ (intShift f x true + t) * 2 ^ (f.pow2Size - (intShift f x true + t)) := by
          rw [← pow_add]; congr 1; omega
        rw [this]; ring
      have h5 : (1 + t * 2 ^ (f.pow2Size - (intShift f x true + t))) ∣ 2 ^ k := by rw [← h4, e]; exact dvd_mul_left _ _
      obtain ⟨j, -, h6⟩ := (Nat.dvd_prime_pow Nat.prime_two).1 h5
      obtain ⟨d, hd'⟩ : ∃ d, f.pow2Size - (intShift f x true + t) = d + 1 := ⟨f.pow2Size - (intShift f x true + t) - 1, by omega⟩
      rw [hd', pow_succ] at h6
      cases j with
      | zero => rw [pow_zero] at h6; have : 0 < t * (2 ^ d * 2) := by positivity
                omega
      | succ j => rw [pow_succ] at h6; have e : t * (2 ^ d * 2) = 2 * (t * 2 ^ d) := by ring
                  omega

end ZkLoc
