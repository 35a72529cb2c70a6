import Verif.RoundSpec

/-!
# Helper lemmas: the rounding gadget at every table width

If the width `b` of the range table does not divide the size of the power-of-two lookup, the lookup of `2^σ` also accepts
`2^(σ+t) + t·2^size` (`sat_queryPowerOf2_nat`). Then `round` has a second possible outcome, zero, when that number
divides the (scaled) significand. Nothing else is possible.
-/

namespace ZkLoc

/-- A dishonest answer to the power-of-two lookup lets `round` return zero. -/
def RoundForge (b : ℕ) (f : Fmt) (N mbl σ smax : ℕ) : Prop :=
  ∃ t, 0 < t ∧ t < 2 ^ slack b f.pow2Size ∧ σ + t < f.pow2Size ∧
    (2 ^ (σ + t) + t * 2 ^ f.pow2Size) ∣ N * 2 ^ smax * 2 ^ slack b (smax + mbl - f.M - 2)

theorem slack_of_dvd {b size : ℕ} (hb : 0 < b) (h : b ∣ size) : slack b size = 0 := by
  have := slack_add size hb
  have := decompSize_of_dvd hb h
  omega

theorem RoundForge.not_dvd {b : ℕ} {f : Fmt} {N mbl σ smax : ℕ} (hb : 0 < b) (h : RoundForge b f N mbl σ smax) :
    ¬ b ∣ f.pow2Size := by
  intro hd
  obtain ⟨t, h0, h1, -⟩ := h
  rw [slack_of_dvd hb hd] at h1
  omega

variable {p : ℕ} [Fact p.Prime] {b : ℕ} {H : Prop} {f : Fmt}

theorem pow_two_ne_zero (G : Good p b f) {d : ℕ} (hd : d ≤ 4 * f.M + 41) : (2 : ZMod p) ^ d ≠ 0 := by
  have : ((2 : ZMod p) ^ d) = ((2 ^ d : ℕ) : ZMod p) := by push_cast; rfl
  rw [this]
  intro h0
  have := (natCast_inj (p := p) (a := 2 ^ d) (c := 0) (G.pow_lt hd) (by have := G.pow_lt (k := 0) (by omega); omega)).1 (by simpa using h0)
  exact absurd this (by positivity)

/-- `round` after a lookup answer `T` of at least `2^size`: only zero, and only if `T` divides the scaled significand. -/
theorem roundRest_forged (G : Good p b f) {N mbl smax T : ℕ} (hN : N < 2 ^ mbl) (hmbl : f.M + 2 ≤ mbl)
    (hrI : 0 < smax + mbl - f.M - 2) (hsz : 2 * smax + mbl ≤ 4 * f.M + 6)
    (hpw : 2 ^ (smax + mbl + f.pow2Size + 3 * (b - 1)) ≤ p) (h : Bool) (hT1 : 2 ^ f.pow2Size ≤ T)
    (hT2 : T < 2 ^ (f.pow2Size + slack b f.pow2Size)) (st : Bool) (r0 : ZMod p) :
    (roundRest f ((N : ℕ) : ZMod p) mbl ((T : ℕ) : ZMod p) smax (B h)).Sat b st r0 ↔
      T ∣ N * 2 ^ smax * 2 ^ slack b (smax + mbl - f.M - 2) ∧ r0 = 0 := by
  have hE := G.hE
  have hEM := G.hEM
  have hM2 := G.hM2
  have hb0 := G.bpos
  have hb17 := G.width.le
  have hps : f.pow2Size = f.M + f.E + 1 := rfl
  obtain ⟨rI, hrI'⟩ : ∃ rI, rI = smax + mbl - f.M - 2 := ⟨_, rfl⟩
  unfold roundRest
  rw [← hrI']
  rw [← hrI'] at hrI
  have hsl := slack_add rI hb0
  have hslM := slack_add f.M hb0
  have hd : slack b rI ≤ 16 := by have := slack_lt hb0 hrI; omega
  have hd1 : slack b rI ≤ b - 1 := by have := slack_lt hb0 hrI; omega
  have hdM : slack b f.M ≤ b - 1 := by have := slack_lt hb0 (show 0 < f.M by omega); omega
  have hdS : slack b f.pow2Size ≤ b - 1 := by have := slack_lt hb0 (show 0 < f.pow2Size by omega); omega
  have h2d := pow_two_ne_zero G (d := slack b rI) (by omega)
  have hTpos : 0 < T := lt_of_lt_of_le (by positivity) hT1
  -- a quotient is smaller than `2^(rI + d)`
  have hquo : ∀ X, X * T = N * 2 ^ smax * 2 ^ slack b rI → X < 2 ^ (rI + slack b rI) := by
    intro X hX
    have h1 : X * 2 ^ f.pow2Size ≤ X * T := Nat.mul_le_mul_left _ hT1
    have h2 : N * 2 ^ smax * 2 ^ slack b rI < 2 ^ (mbl + smax + slack b rI) := by
      rw [pow_add, pow_add]
      exact Nat.mul_lt_mul_of_pos_right (Nat.mul_lt_mul_of_pos_right hN (by positivity)) (by positivity)
    have h3 : 2 ^ (mbl + smax + slack b rI) ≤ 2 ^ (rI + slack b rI) * 2 ^ f.pow2Size := by
      rw [← pow_add]; exact Nat.pow_le_pow_right (by norm_num) (by omega)
    exact lt_of_mul_lt_mul_right (lt_of_le_of_lt h1 (hX ▸ lt_of_lt_of_le h2 h3)) (Nat.zero_le _)
  simp only [Circ.bind_eq, newHint, Circ.bind, assertIsBoolean, assertBitLength, assertIsEqual, Circ.Sat,
    decide_eq_true_eq, Circ.pure_eq, and', select, softBool, gIsEq_eq]
  constructor
  · rintro ⟨pp, q, r, s, hq, hr, hpp, hs, heq, -, -, -, rfl⟩
    obtain ⟨q, rfl⟩ := (isBool_iff q).1 hq
    obtain ⟨r, rfl⟩ := (isBool_iff r).1 hr
    rw [checkSat_loose_iff hb0 (by omega), ← hslM] at hpp
    rw [checkSat_smallAbs_iff hb0 hrI, ← hsl] at hs
    have hppc : pp = ((pp.val : ℕ) : ZMod p) := by simp
    generalize pp.val = P at *
    subst hppc
    obtain ⟨u, hu1, hu2⟩ : ∃ u : ℕ, s * 2 ^ slack b rI = ((u : ℕ) : ZMod p) ∧ u < 2 ^ (rI + slack b rI) :=
      ⟨_, by simp, hs⟩
    have hint : ((P + P + q.toNat) * 2 ^ (rI + 1) * 2 ^ slack b rI + (r.toNat * 2 ^ rI * 2 ^ slack b rI + u)) * T =
        N * 2 ^ smax * 2 ^ slack b rI := by
      rw [← natCast_inj (p := p)]
      · have e := congrArg (fun z : ZMod p => z * 2 ^ slack b rI) heq
        push_cast
        rw [show (N : ZMod p) * 2 ^ smax * 2 ^ slack b rI = (N : ZMod p) * tw smax * 2 ^ slack b rI from rfl, ← e, toNat_B, toNat_B]
        push_cast
        rw [← hu1]; ring
      · refine lt_of_lt_of_le (b := 2 ^ (f.M + slack b f.M + 1 + (rI + 1) + slack b rI + (f.pow2Size + slack b f.pow2Size))) ?_
          (le_trans (Nat.pow_le_pow_right (by norm_num) (by omega)) hpw)
        rw [pow_add _ _ (f.pow2Size + slack b f.pow2Size)]
        refine Nat.mul_lt_mul'' ?_ hT2
        have g1 : (r.toNat * 2 ^ rI * 2 ^ slack b rI + u) < 2 ^ (rI + 1) * 2 ^ slack b rI := by
          have h1 : r.toNat * 2 ^ rI * 2 ^ slack b rI ≤ 1 * 2 ^ rI * 2 ^ slack b rI :=
            Nat.mul_le_mul_right _ (Nat.mul_le_mul_right _ (by cases r <;> simp))
          rw [pow_add] at hu2
          rw [pow_succ]
          have : 2 ^ rI * 2 * 2 ^ slack b rI = 1 * 2 ^ rI * 2 ^ slack b rI + 2 ^ rI * 2 ^ slack b rI := by ring
          omega
        have g2 : P + P + q.toNat + 1 ≤ 2 ^ (f.M + slack b f.M + 1) := by
          rw [pow_succ]
          have : q.toNat ≤ 1 := by cases q <;> simp
          omega
        calc (P + P + q.toNat) * 2 ^ (rI + 1) * 2 ^ slack b rI + (r.toNat * 2 ^ rI * 2 ^ slack b rI + u)
            < (P + P + q.toNat) * 2 ^ (rI + 1) * 2 ^ slack b rI + 2 ^ (rI + 1) * 2 ^ slack b rI := by omega
          _ = (P + P + q.toNat + 1) * 2 ^ (rI + 1) * 2 ^ slack b rI := by ring
          _ ≤ 2 ^ (f.M + slack b f.M + 1) * 2 ^ (rI + 1) * 2 ^ slack b rI :=
            Nat.mul_le_mul_right _ (Nat.mul_le_mul_right _ g2)
          _ = 2 ^ (f.M + slack b f.M + 1 + (rI + 1) + slack b rI) := by simp only [pow_add]
      · refine lt_of_lt_of_le (b := 2 ^ (mbl + smax + slack b rI)) ?_
          (le_trans (Nat.pow_le_pow_right (by norm_num) (by omega)) hpw)
        rw [pow_add, pow_add]
        exact Nat.mul_lt_mul_of_pos_right (Nat.mul_lt_mul_of_pos_right hN (by positivity)) (by positivity)
    have hlt := hquo _ hint
    have hr0 : r = false := by
      cases r
      · rfl
      · exfalso
        simp only [Bool.toNat_true, one_mul, ← pow_add] at hlt
        omega
    have hpq : P + P + q.toNat = 0 := by
      by_contra hne
      have h1 : 1 * 2 ^ (rI + 1) * 2 ^ slack b rI ≤ (P + P + q.toNat) * 2 ^ (rI + 1) * 2 ^ slack b rI :=
        Nat.mul_le_mul_right _ (Nat.mul_le_mul_right _ (by omega))
      have h2 : 1 * 2 ^ (rI + 1) * 2 ^ slack b rI = 2 * 2 ^ (rI + slack b rI) := by rw [pow_add]; ring
      omega
    have hq0 : q = false := by cases q <;> simp at hpq ⊢
    have hP0 : P = 0 := by omega
    subst hq0; subst hr0; subst hP0
    refine ⟨Dvd.intro_left _ hint, ?_⟩
    have hne : ¬ (B false * tw rI + s = (tw rI : ZMod p)) := by
      intro h0
      have h1 : s * 2 ^ slack b rI = ((2 ^ (rI + slack b rI) : ℕ) : ZMod p) := by
        rw [B_false, zero_mul, zero_add] at h0
        rw [h0]; push_cast; rw [pow_add]
      rw [hu1, natCast_inj (G.lt_of_lt_pow hu2 (by omega)) (G.pow_lt (by omega))] at h1
      omega
    rw [decide_eq_false hne]
    simp [sel]
  · rintro ⟨⟨X, hX⟩, rfl⟩
    rw [mul_comm T] at hX
    have hlt := hquo X hX.symm
    have hs : ((X : ℕ) : ZMod p) * (2 ^ slack b rI)⁻¹ * 2 ^ slack b rI = ((X : ℕ) : ZMod p) := by
      rw [mul_assoc, inv_mul_cancel₀ h2d, mul_one]
    have hne : ¬ (B false * tw rI + ((X : ℕ) : ZMod p) * (2 ^ slack b rI)⁻¹ = (tw rI : ZMod p)) := by
      intro h0
      rw [B_false, zero_mul, zero_add] at h0
      rw [h0] at hs
      have h1 : ((2 ^ (rI + slack b rI) : ℕ) : ZMod p) = ((X : ℕ) : ZMod p) := by rw [← hs]; push_cast; rw [pow_add]
      rw [natCast_inj (G.pow_lt (by omega)) (G.lt_of_lt_pow hlt (by omega))] at h1
      omega
    refine ⟨((0 : ℕ) : ZMod p), B false, B false, ((X : ℕ) : ZMod p) * (2 ^ slack b rI)⁻¹, isBool_B _, isBool_B _, ?_, ?_, ?_, ?_⟩
    · rw [checkSat_loose_iff hb0 (by omega)]; simp
    · rw [checkSat_smallAbs_iff hb0 hrI, ← hsl, hs]
      exact lt_of_le_of_lt (val_natCast_le _) hlt
    · have : ((X : ℕ) : ZMod p) * ((T : ℕ) : ZMod p) = ((N : ℕ) : ZMod p) * 2 ^ smax * 2 ^ slack b rI := by
        have := congrArg (fun n : ℕ => (n : ZMod p)) hX
        push_cast at this; exact this.symm
      apply mul_right_cancel₀ h2d
      rw [← this]
      simp only [Nat.cast_zero, B_false, zero_mul, zero_add, add_zero]
      rw [mul_right_comm, hs]
    · rw [decide_eq_false hne]
      refine ⟨fun _ => isBool_B _, fun _ => isBool_B _, fun _ => ?_, ?_⟩
      · rw [B_false, zero_mul, ← B_false]; exact isBool_B _
      · simp [sel]

/-- Sequencing after `round`: the honest significand, or zero where forging is possible. -/
theorem Spec.bind_forge {α : Type} {c : Circ p (ZMod p)} {k : ZMod p → Circ p α} {m : ℕ} {Fz : Prop} {w w0 : α} {T T0 : α → Prop}
    (hc : Spec b H c ((m : ℕ) : ZMod p) (fun r => r = ((m : ℕ) : ZMod p) ∨ (Fz ∧ r = 0)))
    (hm : Spec b H (k ((m : ℕ) : ZMod p)) w T) (h0 : Spec b H (k ((0 : ℕ) : ZMod p)) w0 T0) :
    Spec b H (Circ.bind c k) w (fun r => T r ∨ (Fz ∧ T0 r)) := by
  refine ⟨?_, fun hH st r => ?_⟩
  · rw [Circ.run_bind, hc.run]; exact hm.run
  · rw [Circ.sat_bind]
    constructor
    · rintro ⟨a, h1, h2⟩
      rcases (hc.sat hH st a).1 h1 with rfl | ⟨hF, rfl⟩
      · exact Or.inl ((hm.sat hH st r).1 h2)
      · exact Or.inr ⟨hF, (h0.sat hH st r).1 (by rw [Nat.cast_zero]; exact h2)⟩
    · rintro (h | ⟨hF, h⟩)
      · exact ⟨_, (hc.sat hH st _).2 (Or.inl rfl), (hm.sat hH st r).2 h⟩
      · exact ⟨_, (hc.sat hH st _).2 (Or.inr ⟨hF, rfl⟩), by rw [← Nat.cast_zero]; exact (h0.sat hH st r).2 h⟩

/-- What the specifications of the operations need to know about `round`: at widths dividing the lookup size nothing can be
forged (`Fz = False`), at all others `Fz = RoundForge …`. -/
def RoundOut (p b : ℕ) [Fact p.Prime] (H : Prop) (f : Fmt) (N mbl σ smax : ℕ) (h : Bool) (Fz : Prop) : Prop :=
  Spec b H (round f ((N : ℕ) : ZMod p) mbl ((σ : ℕ) : ZMod p) smax (B h))
    ((rnd (N * 2 ^ (smax - σ)) (smax + mbl - f.M - 1) h * 2 ^ σ : ℕ) : ZMod p)
    (fun r => r = ((rnd (N * 2 ^ (smax - σ)) (smax + mbl - f.M - 1) h * 2 ^ σ : ℕ) : ZMod p) ∨ (Fz ∧ r = 0))

/-- The exact set of outcomes of `round`, at every table width. -/
theorem round_spec_any (G : Good p b f) {N mbl σ smax : ℕ} (hN : N < 2 ^ mbl) (hmbl : f.M + 2 ≤ mbl)
    (hrI : 0 < smax + mbl - f.M - 2) (hσ : σ ≤ smax) (hσ2 : σ < f.pow2Size)
    (hsz : 2 * smax + mbl ≤ 4 * f.M + 6) (hpw : 2 ^ (smax + mbl + f.pow2Size + 3 * (b - 1)) ≤ p) (h : Bool) :
    RoundOut p b H f N mbl σ smax h (RoundForge b f N mbl σ smax) := by
  have hE := G.hE
  have hEM := G.hEM
  have hM2 := G.hM2
  have hb0 := G.bpos
  have hps : f.pow2Size = f.M + f.E + 1 := rfl
  have hdet := round_spec (p := p) (b := b) (H := False) (f := f) G hN hmbl hrI hσ hσ2 hsz h (by simp)
  have hrest := roundRest_spec (p := p) (b := b) (H := True) (f := f) G hN hmbl hrI hσ hσ2 hsz h
  have hT : ∀ t, 0 < t → t < 2 ^ slack b f.pow2Size → σ + t < f.pow2Size →
      2 ^ f.pow2Size ≤ 2 ^ (σ + t) + t * 2 ^ f.pow2Size ∧
      2 ^ (σ + t) + t * 2 ^ f.pow2Size < 2 ^ (f.pow2Size + slack b f.pow2Size) := by
    intro t h0 h1 h2
    have a0 : 0 < 2 ^ (σ + t) := by positivity
    have a1 : 2 ^ (σ + t) < 2 ^ f.pow2Size := Nat.pow_lt_pow_right (by norm_num) h2
    have a2 : 1 * 2 ^ f.pow2Size ≤ t * 2 ^ f.pow2Size := Nat.mul_le_mul_right _ h0
    have a3 : (t + 1) * 2 ^ f.pow2Size ≤ 2 ^ slack b f.pow2Size * 2 ^ f.pow2Size := Nat.mul_le_mul_right _ h1
    rw [pow_add _ f.pow2Size, mul_comm (2 ^ f.pow2Size)]
    rw [add_mul] at a3
    constructor <;> omega
  refine ⟨hdet.run, fun _ st r0 => ?_⟩
  rw [round_eq, Circ.sat_bind]
  simp only [sat_queryPowerOf2_nat G.width (show 5 ≤ f.pow2Size by omega) (G.pow_le (show 2 * f.pow2Size + 18 ≤ _ by omega))
    (lt_trans hσ2 Nat.lt_two_pow_self)]
  unfold RoundForge
  constructor
  · rintro ⟨_, ⟨t, ht, hts, rfl⟩, hsat⟩
    rcases Nat.eq_zero_or_pos t with rfl | h0
    · left
      rw [add_zero, zero_mul, add_zero, Nat.cast_pow, Nat.cast_ofNat] at hsat
      exact (hrest.sat trivial st r0).1 hsat
    · right
      obtain ⟨h1, h2⟩ := hT t h0 ht hts
      rw [roundRest_forged G hN hmbl hrI hsz hpw h h1 h2] at hsat
      exact ⟨⟨t, h0, ht, hts, hsat.1⟩, hsat.2⟩
  · rintro (hr | ⟨⟨t, h0, ht, hts, hdv⟩, hr⟩)
    · refine ⟨2 ^ σ, ⟨0, by positivity, by omega, by simp⟩, (hrest.sat trivial st r0).2 hr⟩
    · obtain ⟨h1, h2⟩ := hT t h0 ht hts
      exact ⟨_, ⟨t, ht, hts, rfl⟩, (roundRest_forged G hN hmbl hrI hsz hpw h h1 h2 st r0).2 ⟨hdv, hr⟩⟩

theorem round_spec_dvd (G : Good p b f) {N mbl σ smax : ℕ} (hN : N < 2 ^ mbl) (hmbl : f.M + 2 ≤ mbl)
    (hrI : 0 < smax + mbl - f.M - 2) (hσ : σ ≤ smax) (hσ2 : σ < f.pow2Size)
    (hsz : 2 * smax + mbl ≤ 4 * f.M + 6) (h : Bool) (hH : H → b ∣ f.pow2Size) :
    RoundOut p b H f N mbl σ smax h False :=
  (round_spec G hN hmbl hrI hσ hσ2 hsz h hH).congr rfl (by simp)

end ZkLoc
