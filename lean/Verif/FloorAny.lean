import Verif.AnyWidth
import Verif.Props.Integer

/-!
# `Floor`, `Ceil` and `ToInt` at every table width (helper lemmas)
-/

namespace ZkLoc

open Ieee (Datum)

variable {p b : ℕ} [Fact p.Prime] {f : Fmt}

/-- The part of `Floor` after the range checks. -/
def floorTail (f : Fmt) (x : FloatVar p) (e mantissa : ZMod p) : Circ p (FloatVar p) := do
  let mantissaOverflow := gIsEq mantissa (tw (f.M + 1))
  let mantissa ← select mantissaOverflow (tw f.M) mantissa
  let e := e + mantissaOverflow
  let z ← and' (isZero mantissa) (1 - x.isAbnormal)
  let e' ← select z ((f.eMin : ℤ) : ZMod p) e
  pure ⟨x.sign, e', mantissa, x.isAbnormal⟩

theorem floorRest_eq (f : Fmt) (x : FloatVar p) (e T : ZMod p) : floorRest f x e T = (do
    let inv ← inverse T
    let q ← newHint (floorHint (x.mantissa * tw (f.M + 1) * inv) (f.M + 1) x.sign)
    assertBitLength q (f.M + 1) .loose
    let ar ← select x.sign (-(x.mantissa * tw (f.M + 1) * inv - q * tw (f.M + 1))) (x.mantissa * tw (f.M + 1) * inv - q * tw (f.M + 1))
    assertBitLength ar (f.M + 1) .smallAbs
    floorTail f x e (q * T)) := rfl

theorem floorTail_spec {H : Prop} (G : Good p b f) {x : Flt} (e : ℤ) {N : ℕ} (hN : N < p) (hne : N ≠ 2 ^ (f.M + 1)) :
    Det b H (floorTail f (x.toVar : FloatVar p) (e : ZMod p) ((N : ℕ) : ZMod p))
      (Flt.toVar ⟨x.sign, if N = 0 ∧ x.abn = false then f.eMin else e, N, x.abn⟩) := by
  have hEM := G.hEM
  have eov : gIsEq ((N : ℕ) : ZMod p) (tw (f.M + 1)) = B false := by
    have : (tw (f.M + 1) : ZMod p) = ((2 ^ (f.M + 1) : ℕ) : ZMod p) := by simp [tw]
    rw [this, gIsEq_nat hN (G.pow_lt (by omega))]
    simp [hne]
  unfold floorTail
  simp only [Circ.bind_eq, Circ.pure_eq, Flt.toVar]
  rw [eov]
  refine Spec.det_bind (select_spec _ _ _) ?_
  simp only [Bool.false_eq_true, if_false]
  rw [isZero_nat G hN, not_B]
  refine Spec.det_bind (and_spec _ _) ?_
  refine Spec.det_bind (select_spec _ _ _) ?_
  have : (⟨B x.sign, if (decide (N = 0) && !x.abn) = true then ((f.eMin : ℤ) : ZMod p) else (e : ZMod p) + B false, ((N : ℕ) : ZMod p), B x.abn⟩ : FloatVar p) =
      ⟨B x.sign, ((if N = 0 ∧ x.abn = false then f.eMin else e : ℤ) : ZMod p), ((N : ℕ) : ZMod p), B x.abn⟩ := by
    by_cases h0 : N = 0 ∧ x.abn = false
    · rw [if_pos h0, if_pos (by simp [h0])]
    · rw [if_neg h0, if_neg (by simpa using h0)]; simp [B]
  rw [this]
  exact Spec.pure _

/-- Integer-level `Floor` after a forged lookup answer `T`. -/
def floorZ0 (f : Fmt) (x : Flt) (c : Bool) (T : ℕ) : Flt :=
  let m := if x.sign && decide (x.man ≠ 0) then T else 0
  ⟨x.sign, if m = 0 ∧ x.abn = false then f.eMin else floorExp x c, m, x.abn⟩

theorem floorRest_forged (G : Good p b f) {x : Flt} (hx : x.Bdd f) (c : Bool) {T : ℕ} (hT1 : 2 ^ f.pow2Size ≤ T)
    (hT2 : T < 2 ^ (f.pow2Size + slack b f.pow2Size)) (hpw : 2 ^ (3 * f.M + f.E + 4 + 3 * b) ≤ p) (st : Bool) (r0 : FloatVar p) :
    (floorRest f (x.toVar : FloatVar p) ((floorExp x c : ℤ) : ZMod p) ((T : ℕ) : ZMod p)).Sat b st r0 ↔
      T ∣ x.man * 2 ^ (f.M + 1) * 2 ^ slack b (f.M + 1) ∧ r0 = (floorZ0 f x c T).toVar := by
  have hE := G.hE
  have hEM := G.hEM
  have hM2 := G.hM2
  have hb0 := G.bpos
  have hb17 := G.width.le
  have hps : f.pow2Size = f.M + f.E + 1 := rfl
  obtain ⟨d, hd⟩ : ∃ d, d = slack b (f.M + 1) := ⟨_, rfl⟩
  have hsl := slack_add (f.M + 1) hb0
  rw [← hd] at hsl ⊢
  have hdb : d ≤ b - 1 := by have := slack_lt hb0 (show 0 < f.M + 1 by omega); omega
  have hdS : slack b f.pow2Size ≤ b - 1 := by have := slack_lt hb0 (show 0 < f.pow2Size by omega); omega
  have hTpos : 0 < T := lt_of_lt_of_le (by positivity) hT1
  have hTp : T < p := lt_of_lt_of_le hT2 (le_trans (Nat.pow_le_pow_right (by norm_num) (by omega)) hpw)
  have hTM : 2 ^ (f.M + 1) < T := lt_of_lt_of_le (Nat.pow_lt_pow_right (by norm_num) (by omega)) hT1
  have hT0 : ((T : ℕ) : ZMod p) ≠ 0 := by
    intro h
    have := (natCast_inj (p := p) (a := T) (c := 0) hTp (by omega)).1 (by simpa using h)
    omega
  have hmT : x.man < T := lt_trans hx.man hTM
  obtain ⟨K, hK⟩ : ∃ K, K = 2 ^ (f.M + 1) * 2 ^ d := ⟨_, rfl⟩
  have hKpos : 0 < K := by rw [hK]; positivity
  have hKp : K = 2 ^ (f.M + 1 + d) := by rw [hK, ← pow_add]
  -- bounds of the products
  have hB : ∀ {a c : ℕ}, a < 2 ^ (f.M + 1 + d + (f.M + 1 + d)) → c < 2 ^ (f.pow2Size + slack b f.pow2Size) → a * c + 2 ^ (2 * f.M + 2 + d) < p := by
    intro a c ha hc
    refine lt_of_lt_of_le (b := 2 ^ (f.M + 1 + d + (f.M + 1 + d) + (f.pow2Size + slack b f.pow2Size) + 1)) ?_ (le_trans (Nat.pow_le_pow_right (by norm_num) (by omega)) hpw)
    rw [pow_succ, pow_add _ _ (f.pow2Size + slack b f.pow2Size)]
    have h1 := Nat.mul_lt_mul'' ha hc
    have h2 : 2 ^ (2 * f.M + 2 + d) ≤ 2 ^ (f.M + 1 + d + (f.M + 1 + d)) * 2 ^ (f.pow2Size + slack b f.pow2Size) := by
      rw [← pow_add]; exact Nat.pow_le_pow_right (by norm_num) (by omega)
    omega
  have hmK : x.man * K < 2 ^ (2 * f.M + 2 + d) := by
    rw [hKp, show 2 * f.M + 2 + d = (f.M + 1) + (f.M + 1 + d) by omega, pow_add 2 (f.M + 1) (f.M + 1 + d)]
    exact Nat.mul_lt_mul_of_pos_right hx.man (Nat.two_pow_pos _)
  have hz : ((x.man : ℕ) : ZMod p) * tw (f.M + 1) * ((T : ℕ) : ZMod p)⁻¹ * 2 ^ d * ((T : ℕ) : ZMod p) = ((x.man * K : ℕ) : ZMod p) := by
    rw [hK]; push_cast; unfold tw
    rw [show ((x.man : ℕ) : ZMod p) * 2 ^ (f.M + 1) * ((T : ℕ) : ZMod p)⁻¹ * 2 ^ d * ((T : ℕ) : ZMod p) =
      ((x.man : ℕ) : ZMod p) * (2 ^ (f.M + 1) * 2 ^ d) * (((T : ℕ) : ZMod p) * ((T : ℕ) : ZMod p)⁻¹) by ring, mul_inv_cancel₀ hT0, mul_one]
  obtain ⟨q0, hq0⟩ : ∃ q0 : ℕ, q0 = if x.sign && decide (x.man ≠ 0) then 1 else 0 := ⟨_, rfl⟩
  have hq01 : q0 ≤ 1 := by rw [hq0]; split <;> omega
  have hqT : ∀ q : ℕ, q ≤ 1 → q * T < p ∧ q * T ≠ 2 ^ (f.M + 1) := by
    intro q hq
    rcases Nat.le_one_iff_eq_zero_or_eq_one.1 hq with rfl | rfl
    · have := Nat.two_pow_pos (f.M + 1)
      exact ⟨by omega, by omega⟩
    · exact ⟨by omega, by omega⟩
  have htail : ∀ r0, (floorTail f (x.toVar : FloatVar p) ((floorExp x c : ℤ) : ZMod p) (((q0 * T : ℕ)) : ZMod p)).Sat b st r0 ↔ r0 = (floorZ0 f x c T).toVar := by
    intro r0
    rw [(floorTail_spec (H := True) G (floorExp x c) (hqT q0 hq01).1 (hqT q0 hq01).2).sat trivial]
    have : q0 * T = if x.sign && decide (x.man ≠ 0) then T else 0 := by rw [hq0]; split <;> simp
    unfold floorZ0
    rw [this]
  rw [show x.man * 2 ^ (f.M + 1) * 2 ^ d = x.man * K by rw [hK]; ring]
  rw [floorRest_eq]
  simp only [Circ.bind_eq]
  rw [Circ.sat_det_bind (inverse_spec hT0)]
  simp only [newHint, Circ.bind_eq, Circ.bind, assertBitLength, Circ.Sat, select, softBool, Circ.pure_eq]
  rw [show (x.toVar : FloatVar p).sign = B x.sign from rfl, show (x.toVar : FloatVar p).mantissa = ((x.man : ℕ) : ZMod p) from rfl]
  simp only [sel_B, isBool_B, implies_true, true_and]
  -- the arithmetic condition
  have key : ∀ Q : ℕ, Q < 2 ^ (f.M + 1 + d) →
      (CheckSat b (if x.sign = true then -(((x.man : ℕ) : ZMod p) * tw (f.M + 1) * ((T : ℕ) : ZMod p)⁻¹ - ((Q : ℕ) : ZMod p) * tw (f.M + 1))
        else ((x.man : ℕ) : ZMod p) * tw (f.M + 1) * ((T : ℕ) : ZMod p)⁻¹ - ((Q : ℕ) : ZMod p) * tw (f.M + 1)) (f.M + 1) .smallAbs ↔
      T ∣ x.man * K ∧ Q = q0) := by
    intro Q hQ
    rw [checkSat_smallAbs_iff hb0 (by omega), ← hsl, ← hd]
    generalize hm : ((x.man : ℕ) : ZMod p) * tw (f.M + 1) * ((T : ℕ) : ZMod p)⁻¹ = m at hz ⊢
    have hQK : Q * K < 2 ^ (f.M + 1 + d + (f.M + 1 + d)) := by
      rw [pow_add 2 (f.M + 1 + d), ← hKp]
      exact Nat.mul_lt_mul_of_pos_right (by rw [hKp]; exact hQ) hKpos
    have htwd : (tw (f.M + 1) : ZMod p) * 2 ^ d = ((K : ℕ) : ZMod p) := by rw [hK]; unfold tw; push_cast; rfl
    have hXlt : ∀ X, x.man * K = T * X → X < K := by
      intro X hX
      by_contra hge
      have h3 : T * K ≤ T * X := Nat.mul_le_mul_left _ (by omega)
      rw [← hX] at h3
      have := Nat.le_of_mul_le_mul_right h3 hKpos
      omega
    have hX' : ∀ X, x.man * K = T * X → m * 2 ^ d = ((X : ℕ) : ZMod p) := by
      intro X hX
      apply mul_right_cancel₀ hT0
      rw [hz, hX]; push_cast; ring
    cases hs : x.sign with
    | false =>
      have hq : q0 = 0 := by rw [hq0, hs]; rfl
      simp only [Bool.false_eq_true, if_false]
      constructor
      · intro h
        obtain ⟨u, hu1, hu2⟩ : ∃ u : ℕ, (m - ((Q : ℕ) : ZMod p) * tw (f.M + 1)) * 2 ^ d = ((u : ℕ) : ZMod p) ∧ u < K := ⟨_, by simp, hKp ▸ h⟩
        have hint : (Q * K + u) * T = x.man * K := by
          rw [← natCast_inj (p := p)]
          · rw [← hz]; push_cast; rw [← hu1, ← htwd]; ring
          · refine lt_of_le_of_lt (Nat.le_add_right _ _) (hB ?_ hT2)
            rw [pow_add 2 (f.M + 1 + d), ← hKp]
            have : (Q + 1) * K ≤ K * K := Nat.mul_le_mul_right _ (by rw [hKp]; exact hQ)
            rw [add_mul, one_mul] at this
            omega
          · exact lt_of_lt_of_le hmK ((Nat.le_add_left _ _).trans (hB (a := 0) (by positivity) hT2).le)
        refine ⟨Dvd.intro_left _ hint, ?_⟩
        rw [hq]
        by_contra hne
        have h3 := hXlt (Q * K + u) (by rw [← hint, mul_comm])
        have h4 : 1 * K ≤ Q * K := Nat.mul_le_mul_right _ (by omega)
        omega
      · rintro ⟨⟨X, hX⟩, hQ0⟩; subst hQ0
        rw [hq, Nat.cast_zero, zero_mul, sub_zero, hX' X hX]
        exact lt_of_le_of_lt (val_natCast_le _) (hKp ▸ hXlt X hX)
    | true =>
      simp only [if_true]
      have hneg : ∀ u : ZMod p, -(m - ((Q : ℕ) : ZMod p) * tw (f.M + 1)) * 2 ^ d = u ↔ ((Q * K : ℕ) : ZMod p) = m * 2 ^ d + u := by
        intro u
        push_cast
        rw [← htwd]
        constructor
        · intro h; rw [← h]; ring
        · intro h
          have h' := congrArg (fun z => z - m * 2 ^ d) h
          simp only [add_sub_cancel_left] at h'
          rw [← h']; ring
      constructor
      · intro h
        obtain ⟨u, hu1, hu2⟩ : ∃ u : ℕ, -(m - ((Q : ℕ) : ZMod p) * tw (f.M + 1)) * 2 ^ d = ((u : ℕ) : ZMod p) ∧ u < K := ⟨_, by simp, hKp ▸ h⟩
        have hint : Q * K * T = x.man * K + u * T := by
          rw [← natCast_inj (p := p)]
          · rw [Nat.cast_mul (Q * K), (hneg _).1 hu1, add_mul, hz]; push_cast; ring
          · exact lt_of_le_of_lt (Nat.le_add_right _ _) (hB hQK hT2)
          · have := hB (a := u) (by
              rw [pow_add 2 (f.M + 1 + d), ← hKp]; exact lt_of_lt_of_le hu2 (Nat.le_mul_of_pos_left _ hKpos)) hT2
            omega
        have hdvd : T ∣ x.man * K := (Nat.dvd_add_left (Dvd.intro_left u rfl)).1 (hint ▸ Dvd.intro_left _ rfl)
        refine ⟨hdvd, ?_⟩
        rw [hq0, hs]
        have h1 : x.man * K < T * K := Nat.mul_lt_mul_of_pos_right hmT hKpos
        have h2 : u * T < K * T := Nat.mul_lt_mul_of_pos_right hu2 hTpos
        have hKT : 0 < K * T := Nat.mul_pos hKpos hTpos
        have h3 : Q * (K * T) < 2 * (K * T) := by rw [← mul_assoc, hint]; rw [mul_comm T K] at h1; omega
        have h4 : Q < 2 := Nat.lt_of_mul_lt_mul_right h3
        by_cases h0 : x.man = 0
        · rw [h0, zero_mul, zero_add] at hint
          have h5 : Q * K = u := Nat.eq_of_mul_eq_mul_right hTpos hint
          have h6 : Q * K < 1 * K := by omega
          have := Nat.lt_of_mul_lt_mul_right h6
          simp [h0]; omega
        · have h5 : 0 < x.man * K := Nat.mul_pos (by omega) hKpos
          have : Q ≠ 0 := by rintro rfl; omega
          simp [h0]; omega
      · rintro ⟨⟨X, hX⟩, hQ0⟩
        have h1 := hXlt X hX
        by_cases h0 : x.man = 0
        · have hq : Q = 0 := by rw [hQ0, hq0]; simp [h0]
          rw [h0, zero_mul, Nat.cast_zero] at hz
          have hm0 : m * 2 ^ d = 0 := (mul_eq_zero.1 hz).resolve_right hT0
          rw [(hneg 0).2 (by rw [hm0, hq]; simp)]
          simp
        · have hq : Q = 1 := by rw [hQ0, hq0, hs]; simp [h0]
          have hX0 : X ≠ 0 := by
            rintro rfl
            have : 0 < x.man * K := Nat.mul_pos (by omega) hKpos
            omega
          rw [(hneg ((K - X : ℕ) : ZMod p)).2 (by rw [hX' X hX, hq, ← Nat.cast_add]; congr 1; omega)]
          refine lt_of_le_of_lt (val_natCast_le _) ?_
          rw [← hKp]; omega
  constructor
  · rintro ⟨q, h1, h2, h3⟩
    rw [checkSat_loose_iff hb0 (by omega), ← hsl] at h1
    have hqc : q = ((q.val : ℕ) : ZMod p) := by simp
    generalize q.val = Q at *
    subst hqc
    obtain ⟨h4, rfl⟩ := (key Q h1).1 h2
    refine ⟨h4, (htail r0).1 ?_⟩
    push_cast; exact h3
  · rintro ⟨h1, h2⟩
    have hlt : q0 < 2 ^ (f.M + 1 + d) := lt_of_le_of_lt hq01 (Nat.one_lt_two_pow (by omega))
    refine ⟨((q0 : ℕ) : ZMod p), ?_, (key q0 hlt).2 ⟨h1, rfl⟩, ?_⟩
    · rw [checkSat_loose_iff hb0 (by omega), ← hsl]
      exact lt_of_le_of_lt (val_natCast_le _) hlt
    · have := (htail r0).2 h2
      push_cast at this; exact this

/-- The exact outcomes of `Floor` at every table width. -/
theorem fFloor_spec_any {H : Prop} (G : Good p b f) {x : Flt} (hx : x.Bdd f) (hpw : 2 ^ (3 * f.M + f.E + 4 + 3 * b) ≤ p) :
    Spec b H (fFloor f (x.toVar : FloatVar p)) (floorZ f x (decide (0 ≤ x.exp))).toVar
      (fun r => ∃ c : Bool, (0 < x.exp → c = true) ∧ (x.exp < 0 → c = false) ∧ (r = (floorZ f x c).toVar ∨
        ∃ t, 0 < t ∧ t < 2 ^ slack b f.pow2Size ∧ intShift f x c + t < f.pow2Size ∧
          (2 ^ (intShift f x c + t) + t * 2 ^ f.pow2Size ∣ x.man * 2 ^ (f.M + 1) * 2 ^ slack b (f.M + 1) ∧
            r = (floorZ0 f x c (2 ^ (intShift f x c + t) + t * 2 ^ f.pow2Size)).toVar))) := by
  have hE := G.hE
  have hEM := G.hEM
  have hps : f.pow2Size = f.M + f.E + 1 := rfl
  refine fFloor_front G hx fun c hk => ?_
  refine Spec.bind_query_any G (by omega) (floorRest_spec G hx c hk) fun _ t h0 h1 h2 st r => ?_
  obtain ⟨-, g2, g3⟩ := pow2Answer_bound h1 h2
  exact floorRest_forged G hx c (g3 h0) g2 hpw st r

/-- A record whose mantissa is a dishonest lookup answer: too large for a float. -/
def Oversized (f : Fmt) (r : FloatVar p) : Prop :=
  ∃ (s e : ZMod p) (m : ℕ), 2 ^ f.pow2Size ≤ m ∧ m < 2 ^ (f.pow2Size + 17) ∧ r = ⟨s, e, m, 0⟩

/-- A dishonest lookup answer is not a power of two, so it does not divide one. -/
theorem pow2Answer_not_dvd {k t size n : ℕ} (h0 : 0 < t) (hk : k + t < size) : ¬ 2 ^ (k + t) + t * 2 ^ size ∣ 2 ^ n := by
  intro hd
  obtain ⟨i, hi, h4⟩ := (Nat.dvd_prime_pow Nat.prime_two).1 hd
  have e : 2 ^ (k + t) + t * 2 ^ size = 2 ^ (k + t) * (1 + t * 2 ^ (size - (k + t))) := by
    have : 2 ^ size = 2 ^ (k + t) * 2 ^ (size - (k + t)) := by rw [← pow_add]; congr 1; omega
    rw [this]; ring
  have h5 : (1 + t * 2 ^ (size - (k + t))) ∣ 2 ^ i := by rw [← h4, e]; exact dvd_mul_left _ _
  obtain ⟨j, -, h6⟩ := (Nat.dvd_prime_pow Nat.prime_two).1 h5
  obtain ⟨d, hd'⟩ : ∃ d, size - (k + t) = d + 1 := ⟨size - (k + t) - 1, by omega⟩
  rw [hd', pow_succ] at h6
  cases j with
  | zero => rw [pow_zero] at h6; have : 0 < t * (2 ^ d * 2) := by positivity
            omega
  | succ j => rw [pow_succ] at h6; have e : t * (2 ^ d * 2) = 2 * (t * 2 ^ d) := by ring
              omega

/-- A forged `Floor` yields an oversized record for negative numbers; for the others zero, which is possible anyway for
numbers of magnitude below one. -/
theorem floor_forged (G : Good p b f) {x : Flt} (hx : x.Valid f) {c : Bool} {t : ℕ} (h0 : 0 < t) (ht1 : t < 2 ^ slack b f.pow2Size)
    (ht : intShift f x c + t < f.pow2Size)
    (hd : 2 ^ (intShift f x c + t) + t * 2 ^ f.pow2Size ∣ x.man * 2 ^ (f.M + 1) * 2 ^ slack b (f.M + 1)) :
    floorZ0 f x c (2 ^ (intShift f x c + t) + t * 2 ^ f.pow2Size) = floorZ f x c ∨
    (x.sign = false ∧ x.abn = false ∧ x.man ≠ 0 ∧ c = true ∧
      floorZ0 f x c (2 ^ (intShift f x c + t) + t * 2 ^ f.pow2Size) = ⟨false, f.eMin, 0, false⟩) ∨
    Oversized f ((floorZ0 f x c (2 ^ (intShift f x c + t) + t * 2 ^ f.pow2Size)).toVar : FloatVar p) := by
  have hps : f.pow2Size = f.M + f.E + 1 := rfl
  have hb17 := G.width.2
  have hb0 : 0 < b := by have := G.width.1; omega
  obtain ⟨-, g2, g3⟩ := pow2Answer_bound ht1 ht
  have g3 := g3 h0
  have hM1 : 2 ^ (f.M + 1) ≠ 0 := by positivity
  by_cases hm : x.man = 0
  · left
    unfold floorZ0 floorZ intQuot dq
    rw [hm]
    have h1 : (2 ^ (f.M + 1) - 1) / 2 ^ (f.M + 1) = 0 := Nat.div_eq_of_lt (Nat.sub_lt (Nat.two_pow_pos _) (by norm_num))
    have h2 : ¬ 0 = 2 ^ (f.M + 1) := by omega
    cases x.sign <;> simp [floorExp, h1, h2]
  have ha : x.abn = false := by
    cases ha : x.abn
    · rfl
    · exfalso
      have hman : x.man = 2 ^ f.M := by
        cases hx with
        | nan => simp at hm
        | inf => rfl
        | zero => simp at ha
        | fin => simp at ha
      rw [hman, ← pow_add, ← pow_add] at hd
      exact pow2Answer_not_dvd h0 ht hd
  generalize 2 ^ (intShift f x c + t) + t * 2 ^ f.pow2Size = T at *
  cases hs : x.sign with
  | true =>
    right; right
    have hT : T ≠ 0 := by have := Nat.two_pow_pos f.pow2Size; omega
    refine ⟨1, ((floorExp x c : ℤ) : ZMod p), T, g3, lt_of_lt_of_le g2 (Nat.pow_le_pow_right (by norm_num) ?_), ?_⟩
    · have := slack_lt (b := b) (bits := f.pow2Size) hb0 (by omega)
      omega
    · unfold floorZ0 Flt.toVar; simp [hs, hm, ha, hT]
  | false =>
    cases c with
    | true => right; left; refine ⟨rfl, ha, hm, rfl, ?_⟩; unfold floorZ0; simp [hs, ha]
    | false => left; rw [floorZ_false G hx ha]; unfold floorZ0; simp [hs, ha]

/-- An oversized record is not equal to any allocated float. -/
theorem oversized_rejected (G : Good p b f) {r z : FloatVar p} {dz : Ieee.Datum} (hr : Oversized f r)
    (ez : Encodes f z dz) {st : Bool} : ¬ (fAssertIsEqual r z).Sat b st () := by
  obtain ⟨s, e, m, h1, h2, rfl⟩ := hr
  obtain ⟨z, hz, rfl, rfl⟩ := encodes_iff.1 ez
  have hEM := G.hEM
  have hps : f.pow2Size = f.M + f.E + 1 := rfl
  unfold fAssertIsEqual
  simp only [Circ.bind_eq, Circ.sat_bind, assertIsEqual, Circ.Sat]
  rintro ⟨-, -, -, -, -, h3, -⟩
  simp only [decide_eq_true_eq] at h3
  have h4 := hz.man_lt
  have h5 := (natCast_inj (p := p) (lt_of_lt_of_le h2 (G.pow_le (by have := G.hME; have := G.hE; omega))) (G.lt_of_lt_pow h4 (by omega))).1 h3.1
  have : 2 ^ (f.M + 1) ≤ 2 ^ f.pow2Size := Nat.pow_le_pow_right (by norm_num) (by omega)
  omega

end ZkLoc
