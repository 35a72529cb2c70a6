import Verif.Props.FloorAny
import Mathlib.Tactic.LinearCombination

/-!
# Property C41: conversion to an integer after `Floor` and `Ceil`, at every table width

At widths that do not divide the size of the lookup, `Floor` of a negative number can be driven to a record whose significand is the
dishonest lookup answer itself. No allocated float equals that record, but `ToInt` accepts it: the product with the second lookup answer
comes out as the integer.
-/

namespace ZkLoc

open Ieee (Datum)

variable {p : ℕ} [Fact p.Prime] {b : ℕ} {f : Fmt}

/-- The answers of the power-of-two lookup for an exponent that may also be `-1`. -/
theorem sat_queryPowerOf2_int (hb : Width b) {size : ℕ} (hs : 5 ≤ size) (hp : 2 ^ (2 * size + 18) ≤ p)
    {k : ℤ} (hk0 : -1 ≤ k) (hk : k < 2 ^ size) (st : Bool) (r : ZMod p) :
    (queryPowerOf2 size ((k : ℤ) : ZMod p)).Sat b st r ↔
      ∃ t : ℕ, t < 2 ^ slack b size ∧ 0 ≤ k + t ∧ k + t < size ∧ r = ((2 ^ (k + t).toNat + t * 2 ^ size : ℕ) : ZMod p) := by
  by_cases h : 0 ≤ k
  · obtain ⟨n, rfl⟩ := Int.eq_ofNat_of_zero_le h
    have hn : n < 2 ^ size := by exact_mod_cast hk
    have := sat_queryPowerOf2_nat hb hs hp hn st r
    rw [show (((n : ℕ) : ℤ) : ZMod p) = ((n : ℕ) : ZMod p) by push_cast; rfl, this]
    refine exists_congr fun t => ?_
    have e : (((n : ℕ) : ℤ) + (t : ℤ)).toNat = n + t := by omega
    rw [e]
    constructor
    · rintro ⟨h1, h2, h3⟩; exact ⟨h1, by omega, by omega, h3⟩
    · rintro ⟨h1, -, h2, h3⟩; exact ⟨h1, by omega, h3⟩
  · obtain rfl : k = -1 := by omega
    rw [sat_queryPowerOf2 hb (by omega)]
    have hsl := slack_add size hb.pos
    rw [← hsl]
    have hb17 := hb.2
    have hslt := slack_lt (b := b) (bits := size) hb.pos (by omega)
    have hpp : 2 ^ (size + slack b size) ≤ p := le_trans (Nat.pow_le_pow_right (by norm_num) (by omega)) hp
    have hpow : 2 ^ (size + slack b size) = 2 ^ slack b size * 2 ^ size := by rw [← pow_add, add_comm]
    have hS := Nat.two_pow_pos size
    have hlt : ∀ i, i < size → (i + 1) * 2 ^ size + 2 ^ i < p := by
      intro i hi
      have h2i : 2 ^ i ≤ 2 ^ size := Nat.pow_le_pow_right (by norm_num) hi.le
      have hS' : size < 2 ^ size := Nat.lt_two_pow_self
      have hSS : 2 ^ (2 * size + 18) = 2 ^ size * 2 ^ size * 2 ^ 18 := by rw [pow_add, two_mul, pow_add]
      refine lt_of_lt_of_le ?_ hp
      rw [hSS]
      generalize 2 ^ size = S at *
      have a1 : (i + 1) * S ≤ S * S := Nat.mul_le_mul_right _ (by omega)
      have a2 : 1 * S ≤ S * S := Nat.mul_le_mul_right _ (by omega)
      have a4 : 0 < S * S := Nat.mul_pos (by omega) (by omega)
      omega
    have hneg : ∀ i : ℕ, (((-1 : ℤ) : ZMod p) * 2 ^ size + r = ((i * 2 ^ size + 2 ^ i : ℕ) : ZMod p)) ↔
        r = (((i + 1) * 2 ^ size + 2 ^ i : ℕ) : ZMod p) := by
      intro i
      push_cast
      constructor
      · intro h; linear_combination h
      · intro h; linear_combination h
    simp only [hneg]
    constructor
    · rintro ⟨h1, i, hi, rfl⟩
      rw [ZMod.val_natCast_of_lt (hlt i hi), hpow] at h1
      refine ⟨i + 1, ?_, by push_cast; omega, by push_cast; omega, ?_⟩
      · exact lt_of_mul_lt_mul_right (lt_of_le_of_lt (Nat.le_add_right _ _) h1) (Nat.zero_le _)
      · rw [show ((-1 : ℤ) + ((i + 1 : ℕ) : ℤ)).toNat = i by push_cast; omega, add_comm]
    · rintro ⟨t, h1, h2, h3, rfl⟩
      obtain ⟨i, rfl⟩ : ∃ i, t = i + 1 := ⟨t - 1, by omega⟩
      have hi : i < size := by push_cast at h3; omega
      rw [show ((-1 : ℤ) + ((i + 1 : ℕ) : ℤ)).toNat = i by push_cast; omega]
      refine ⟨?_, i, hi, by rw [add_comm]⟩
      rw [add_comm, ZMod.val_natCast_of_lt (hlt i hi), hpow]
      have h2i : 2 ^ i < 2 ^ size := Nat.pow_lt_pow_right (by norm_num) hi
      have : (i + 1 + 1) * 2 ^ size ≤ 2 ^ slack b size * 2 ^ size := Nat.mul_le_mul_right _ (by omega)
      have e : (i + 1 + 1) * 2 ^ size = (i + 1) * 2 ^ size + 2 ^ size := by ring
      omega

/-- `ToInt` of a record with the exponent `k` and any mantissa. -/
theorem fToInt_record (G : Good p b f) {k : ℤ} (hk0 : -1 ≤ k) (hk : k ≤ f.eMax) (s : Bool) (m : ZMod p) (a : ZMod p)
    (st : Bool) (r : ZMod p) :
    (fToInt f (⟨B s, ((k : ℤ) : ZMod p), m, a⟩ : FloatVar p)).Sat b st r ↔
      ∃ t : ℕ, t < 2 ^ slack b f.pow2Size ∧ 0 ≤ k + t ∧ k + t < f.pow2Size ∧
        r * 2 ^ f.M = (if s then -1 else 1) * m * ((2 ^ (k + t).toNat + t * 2 ^ f.pow2Size : ℕ) : ZMod p) := by
  have hMz := G.hMz
  have hmn := f.eMin_eq
  have hzE := G.zE
  have hEM := G.hEM
  have hM2 := G.hM2
  have hE := G.hE
  have hps : f.pow2Size = f.M + f.E + 1 := rfl
  have h2M : (tw f.M : ZMod p) ≠ 0 := pow_ne_zero _ (two_ne_zero G)
  have hpE : (2:ℤ) ^ (f.E + 1) ≤ p := by
    have := G.pow_le (k := f.E + 1) (by have := G.hEM; omega)
    exact_mod_cast this
  have heq : gIsEq ((k : ℤ) : ZMod p) ((f.eMin : ℤ) : ZMod p) = B (decide (k = f.eMin)) := by
    apply gIsEq_int
    rw [G.zE1] at hpE
    rw [abs_lt]; constructor <;> omega
  have e1 : (if decide (k = f.eMin) = true then (0 : ZMod p) else ((k : ℤ) : ZMod p)) = ((k : ℤ) : ZMod p) := by
    have : k ≠ f.eMin := by omega
    simp [this]
  have hkS : k < 2 ^ f.pow2Size := by
    have g2 : 2 ^ f.E ≤ 2 ^ f.pow2Size := Nat.pow_le_pow_right (by norm_num) (by omega)
    have g4 : ((2 ^ f.E : ℕ) : ℤ) = 2 * f.eMax := by push_cast; exact hzE
    have g5 : ((2 ^ f.pow2Size : ℕ) : ℤ) = 2 ^ f.pow2Size := by push_cast; rfl
    omega
  have hfin : ∀ T : ZMod p, (r = (if s = true then -(m * T * (tw f.M)⁻¹) else m * T * (tw f.M)⁻¹)) ↔
      r * 2 ^ f.M = (if s then -1 else 1) * m * T := by
    intro T
    rw [← mul_left_inj' h2M (a := r)]
    show r * 2 ^ f.M = _ ↔ _
    cases s <;> simp only [Bool.false_eq_true, if_false, if_true, neg_mul, one_mul, mul_assoc, inv_mul_cancel₀ h2M, mul_one]
  unfold fToInt
  simp only [Circ.bind_eq, heq, Circ.sat_bind]
  constructor
  · rintro ⟨e, h1, T, h2, i, h3, h4⟩
    rw [(select_spec (H := True) _ _ _).sat trivial, e1] at h1
    rw [(inverse_spec (H := True) h2M).sat trivial] at h3
    rw [(select_spec (H := True) _ _ _).sat trivial] at h4
    subst h1; subst h3
    obtain ⟨t, g1, g2, g3, rfl⟩ := (sat_queryPowerOf2_int G.width (by omega) (G.pow_le (by omega)) hk0 hkS st T).1 h2
    exact ⟨t, g1, g2, g3, (hfin _).1 h4⟩
  · rintro ⟨t, g1, g2, g3, h4⟩
    refine ⟨_, ((select_spec (H := True) _ _ _).sat trivial _ _).2 rfl,
      ((2 ^ (k + t).toNat + t * 2 ^ f.pow2Size : ℕ) : ZMod p), ?_, _, ((inverse_spec (H := True) h2M).sat trivial _ _).2 rfl, ?_⟩
    · rw [e1]; exact (sat_queryPowerOf2_int G.width (by omega) (G.pow_le (by omega)) hk0 hkS st _).2 ⟨t, g1, g2, g3, rfl⟩
    · rw [(select_spec (H := True) _ _ _).sat trivial]; exact (hfin _).2 h4

/-- What the conversion yields beyond the rounded number for a number of magnitude `a` that is rounded away from zero: `a = m * 2^(e-M)`
is divided by the dishonest answer `T` (number `t`) to the first lookup, and `V * 2^M` is the product of `T` and an answer (number `t'`)
to the second lookup, that of the exponent `k`. -/
def ConvForge (b : ℕ) (f : Fmt) (a : ℝ) (V : ZMod p) : Prop :=
  ∃ (m : ℕ) (e k : ℤ) (t t' : ℕ), 2 ^ f.M ≤ m ∧ m < 2 ^ (f.M + 1) ∧ a = m * (2:ℝ) ^ (e - f.M) ∧
    ((0 ≤ e ∧ k = e) ∨ (e ≤ 0 ∧ k = -1)) ∧
    0 < t ∧ t < 2 ^ slack b f.pow2Size ∧ (f.M - k).toNat + t < f.pow2Size ∧
    2 ^ ((f.M - k).toNat + t) + t * 2 ^ f.pow2Size ∣ m * 2 ^ (f.M + 1) * 2 ^ slack b (f.M + 1) ∧
    t' < 2 ^ slack b f.pow2Size ∧ 0 ≤ k + t' ∧ k + t' < f.pow2Size ∧
    V * 2 ^ f.M = ((2 ^ ((f.M - k).toNat + t) + t * 2 ^ f.pow2Size : ℕ) : ZMod p) *
      ((2 ^ (k + t').toNat + t' * 2 ^ f.pow2Size : ℕ) : ZMod p)

theorem ConvForge.not_dvd {a : ℝ} {V : ZMod p} (hb : slack b f.pow2Size = 0) : ¬ ConvForge b f a V := by
  rintro ⟨m, e, k, t, t', -, -, -, -, h1, h2, -⟩
  rw [hb] at h2; omega

theorem mag_unique {x : Flt} {m : ℕ} {e : ℤ} (hlo : 2 ^ f.M ≤ x.man) (hhi : x.man < 2 ^ (f.M + 1)) (h1 : 2 ^ f.M ≤ m)
    (h2 : m < 2 ^ (f.M + 1)) (h3 : x.mag f = m * (2:ℝ) ^ (e - f.M)) : x.exp = e ∧ x.man = m := by
  have he : x.exp = e := by
    have a1 : (2:ℝ) ^ x.exp ≤ x.mag f := pow_real_ge hlo
    have a2 : x.mag f < 2 ^ (x.exp + 1) := pow_real_lt hhi
    have b1 : (2:ℝ) ^ e ≤ x.mag f := by rw [h3]; exact pow_real_ge h1
    have b2 : x.mag f < 2 ^ (e + 1) := by rw [h3]; exact pow_real_lt h2
    have c1 := (zpow_lt_zpow_iff_right₀ (by norm_num : (1:ℝ) < 2)).1 (a1.trans_lt b2)
    have c2 := (zpow_lt_zpow_iff_right₀ (by norm_num : (1:ℝ) < 2)).1 (b1.trans_lt a2)
    omega
  refine ⟨he, ?_⟩
  unfold Flt.mag at h3
  rw [he] at h3
  have := mul_right_cancel₀ (by positivity : (0:ℝ) < 2 ^ (e - f.M)).ne' h3
  exact_mod_cast this

/-- The integers obtained by converting after `Floor`. -/
def FloorConv (b : ℕ) (f : Fmt) (dx : Datum) (Y : ZMod p) : Prop :=
  (∃ (s : Bool) (n : ℕ), n < 2 ^ f.pow2Size ∧
    (Ieee.Integral (fun v => ⌊v⌋) dx (.fin s n) ∨ IntException (fun s => if s then 1 else 0) dx (.fin s n)) ∧ IntAnswer b f s n Y) ∨
  (∃ a, dx = .fin false a ∧ FloorForge b f a ∧ Y = 0) ∨ (∃ a, dx = .fin true a ∧ ConvForge b f a (-Y))

theorem floorConv_iff (G : Good p b f) (hsz : (f.pow2Size : ℤ) ≤ 2 ^ (f.E - 1)) (hp : 2 ^ (3 * f.M + f.E + 4 + 3 * b) ≤ p)
    {x : FloatVar p} {dx : Datum} (ex : Encodes f x dx) (Y : ZMod p) (st : Bool) :
    (∃ r, (fFloor f x).Sat b st r ∧ (fToInt f r).Sat b st Y) ↔ FloorConv b f dx Y := by
  have hany := fun r => C26_floor_every_width (r := r) G hp ex (st := st)
  have ex' := ex
  obtain ⟨x, hv, hd, rfl⟩ := encodes_iff.1 ex
  have hMz := G.hMz
  have hmn := f.eMin_eq
  have hgood : ∀ {r : FloatVar p} {d}, Encodes f r d →
      (Ieee.Integral (fun v => ⌊v⌋) dx d ∨ IntException (fun s => if s then 1 else 0) dx d) → (fToInt f r).Sat b st Y →
      FloorConv b f dx Y := by
    intro r d h4 h5 hr
    left
    by_cases hd : ∀ s a, d = .fin s a → (2:ℝ) ^ f.pow2Size ≤ a
    · exact absurd hr (C27_toInt_rejects_large G h4 hd hsz)
    · push Not at hd
      obtain ⟨s, a, rfl, ha⟩ := hd
      obtain ⟨n, rfl⟩ : ∃ n : ℕ, a = n := by
        rcases h5 with h | ⟨t, c, _, _, _, h⟩
        · exact int_nat h
        · cases h; cases s
          · exact ⟨0, by simp⟩
          · exact ⟨1, by simp⟩
      have hn : n < 2 ^ f.pow2Size := by exact_mod_cast ha
      exact ⟨s, n, hn, h5, (toInt_integral_any G h4 hn).1 hr⟩
  have hout : ∀ {r : FloatVar p}, ((floorZ f x (decide (0 ≤ x.exp))).toVar = r ∨
      (∃ s a, x.datum f = .fin s a ∧ 1 ≤ a ∧ a < 2 ∧ Encodes f r (.fin s (if s then 1 else 0)))) → (fToInt f r).Sat b st Y →
      FloorConv b f dx Y := by
    rintro r (h | ⟨s, a, g1, g2, g3, g4⟩) hr
    · obtain ⟨r', d, g1, g2, g3⟩ := C26_floor_complete (b := b) G ex'
      rw [(fFloor_spec_any (p := p) (b := b) (H := True) G (hv.bdd G) hp).run, h] at g1
      cases g1
      exact hgood g2 (Or.inl g3) hr
    · exact hgood g4 (Or.inr ⟨s, a, by rw [← hd, g1], g2, g3, rfl⟩) hr
  constructor
  · rintro ⟨r, hx, hr⟩
    rcases ((fFloor_spec_any (p := p) (b := b) (H := True) G (hv.bdd G) hp).sat trivial st r).1 hx with
      ⟨c, h1, h2, h3 | ⟨t, h3, h4, h5, h6, rfl⟩⟩
    · exact hout ((floor_outcome_exact G hv).1 ⟨c, h1, h2, h3⟩) hr
    · by_cases hs : x.sign = true ∧ x.man ≠ 0 ∧ x.abn = false
      · obtain ⟨hs, hm, ha⟩ := hs
        right; right
        refine ⟨x.mag f, by rw [← hd, datum_fin ha, hs], ?_⟩
        obtain ⟨-, -, g3⟩ := pow2Answer_bound h4 h5
        have hT : 2 ^ (intShift f x c + t) + t * 2 ^ f.pow2Size ≠ 0 := by
          have := g3 h3; have := Nat.two_pow_pos f.pow2Size; omega
        have hk0 : -1 ≤ floorExp x c := by
          unfold floorExp; cases c
          · simp
          · simp only [if_true]; by_contra hh; have := h2 (by omega); cases this
        have hkM : floorExp x c ≤ f.eMax := by
          have := hv.exp_le G
          unfold floorExp; cases c
          · simp only [Bool.false_eq_true, if_false]; omega
          · simpa using this
        have e : ((floorZ0 f x c (2 ^ (intShift f x c + t) + t * 2 ^ f.pow2Size)).toVar : FloatVar p) =
            ⟨B true, ((floorExp x c : ℤ) : ZMod p), ((2 ^ (intShift f x c + t) + t * 2 ^ f.pow2Size : ℕ) : ZMod p), B x.abn⟩ := by
          unfold floorZ0 Flt.toVar
          simp only [hs, hm, ne_eq, not_false_eq_true, decide_true, Bool.and_self, if_true, hT, false_and, if_false]
        rw [e, fToInt_record G hk0 hkM] at hr
        obtain ⟨t', q1, q2, q3, q4⟩ := hr
        have hsh : intShift f x c = ((f.M : ℤ) - floorExp x c).toNat := rfl
        refine ⟨x.man, x.exp, floorExp x c, t, t', hv.man_cases.resolve_left hm, hv.man_lt, rfl, ?_, h3, h4, h5, h6, q1, q2, q3, ?_⟩
        · cases c with
          | true => left; refine ⟨?_, rfl⟩; by_contra hh; have := h2 (by omega); cases this
          | false => right; refine ⟨?_, rfl⟩; by_contra hh; have := h1 (by omega); cases this
        · rw [if_pos rfl] at q4
          rw [neg_mul, q4, ← hsh]; ring
      · rcases floor_forged (p := p) G hv h3 h4 h5 h6 with h7 | ⟨hs', ha, hm, rfl, h7⟩ | h7
        · exact hout ((floor_outcome_exact G hv).1 ⟨c, h1, h2, congrArg Flt.toVar h7⟩) hr
        · right; left
          have he : 0 ≤ x.exp := by by_contra hh; have := h2 (by omega); cases this
          refine ⟨x.mag f, by rw [← hd, datum_fin ha, hs'], (floorForge_of G hv ha hm).2 ⟨he, t, h3, h4, h5, h6⟩, ?_⟩
          rw [h7] at hr
          have hz : Encodes f ((⟨false, f.eMin, 0, false⟩ : Flt).toVar : FloatVar p) (.fin false ((0:ℕ):ℝ)) :=
            encodes_iff.2 ⟨_, .zero _, by simp [Flt.datum], rfl⟩
          have := (toInt_integral_any G hz (by positivity)).1 hr
          simpa [IntAnswer] using this
        · exfalso
          obtain ⟨s, e, m, q1, q2, q3⟩ := h7
          obtain ⟨-, g2, -⟩ := pow2Answer_bound h4 h5
          have hval : (((floorZ0 f x c (2 ^ (intShift f x c + t) + t * 2 ^ f.pow2Size)).man : ℕ) : ZMod p) = ((m : ℕ) : ZMod p) :=
            congrArg FloatVar.mantissa q3
          have habn : B x.abn = (0 : ZMod p) := congrArg FloatVar.isAbnormal q3
          have ha : x.abn = false := by
            cases h : x.abn
            · rfl
            · rw [h] at habn; simp [B] at habn
          have hman : (floorZ0 f x c (2 ^ (intShift f x c + t) + t * 2 ^ f.pow2Size)).man = 0 := by
            unfold floorZ0
            simp only
            rw [if_neg]
            intro hh
            simp only [Bool.and_eq_true, decide_eq_true_eq] at hh
            exact hs ⟨hh.1, hh.2, ha⟩
          rw [hman] at hval
          have hmp : m < p := by
            refine lt_of_lt_of_le q2 (G.pow_le ?_)
            have hps : f.pow2Size = f.M + f.E + 1 := rfl
            have := G.hEM; have := G.hM2
            omega
          have hm0 : m = 0 := by
            have := congrArg ZMod.val hval
            rw [ZMod.val_natCast_of_lt hmp] at this
            simpa using this.symm
          have := Nat.two_pow_pos f.pow2Size
          omega
  · rintro (⟨s, n, hn, h5, h6⟩ | ⟨a, h5, h6, rfl⟩ | ⟨a, h5, m, e, k, t, t', h1, h2, h3, h4, h7, h8, h9, h10, h11, h12, h13, h14⟩)
    · obtain ⟨r, g1, g2⟩ : ∃ r, (fFloor f (x.toVar : FloatVar p)).Sat b st r ∧ Encodes f r (.fin s n) := by
        rcases h5 with h5 | ⟨t, c, g1, g2, g3, g4⟩
        · obtain ⟨r', d', g1, g2, g3⟩ := C26_floor_complete (b := b) G ex'
          rw [Ieee.Integral.unique h5 g3]
          exact ⟨r', (hany r').1 (Or.inl g1), g2⟩
        · rw [g4]
          obtain ⟨r, hr⟩ : ∃ r : FloatVar p, Encodes f r (.fin t (if t then 1 else 0)) := by
            cases t
            · exact (encodes_zero_one G false (p := p)).1
            · exact (encodes_zero_one G true (p := p)).2
          exact ⟨r, (hany r).1 (Or.inr (Or.inl ⟨t, c, g1, g2, g3, hr⟩)), hr⟩
      exact ⟨r, g1, (toInt_integral_any G g2 hn).2 h6⟩
    · obtain ⟨r, hr⟩ := (encodes_zero_one G false (p := p)).1
      have hz : Encodes f r (.fin false ((0:ℕ):ℝ)) := by simpa using hr
      exact ⟨r, (hany r).1 (Or.inr (Or.inr ⟨a, h5, h6, hr⟩)), (toInt_integral_any G hz (by positivity)).2 (Or.inl ⟨rfl, rfl⟩)⟩
    · rw [← hd] at h5
      obtain ⟨ha, hs, rfl⟩ := datum_fin_iff.1 h5
      have hm : x.man ≠ 0 := by
        intro h0
        rw [mag_eq_zero.2 h0] at h3
        have : 0 < (m:ℝ) := by exact_mod_cast lt_of_lt_of_le (Nat.two_pow_pos _) h1
        have : 0 < (m:ℝ) * (2:ℝ) ^ (e - f.M) := by positivity
        linarith
      obtain ⟨rfl, rfl⟩ := mag_unique (hv.man_cases.resolve_left hm) hv.man_lt h1 h2 h3
      obtain ⟨c, c1, c2, rfl⟩ : ∃ c : Bool, (0 < x.exp → c = true) ∧ (x.exp < 0 → c = false) ∧ k = floorExp x c := by
        rcases h4 with ⟨g1, rfl⟩ | ⟨g1, rfl⟩
        · exact ⟨true, fun _ => rfl, fun h => by omega, rfl⟩
        · exact ⟨false, fun h => by omega, fun _ => rfl, rfl⟩
      have hsh : intShift f x c = ((f.M : ℤ) - floorExp x c).toNat := rfl
      rw [← hsh] at h9 h10 h14
      obtain ⟨-, -, g3⟩ := pow2Answer_bound h8 h9
      have hT : 2 ^ (intShift f x c + t) + t * 2 ^ f.pow2Size ≠ 0 := by
        have := g3 h7; have := Nat.two_pow_pos f.pow2Size; omega
      refine ⟨(floorZ0 f x c (2 ^ (intShift f x c + t) + t * 2 ^ f.pow2Size)).toVar,
        ((fFloor_spec_any (p := p) (b := b) (H := True) G (hv.bdd G) hp).sat trivial st _).2
          ⟨c, c1, c2, Or.inr ⟨t, h7, h8, h9, h10, rfl⟩⟩, ?_⟩
      have hk0 : -1 ≤ floorExp x c := by
        unfold floorExp; cases c
        · simp
        · simp only [if_true]; by_contra hh; have := c2 (by omega); cases this
      have hkM : floorExp x c ≤ f.eMax := by
        have := hv.exp_le G
        unfold floorExp; cases c
        · simp only [Bool.false_eq_true, if_false]; omega
        · simpa using this
      have e : ((floorZ0 f x c (2 ^ (intShift f x c + t) + t * 2 ^ f.pow2Size)).toVar : FloatVar p) =
          ⟨B true, ((floorExp x c : ℤ) : ZMod p), ((2 ^ (intShift f x c + t) + t * 2 ^ f.pow2Size : ℕ) : ZMod p), B x.abn⟩ := by
        unfold floorZ0 Flt.toVar
        simp only [← hs, hm, ne_eq, not_false_eq_true, decide_true, Bool.and_self, if_true, hT, false_and, if_false]
      rw [e, fToInt_record G hk0 hkM]
      refine ⟨t', h11, h12, h13, ?_⟩
      rw [if_pos rfl]
      have : Y * 2 ^ f.M = -(-Y * 2 ^ f.M) := by ring
      rw [this, h14]; ring

/-- **C41** Conversion to an integer after `Floor`, every table width: accepted are exactly the answers of `ToInt` to `⌊x⌋` (for
`1 ≤ |x| < 2` also to 0 or -1), 0 for the positive numbers that a dishonest lookup answer divides, and for the negative ones the
products of two lookup answers. -/
theorem C41_conversion_floor (G : Good p b f) (h64 : 1 + f.E + f.M ≤ 64) (hsz : (f.pow2Size : ℤ) ≤ 2 ^ (f.E - 1))
    (hp : 2 ^ (3 * f.M + f.E + 4 + 3 * b) ≤ p) (X Y : ZMod p) (st : Bool) :
    (conversionCircuit f (fFloor f) X Y).Sat b st () ↔ IsPattern f X ∧
      ((∃ (s : Bool) (n : ℕ), n < 2 ^ f.pow2Size ∧
        (Ieee.Integral (fun v => ⌊v⌋) (datumOf f X) (.fin s n) ∨
          IntException (fun s => if s then 1 else 0) (datumOf f X) (.fin s n)) ∧ IntAnswer b f s n Y) ∨
      (∃ a, datumOf f X = .fin false a ∧ FloorForge b f a ∧ Y = 0) ∨
      (∃ a, datumOf f X = .fin true a ∧ ConvForge b f a (-Y))) := by
  unfold conversionCircuit
  simp only [Circ.bind_eq, Circ.sat_bind, newFloat_sat_iff G h64]
  constructor
  · rintro ⟨_, ⟨hX, rfl⟩, r, hx, Y', hr, he⟩
    simp only [assertIsEqual, Circ.Sat, decide_eq_true_eq, and_true] at he
    subst he
    exact ⟨hX, (floorConv_iff G hsz hp (wiresOf_encodes G h64 hX) _ st).1 ⟨r, hx, hr⟩⟩
  · rintro ⟨hX, h⟩
    obtain ⟨r, h1, h2⟩ := (floorConv_iff G hsz hp (wiresOf_encodes G h64 hX) Y st).2 h
    exact ⟨_, ⟨hX, rfl⟩, r, h1, Y, h2, by simp [assertIsEqual, Circ.Sat]⟩

/-- `ToInt` of the negated record. -/
theorem fToInt_neg (f : Fmt) (x : FloatVar p) (st : Bool) (r : ZMod p) :
    (fToInt f (fNeg x)).Sat b st r ↔ (fToInt f x).Sat b st (-r) := by
  have hs : ∀ v : ZMod p, (select (1 - x.sign) (-v) v).Sat b st r ↔ (select x.sign (-v) v).Sat b st (-r) := by
    intro v
    simp only [select, softBool, sel, Circ.bind_eq, Circ.bind, Circ.Sat, Circ.pure_eq]
    have e1 : isBool (1 - x.sign) = isBool x.sign := by
      have g1 : (1 - x.sign = 0) ↔ x.sign = 1 := ⟨fun h => by linear_combination -h, fun h => by rw [h]; ring⟩
      have g2 : (1 - x.sign = 1) ↔ x.sign = 0 := ⟨fun h => by linear_combination -h, fun h => by rw [h]; ring⟩
      unfold isBool
      simp only [g1, g2]
      exact Bool.or_comm _ _
    have e2 : (r = (1 - x.sign) * (-v - v) + v) ↔ (-r = x.sign * (-v - v) + v) := by
      constructor
      · intro h; linear_combination -h
      · intro h; linear_combination -h
    rw [e1, e2]
  unfold fToInt
  simp only [Circ.bind_eq, Circ.sat_bind, fNeg, hs]

theorem neg_int (dx : Datum) (s : Bool) (n : ℕ) :
    (Ieee.Integral (fun v => ⌊v⌋) dx.neg (.fin (!s) n) ∨ IntException (fun s => if s then 1 else 0) dx.neg (.fin (!s) n)) ↔
    (Ieee.Integral (fun v => ⌈v⌉) dx (.fin s n) ∨ IntException (fun s => if s then 0 else 1) dx (.fin s n)) := by
  refine or_congr ?_ ?_
  · cases dx with
    | nan => simp [Ieee.Integral, Datum.neg]
    | inf t => simp [Ieee.Integral, Datum.neg]
    | fin t a =>
      have e : Ieee.signed (!t) a = -Ieee.signed t a := by cases t <;> simp [Ieee.signed]
      simp only [Ieee.Integral, Datum.neg, e, Int.floor_neg, Int.cast_neg, abs_neg, Datum.fin.injEq]
      cases s <;> cases t <;> simp
  · unfold IntException
    constructor
    · rintro ⟨t, a, h1, h2, h3, h4⟩
      refine ⟨!t, a, ?_, h2, h3, ?_⟩
      · cases dx <;> simp only [Datum.neg, Datum.fin.injEq, reduceCtorEq] at h1 ⊢
        obtain ⟨rfl, rfl⟩ := h1; simp
      · simp only [Datum.fin.injEq] at h4 ⊢
        obtain ⟨h4, h5⟩ := h4
        rw [← h4, h5]
        cases s <;> simp_all
    · rintro ⟨t, a, rfl, h2, h3, h4⟩
      refine ⟨!t, a, rfl, h2, h3, ?_⟩
      simp only [Datum.fin.injEq] at h4 ⊢
      obtain ⟨rfl, h5⟩ := h4
      rw [h5]
      cases s <;> simp

theorem intAnswer_neg {s : Bool} {n : ℕ} {Y : ZMod p} : IntAnswer b f (!s) n (-Y) ↔ IntAnswer b f s n Y := by
  unfold IntAnswer
  have e : ∀ k : ℕ, (-Y = signedNat (!s) k) ↔ Y = signedNat s k := by
    intro k
    unfold signedNat
    cases s
    · simp
    · simp [neg_eq_iff_eq_neg]
  simp only [neg_eq_zero, e]

/-- **C41** Conversion to an integer after `Ceil`, every table width. -/
theorem C41_conversion_ceil (G : Good p b f) (h64 : 1 + f.E + f.M ≤ 64) (hsz : (f.pow2Size : ℤ) ≤ 2 ^ (f.E - 1))
    (hp : 2 ^ (3 * f.M + f.E + 4 + 3 * b) ≤ p) (X Y : ZMod p) (st : Bool) :
    (conversionCircuit f (fCeil f) X Y).Sat b st () ↔ IsPattern f X ∧
      ((∃ (s : Bool) (n : ℕ), n < 2 ^ f.pow2Size ∧
        (Ieee.Integral (fun v => ⌈v⌉) (datumOf f X) (.fin s n) ∨
          IntException (fun s => if s then 0 else 1) (datumOf f X) (.fin s n)) ∧ IntAnswer b f s n Y) ∨
      (∃ a, datumOf f X = .fin true a ∧ FloorForge b f a ∧ Y = 0) ∨
      (∃ a, datumOf f X = .fin false a ∧ ConvForge b f a Y)) := by
  have hinv : ∀ y : FloatVar p, fNeg (fNeg y) = y := fun y => by unfold fNeg; simp
  have hdn : ∀ (dx : Datum) (s : Bool) (a : ℝ), dx.neg = .fin (!s) a ↔ dx = .fin s a := by
    intro dx s a
    cases dx <;> simp [Datum.neg]
  have hcore : ∀ dx : Datum, FloorConv b f dx.neg (-Y) ↔
      ((∃ (s : Bool) (n : ℕ), n < 2 ^ f.pow2Size ∧
        (Ieee.Integral (fun v => ⌈v⌉) dx (.fin s n) ∨
          IntException (fun s => if s then 0 else 1) dx (.fin s n)) ∧ IntAnswer b f s n Y) ∨
      (∃ a, dx = .fin true a ∧ FloorForge b f a ∧ Y = 0) ∨
      (∃ a, dx = .fin false a ∧ ConvForge b f a Y)) := by
    intro dx
    unfold FloorConv
    have h1 : ∀ a, dx.neg = .fin false a ↔ dx = .fin true a := fun a => hdn dx true a
    have h2 : ∀ a, dx.neg = .fin true a ↔ dx = .fin false a := fun a => hdn dx false a
    simp only [h1, h2, neg_neg, neg_eq_zero]
    refine or_congr ⟨?_, ?_⟩ Iff.rfl
    · rintro ⟨s, n, g1, g2, g3⟩
      refine ⟨!s, n, g1, (neg_int dx (!s) n).1 (by rw [Bool.not_not]; exact g2), ?_⟩
      rw [← intAnswer_neg, Bool.not_not]; exact g3
    · rintro ⟨s, n, g1, g2, g3⟩
      exact ⟨!s, n, g1, (neg_int dx s n).2 g2, intAnswer_neg.2 g3⟩
  unfold conversionCircuit
  simp only [Circ.bind_eq, Circ.sat_bind, newFloat_sat_iff G h64]
  constructor
  · rintro ⟨_, ⟨hX, rfl⟩, r, hx, Y', hr, he⟩
    simp only [assertIsEqual, Circ.Sat, decide_eq_true_eq, and_true] at he
    subst he
    rw [fCeil_sat] at hx
    rw [← hinv r, fToInt_neg] at hr
    exact ⟨hX, (hcore _).1 ((floorConv_iff G hsz hp (encodes_neg (wiresOf_encodes G h64 hX)) _ st).1 ⟨_, hx, hr⟩)⟩
  · rintro ⟨hX, h⟩
    obtain ⟨r, h1, h2⟩ := (floorConv_iff G hsz hp (encodes_neg (wiresOf_encodes G h64 hX)) (-Y) st).2 ((hcore _).2 h)
    refine ⟨_, ⟨hX, rfl⟩, fNeg r, ?_, Y, ?_, by simp [assertIsEqual, Circ.Sat]⟩
    · rw [fCeil_sat, hinv]; exact h1
    · rw [fToInt_neg]; exact h2

/-- **C41** `F64ConversionCircuit` with `Floor` and `Ceil`, every back-end, at the width the code selects. -/
theorem C41_f64_conversion_floor_ceil (hp : GoodField p f64) (be : Backend) (X Y : ZMod p) (st : Bool) :
    (Accepts be st 0 f64.pow2Size (conversionCircuit f64 (fFloor f64) X Y) () ↔ IsPattern f64 X ∧
      ((∃ (s : Bool) (n : ℕ), n < 2 ^ 64 ∧
        (Ieee.Integral (fun v => ⌊v⌋) (datumOf f64 X) (.fin s n) ∨
          IntException (fun s => if s then 1 else 0) (datumOf f64 X) (.fin s n)) ∧ IntAnswer (convWidth be) f64 s n Y) ∨
      (∃ a, datumOf f64 X = .fin false a ∧ FloorForge (convWidth be) f64 a ∧ Y = 0) ∨
      (∃ a, datumOf f64 X = .fin true a ∧ ConvForge (convWidth be) f64 a (-Y)))) ∧
    (Accepts be st 0 f64.pow2Size (conversionCircuit f64 (fCeil f64) X Y) () ↔ IsPattern f64 X ∧
      ((∃ (s : Bool) (n : ℕ), n < 2 ^ 64 ∧
        (Ieee.Integral (fun v => ⌈v⌉) (datumOf f64 X) (.fin s n) ∨
          IntException (fun s => if s then 0 else 1) (datumOf f64 X) (.fin s n)) ∧ IntAnswer (convWidth be) f64 s n Y) ∨
      (∃ a, datumOf f64 X = .fin true a ∧ FloorForge (convWidth be) f64 a ∧ Y = 0) ∨
      (∃ a, datumOf f64 X = .fin false a ∧ ConvForge (convWidth be) f64 a Y))) := by
  rw [accepts_iff (shape_conversion shape_floor X Y), accepts_iff (shape_conversion shape_ceil X Y)]
  have hw : baseLength be 0 ((newFloatShape f64 ++ truncShape f64 ++ [(f64.pow2Size, Mode.loose)]).map Prod.fst) = convWidth be := by
    cases be <;> decide +kernel
  rw [hw]
  have hw' : convWidth be = 4 ∨ convWidth be = 5 ∨ convWidth be = 6 := by cases be <;> simp [convWidth]
  generalize convWidth be = w at *
  have hle : 2 ^ (3 * f64.M + f64.E + 4 + 3 * w) ≤ p := by
    refine le_trans (Nat.pow_le_pow_right (by norm_num) ?_) (goodField_pow64 hp)
    simp only [f64]; omega
  have hW : Width w := by rcases hw' with rfl | rfl | rfl <;> exact ⟨by norm_num, by norm_num⟩
  exact ⟨C41_conversion_floor (hp w hW) (by decide) (by decide) hle X Y st, C41_conversion_ceil (hp w hW) (by decide) (by decide) hle X Y st⟩

/-- The numbers `2^e + 2^-11`, `e` from 0 to 41, are concerned with PLONK: `2 + 2^(12+e)` comes out instead of `2^e + 1`. -/
theorem convForge_f64 {e : ℕ} (he : e ≤ 41) : ConvForge 5 f64 (2 ^ e + (2:ℝ)⁻¹ ^ 11) ((2 + 2 ^ (12 + e) : ℕ) : ZMod p) := by
  have hM : (f64.M : ℤ) = 52 := rfl
  have hk : ((f64.M : ℤ) - (e : ℤ)).toNat = 52 - e := by rw [hM]; omega
  have hsz : f64.pow2Size = 64 := rfl
  have hs1 : slack 5 64 = 1 := by decide
  refine ⟨2 ^ 52 + 2 ^ (41 - e), e, e, 1, 0, ?_, ?_, ?_, Or.inl ⟨by omega, rfl⟩, by norm_num, by rw [hsz, hs1]; norm_num, ?_, ?_,
    by rw [hsz, hs1]; norm_num, by simp, ?_, ?_⟩
  · exact Nat.le_add_right _ _
  · have : 2 ^ (41 - e) ≤ 2 ^ 41 := Nat.pow_le_pow_right (by norm_num) (by omega)
    simp only [f64]; omega
  · obtain ⟨j, hj⟩ : ∃ j, 41 = e + j := ⟨41 - e, by omega⟩
    rw [show 41 - e = j by omega, hM]
    rw [Nat.cast_add, Nat.cast_pow, Nat.cast_pow, Nat.cast_ofNat, add_mul, ← zpow_natCast (2:ℝ) 52, ← zpow_natCast (2:ℝ) j, ← zpow_natCast (2:ℝ) e, ← zpow_add₀ (by norm_num), ← zpow_add₀ (by norm_num),
      inv_pow, ← zpow_natCast (2:ℝ) 11, ← zpow_neg]
    congr 2 <;> push_cast <;> omega
  · rw [hk, hsz]; omega
  · rw [hk]
    generalize slack 5 (f64.M + 1) = d
    obtain ⟨j, hj⟩ : ∃ j, 41 = e + j := ⟨41 - e, by omega⟩
    refine ⟨2 ^ (41 + d), ?_⟩
    simp only [f64, Fmt.pow2Size]
    rw [show 41 - e = j by omega, show 52 - e + 1 = j + 12 by omega, one_mul, add_mul, add_mul, add_mul]
    simp only [← pow_add]
    rw [add_comm]
    congr 2 <;> omega
  · rw [hsz]; push_cast; omega
  · rw [hk, hsz, show ((e : ℤ) + ((0 : ℕ) : ℤ)).toNat = e by simp]
    have : (2 + 2 ^ (12 + e)) * 2 ^ 52 = (2 ^ (52 - e + 1) + 1 * 2 ^ 64) * (2 ^ e + 0 * 2 ^ 64) := by
      rw [zero_mul, add_zero, one_mul, add_mul, add_mul, ← pow_add, ← pow_add, ← pow_add]
      rw [show 52 - e + 1 + e = 53 by omega, show 12 + e + 52 = 64 + e by omega]
      norm_num
    have h2 := congrArg (fun n : ℕ => (n : ZMod p)) this
    beta_reduce at h2
    rw [Nat.cast_mul, Nat.cast_mul, Nat.cast_pow 2 52, Nat.cast_ofNat] at h2
    exact h2

/-- **C41** (violated) `F64ConversionCircuit` with `Floor` and PLONK, every field: the conversion of `-(2^e + 2^-11)` to
`-(2^(12+e) + 2)` instead of `-(2^e + 1)` is accepted for every `e` from 0 to 41; with `Ceil` the same without the signs. -/
theorem C41_f64_conversion_forgeable_family (hp : GoodField p f64) (st : Bool) {X : ZMod p} {e : ℕ} (he : e ≤ 41)
    (hX : IsPattern f64 X) :
    (datumOf f64 X = .fin true (2 ^ e + (2:ℝ)⁻¹ ^ 11) →
      Accepts .scs st 0 f64.pow2Size (conversionCircuit f64 (fFloor f64) X (-((2 + 2 ^ (12 + e) : ℕ) : ZMod p))) ()) ∧
    (datumOf f64 X = .fin false (2 ^ e + (2:ℝ)⁻¹ ^ 11) →
      Accepts .scs st 0 f64.pow2Size (conversionCircuit f64 (fCeil f64) X ((2 + 2 ^ (12 + e) : ℕ) : ZMod p)) ()) := by
  refine ⟨fun hd => ((C41_f64_conversion_floor_ceil hp .scs X _ st).1).2 ⟨hX, Or.inr (Or.inr ⟨_, hd, ?_⟩)⟩,
    fun hd => ((C41_f64_conversion_floor_ceil hp .scs X _ st).2).2 ⟨hX, Or.inr (Or.inr ⟨_, hd, ?_⟩)⟩⟩
  · rw [neg_neg]; exact convForge_f64 he
  · exact convForge_f64 he

/-- The family is not empty: -(1 + 2^-11) converts to -4098. -/
example (st : Bool) : Accepts .scs st 0 f64.pow2Size (conversionCircuit f64 (fFloor f64) (0xBFF0020000000000 : ZMod bn254) (-4098)) () := by
  have hX : IsPattern f64 (0xBFF0020000000000 : ZMod bn254) := by unfold IsPattern; decide +kernel
  have h := (C41_f64_conversion_forgeable_family goodField_bn254.2 st (e := 0) (by norm_num) hX).1 ?_
  · have e : (-((2 + 2 ^ (12 + 0) : ℕ) : ZMod bn254)) = -4098 := by norm_num
    rw [e] at h; exact h
  · have hv : (0xBFF0020000000000 : ZMod bn254).val = 0xBFF0020000000000 := by decide +kernel
    unfold datumOf; rw [hv]; norm_num [Ieee.decodeBits, Ieee.Format.bias, f64]
    decide

/-- `C41_conversion_floor`, `C41_conversion_ceil` at width 6: -2.5 to the field elements -3 and -2. -/
example : (conversionCircuit f64 (fFloor f64) (0xC004000000000000 : ZMod bn254) (-3)).Sat 6 true () ∧ (conversionCircuit f64 (fCeil f64) (0xC004000000000000 : ZMod bn254) (-2)).Sat 6 true () ∧
    2 ^ (3 * f64.M + f64.E + 4 + 3 * 6) ≤ bn254 ∧ (f64.pow2Size : ℤ) ≤ 2 ^ (f64.E - 1) :=
  ⟨Circ.sat_of_run _ _ (by decide +kernel), Circ.sat_of_run _ _ (by decide +kernel), by decide +kernel, by decide⟩

end ZkLoc
