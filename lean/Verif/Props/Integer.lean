import Verif.ToIntSpec
import Verif.Examples

/-!
# Properties C26, C27: rounding to integral values and conversion to integers
-/

namespace ZkLoc

open Ieee (Datum)

variable {p : ℕ} [Fact p.Prime] {b : ℕ} {f : Fmt}

/-! ### C26: Trunc, Floor, Ceil -/

/-- **C26** The honest prover obtains the IEEE rounding towards zero, for every table width. -/
theorem C26_trunc_complete (G : Good p b f) {x : FloatVar p} {dx : Datum} (ex : Encodes f x dx) :
    ∃ r d, (fTrunc f x).run b = some r ∧ Encodes f r d ∧ Ieee.Integral Ieee.truncZ dx d := by
  obtain ⟨x, hx, rfl, rfl⟩ := encodes_iff.1 ex
  obtain ⟨h1, h2⟩ := truncZ_honest G hx
  exact ⟨_, _, (fTrunc_spec (H := False) G (hx.bdd G) (by simp)).run, encodes_iff.2 ⟨_, h1, rfl, rfl⟩, h2⟩

/-- **C26** The honest prover obtains the IEEE rounding downwards. -/
theorem C26_floor_complete (G : Good p b f) {x : FloatVar p} {dx : Datum} (ex : Encodes f x dx) :
    ∃ r d, (fFloor f x).run b = some r ∧ Encodes f r d ∧ Ieee.Integral (fun v => ⌊v⌋) dx d := by
  obtain ⟨x, hx, rfl, rfl⟩ := encodes_iff.1 ex
  obtain ⟨h1, h2⟩ := floorZ_honest G hx
  exact ⟨_, _, (fFloor_spec (H := False) G (hx.bdd G) (by simp)).run, encodes_iff.2 ⟨_, h1, rfl, rfl⟩, h2⟩

theorem integral_neg {dx d : Datum} (h : Ieee.Integral (fun v => ⌊v⌋) dx.neg d) :
    Ieee.Integral (fun v => ⌈v⌉) dx d.neg := by
  cases dx with
  | nan => simp only [Ieee.Integral, Datum.neg] at h ⊢; rw [h]
  | inf s => simp only [Ieee.Integral, Datum.neg] at h ⊢; rw [h]; simp
  | fin s a =>
    simp only [Ieee.Integral, Datum.neg] at h ⊢
    rw [h]
    simp only [Bool.not_not]
    rw [signed_not, Int.floor_neg]; push_cast; rw [abs_neg]

/-- **C26** The honest prover obtains the IEEE rounding upwards. -/
theorem C26_ceil_complete (G : Good p b f) {x : FloatVar p} {dx : Datum} (ex : Encodes f x dx) :
    ∃ r d, (fCeil f x).run b = some r ∧ Encodes f r d ∧ Ieee.Integral (fun v => ⌈v⌉) dx d := by
  obtain ⟨r, d, h1, h2, h3⟩ := C26_floor_complete G (encodes_neg ex)
  refine ⟨fNeg r, d.neg, ?_, encodes_neg h2, integral_neg h3⟩
  unfold fCeil
  rw [Circ.bind_eq, Circ.run_bind, h1]; rfl

/-- The outcomes of `Trunc`, apart from the circuit. -/
theorem trunc_outcome_exact (G : Good p b f) {x : Flt} (hx : x.Valid f) {r : FloatVar p} :
    (∃ c : Bool, (0 < x.exp → c = true) ∧ (x.exp < 0 → c = false) ∧ r = (truncZ f x c).toVar) ↔
      (truncZ f x (decide (0 ≤ x.exp))).toVar = r ∨
      (∃ s a, x.datum f = .fin s a ∧ 1 ≤ a ∧ a < 2 ∧ Encodes f r (.fin s 0)) := by
  have hMz := G.hMz
  constructor
  · rintro ⟨c, h1, h2, rfl⟩
    rcases int_answers.1 ⟨h1, h2⟩ with rfl | ⟨h0, rfl⟩
    · exact Or.inl rfl
    · have ha : x.abn = false := by
        cases ha : x.abn
        · rfl
        · have := hx.exp_of_abn ha; omega
      obtain ⟨h3, h4⟩ := (exp_zero_iff G hx ha).1 h0
      refine Or.inr ⟨_, _, datum_fin ha, h3, h4, encodes_iff.2 ⟨_, ?_, ?_, rfl⟩⟩
      · rw [truncZ_false G hx, ha]; exact .zero _
      · rw [truncZ_false G hx, ha]; simp [Flt.datum]
  · rintro (rfl | ⟨s, a, h1, h2, h3, h4⟩)
    · obtain ⟨h1, h2⟩ := int_answers.2 (Or.inl rfl : _ ∨ (x.exp = 0 ∧ decide (0 ≤ x.exp) = false))
      exact ⟨_, h1, h2, rfl⟩
    · obtain ⟨ha, rfl, rfl⟩ := datum_fin_iff.1 h1
      have h0 := (exp_zero_iff G hx ha).2 ⟨h2, h3⟩
      obtain ⟨h5, h6⟩ := int_answers.2 (Or.inr ⟨h0, rfl⟩ : false = decide (0 ≤ x.exp) ∨ (x.exp = 0 ∧ false = false))
      refine ⟨false, h5, h6, ?_⟩
      obtain ⟨z, hz, hzd, rfl⟩ := encodes_iff.1 h4
      rw [valid_zero_eq hz hzd, truncZ_false G hx, ha]

/-- **C26** What every prover can obtain from `Trunc`: exactly the honest result, and for `1 ≤ |x| < 2` moreover zero. -/
theorem C26_trunc_exact_partial (G : Good p b f) (hb : b ∣ f.pow2Size) {x r : FloatVar p} {dx : Datum}
    (ex : Encodes f x dx) {st : Bool} :
    (fTrunc f x).Sat b st r ↔ (fTrunc f x).run b = some r ∨
      (∃ s a, dx = .fin s a ∧ 1 ≤ a ∧ a < 2 ∧ Encodes f r (.fin s 0)) := by
  obtain ⟨x, hx, rfl, rfl⟩ := encodes_iff.1 ex
  have h := fTrunc_spec (p := p) (b := b) (H := True) G (hx.bdd G) (fun _ => hb)
  rw [h.sat trivial, h.run, Option.some.injEq]
  exact trunc_outcome_exact G hx

/-- The outcomes of `Floor`, apart from the circuit. -/
theorem floor_outcome_exact (G : Good p b f) {x : Flt} (hx : x.Valid f) {r : FloatVar p} :
    (∃ c : Bool, (0 < x.exp → c = true) ∧ (x.exp < 0 → c = false) ∧ r = (floorZ f x c).toVar) ↔
      (floorZ f x (decide (0 ≤ x.exp))).toVar = r ∨
      (∃ s a, x.datum f = .fin s a ∧ 1 ≤ a ∧ a < 2 ∧ Encodes f r (.fin s (if s then 1 else 0))) := by
  have hMz := G.hMz
  have hmn := f.eMin_eq
  have hNm := f.eNormalMin_eq
  have hone : ∀ u, Flt.Valid f ⟨u, 0, 2 ^ f.M, false⟩ := fun u =>
    .fin _ _ _ le_rfl (Nat.pow_lt_pow_right (by norm_num) (by omega)) (by omega) (by omega) (fun h => by omega)
  have honed : ∀ u, Flt.datum f ⟨u, 0, 2 ^ f.M, false⟩ = .fin u 1 := by
    intro u
    simp only [Flt.datum, Bool.false_eq_true, if_false]
    congr 1
    rw [zero_sub, zpow_neg, zpow_natCast]; push_cast
    exact mul_inv_cancel₀ (by positivity)
  have hfalse : x.abn = false → x.exp = 0 → floorZ f x false = if x.sign then ⟨true, 0, 2 ^ f.M, false⟩ else ⟨false, f.eMin, 0, false⟩ := by
    intro ha h0
    have hm : x.man ≠ 0 := fun hm => by have := hx.exp_of_zero ha hm; omega
    rw [floorZ_false G hx ha]
    cases x.sign <;> simp [hm]
  have hd : (if x.sign then (⟨true, 0, 2 ^ f.M, false⟩ : Flt) else ⟨false, f.eMin, 0, false⟩).Valid f ∧
      (if x.sign then (⟨true, 0, 2 ^ f.M, false⟩ : Flt) else ⟨false, f.eMin, 0, false⟩).datum f =
        .fin x.sign (if x.sign then 1 else 0) := by
    cases x.sign
    · exact ⟨.zero _, by simp [Flt.datum]⟩
    · exact ⟨hone _, honed _⟩
  constructor
  · rintro ⟨c, h1, h2, rfl⟩
    rcases int_answers.1 ⟨h1, h2⟩ with rfl | ⟨h0, rfl⟩
    · exact Or.inl rfl
    · have ha : x.abn = false := by
        cases ha : x.abn
        · rfl
        · have := hx.exp_of_abn ha; omega
      obtain ⟨h3, h4⟩ := (exp_zero_iff G hx ha).1 h0
      refine Or.inr ⟨_, _, datum_fin ha, h3, h4, ?_⟩
      rw [hfalse ha h0]
      exact encodes_iff.2 ⟨_, hd.1, hd.2, rfl⟩
  · rintro (rfl | ⟨s, a, h1, h2, h3, h4⟩)
    · obtain ⟨h1, h2⟩ := int_answers.2 (Or.inl rfl : _ ∨ (x.exp = 0 ∧ decide (0 ≤ x.exp) = false))
      exact ⟨_, h1, h2, rfl⟩
    · obtain ⟨ha, rfl, rfl⟩ := datum_fin_iff.1 h1
      have h0 := (exp_zero_iff G hx ha).2 ⟨h2, h3⟩
      obtain ⟨h5, h6⟩ := int_answers.2 (Or.inr ⟨h0, rfl⟩ : false = decide (0 ≤ x.exp) ∨ (x.exp = 0 ∧ false = false))
      refine ⟨false, h5, h6, ?_⟩
      obtain ⟨z, hz, hzd, rfl⟩ := encodes_iff.1 h4
      rw [hfalse ha h0, (datum_inj G hz hd.1 (hzd.trans hd.2.symm)).2 (by rw [hzd]; exact nofun)]

/-- **C26** What every prover can obtain from `Floor`: exactly the honest result, and for `1 ≤ |x| < 2` moreover the result for numbers of magnitude
below one of the same sign (`+0` resp. `-1`). -/
theorem C26_floor_exact_partial (G : Good p b f) (hb : b ∣ f.pow2Size) {x r : FloatVar p} {dx : Datum}
    (ex : Encodes f x dx) {st : Bool} :
    (fFloor f x).Sat b st r ↔ (fFloor f x).run b = some r ∨
      (∃ s a, dx = .fin s a ∧ 1 ≤ a ∧ a < 2 ∧ Encodes f r (.fin s (if s then 1 else 0))) := by
  obtain ⟨x, hx, rfl, rfl⟩ := encodes_iff.1 ex
  have h := fFloor_spec (p := p) (b := b) (H := True) G (hx.bdd G) (fun _ => hb)
  rw [h.sat trivial, h.run, Option.some.injEq]
  exact floor_outcome_exact G hx

theorem fCeil_sat (f : Fmt) (x : FloatVar p) (st : Bool) (r : FloatVar p) :
    (fCeil f x).Sat b st r ↔ (fFloor f (fNeg x)).Sat b st (fNeg r) := by
  unfold fCeil
  rw [Circ.bind_eq, Circ.sat_bind]
  simp only [Circ.pure_eq, Circ.Sat]
  have hinv : ∀ y : FloatVar p, fNeg (fNeg y) = y := fun y => by unfold fNeg; simp
  constructor
  · rintro ⟨y, h1, rfl⟩; rw [hinv]; exact h1
  · intro h; exact ⟨_, h, (hinv r).symm⟩

theorem fCeil_run (f : Fmt) (x : FloatVar p) (r : FloatVar p) :
    (fCeil f x).run b = some r ↔ (fFloor f (fNeg x)).run b = some (fNeg r) := by
  unfold fCeil
  rw [Circ.bind_eq, Circ.run_bind]
  have hinv : ∀ y : FloatVar p, fNeg (fNeg y) = y := fun y => by unfold fNeg; simp
  cases h : (fFloor f (fNeg x)).run b with
  | none => simp
  | some y =>
    simp only [Circ.pure_eq, Option.bind_some, Circ.run, Option.some.injEq]
    constructor
    · rintro rfl; exact (hinv y).symm
    · rintro rfl; exact hinv r

/-- **C26** What every prover can obtain from `Ceil`. -/
theorem C26_ceil_exact_partial (G : Good p b f) (hb : b ∣ f.pow2Size) {x r : FloatVar p} {dx : Datum}
    (ex : Encodes f x dx) {st : Bool} :
    (fCeil f x).Sat b st r ↔ (fCeil f x).run b = some r ∨
      (∃ s a, dx = .fin s a ∧ 1 ≤ a ∧ a < 2 ∧ Encodes f r (.fin s (if s then 0 else 1))) := by
  rw [fCeil_sat, fCeil_run, C26_floor_exact_partial G hb (encodes_neg ex)]
  have hinv : ∀ y : FloatVar p, fNeg (fNeg y) = y := fun y => by unfold fNeg; simp
  apply or_congr Iff.rfl
  constructor
  · rintro ⟨s, a, h1, h2, h3, h4⟩
    have h5 := encodes_neg h4
    rw [hinv] at h5
    cases dx with
    | nan => simp [Datum.neg] at h1
    | inf t => simp [Datum.neg] at h1
    | fin t c =>
      simp only [Datum.neg] at h1
      injection h1 with e1 e2
      subst e1; subst e2
      refine ⟨t, c, rfl, h2, h3, ?_⟩
      cases t <;> simpa [Datum.neg] using h5
  · rintro ⟨s, a, rfl, h2, h3, h4⟩
    refine ⟨!s, a, rfl, h2, h3, ?_⟩
    have h5 := encodes_neg h4
    cases s <;> simpa [Datum.neg] using h5

/-- **C26** In particular, away from `1 ≤ |x| < 2` every prover obtains the IEEE results. -/
theorem C26_sound_partial (G : Good p b f) (hb : b ∣ f.pow2Size) {x r : FloatVar p} {dx : Datum}
    (ex : Encodes f x dx) (hx : ∀ s a, dx = .fin s a → a < 1 ∨ 2 ≤ a) {st : Bool} :
    ((fTrunc f x).Sat b st r → ∃ d, Encodes f r d ∧ Ieee.Integral Ieee.truncZ dx d) ∧
    ((fFloor f x).Sat b st r → ∃ d, Encodes f r d ∧ Ieee.Integral (fun v => ⌊v⌋) dx d) ∧
    ((fCeil f x).Sat b st r → ∃ d, Encodes f r d ∧ Ieee.Integral (fun v => ⌈v⌉) dx d) := by
  have hno : ∀ {s a}, dx = .fin s a → 1 ≤ a → a < 2 → False := by
    intro s a h h1 h2
    rcases hx s a h with h | h <;> linarith
  refine ⟨fun h => ?_, fun h => ?_, fun h => ?_⟩
  · rcases (C26_trunc_exact_partial G hb ex).1 h with h | ⟨s, a, h1, h2, h3, _⟩
    · obtain ⟨r', d, h1, h2, h3⟩ := C26_trunc_complete (b := b) G ex
      rw [h1] at h; cases h; exact ⟨d, h2, h3⟩
    · exact (hno h1 h2 h3).elim
  · rcases (C26_floor_exact_partial G hb ex).1 h with h | ⟨s, a, h1, h2, h3, _⟩
    · obtain ⟨r', d, h1, h2, h3⟩ := C26_floor_complete (b := b) G ex
      rw [h1] at h; cases h; exact ⟨d, h2, h3⟩
    · exact (hno h1 h2 h3).elim
  · rcases (C26_ceil_exact_partial G hb ex).1 h with h | ⟨s, a, h1, h2, h3, _⟩
    · obtain ⟨r', d, h1, h2, h3⟩ := C26_ceil_complete (b := b) G ex
      rw [h1] at h; cases h; exact ⟨d, h2, h3⟩
    · exact (hno h1 h2 h3).elim

theorem trunc32 {x z : ℕ} (hx : x < 2 ^ 32) (hz : z < 2 ^ 32)
    (h : truncZ f32 (fltOf f32 x) (decide (0 ≤ (fltOf f32 x).exp)) = fltOf f32 z) :
    (fTrunc f32 (w32 x)).run 8 = some (w32 z) := by
  rw [w32_eq hx, w32_eq hz, (fTrunc_spec (H := False) good8 ((w32_valid hx).bdd good8) (by simp)).run, h]

theorem floor32 {x z : ℕ} (hx : x < 2 ^ 32) (hz : z < 2 ^ 32)
    (h : floorZ f32 (fltOf f32 x) (decide (0 ≤ (fltOf f32 x).exp)) = fltOf f32 z) :
    (fFloor f32 (w32 x)).run 8 = some (w32 z) := by
  rw [w32_eq hx, w32_eq hz, (fFloor_spec (H := False) good8 ((w32_valid hx).bdd good8) (by simp)).run, h]

/-- Concrete cases: `Trunc(-2.75) = -2`, `Floor(-2.25) = -3`, `Floor(-0.5) = -1`, `Floor(-15.5) = -16`, `Floor(0.5) = 0`. -/
example : (fTrunc f32 (w32 0xC0300000)).run 8 = some (w32 0xC0000000) := trunc32 (by decide) (by decide) (by decide +kernel)
example : (fFloor f32 (w32 0xC0100000)).run 8 = some (w32 0xC0400000) := floor32 (by decide) (by decide) (by decide +kernel)
example : (fFloor f32 (w32 0xBF000000)).run 8 = some (w32 0xBF800000) := floor32 (by decide) (by decide) (by decide +kernel)
example : (fFloor f32 (w32 0xC1780000)).run 8 = some (w32 0xC1800000) := floor32 (by decide) (by decide) (by decide +kernel)
example : (fFloor f32 (w32 0x3F000000)).run 8 = some (w32 0x00000000) := floor32 (by decide) (by decide) (by decide +kernel)

/-- **C26, the exception is real**: a prover can prove `Floor(1.5) = 0` and `Floor(-1.5) = -1`, and `Trunc(1.5) = 0`. -/
theorem C26_floor_forgeable :
    (fFloor f32 (w32 0x3FC00000)).Sat 8 true (w32 0x00000000) ∧ (fFloor f32 (w32 0xBFC00000)).Sat 8 true (w32 0xBF800000) ∧
    (fTrunc f32 (w32 0x3FC00000)).Sat 8 true (w32 0x00000000) := by
  refine ⟨?_, ?_, ?_⟩
  · rw [w32_eq (v := 0x3FC00000) (by decide), w32_eq (v := 0x00000000) (by decide),
      (fFloor_spec (H := True) good8 ((w32_valid (by decide)).bdd good8) (by decide)).sat trivial]
    exact ⟨false, by decide +kernel, by decide +kernel, by
      rw [show floorZ f32 (fltOf f32 0x3FC00000) false = fltOf f32 0 by decide +kernel]⟩
  · rw [w32_eq (v := 0xBFC00000) (by decide), w32_eq (v := 0xBF800000) (by decide),
      (fFloor_spec (H := True) good8 ((w32_valid (by decide)).bdd good8) (by decide)).sat trivial]
    exact ⟨false, by decide +kernel, by decide +kernel, by
      rw [show floorZ f32 (fltOf f32 0xBFC00000) false = fltOf f32 0xBF800000 by decide +kernel]⟩
  · rw [w32_eq (v := 0x3FC00000) (by decide), w32_eq (v := 0x00000000) (by decide),
      (fTrunc_spec (H := True) good8 ((w32_valid (by decide)).bdd good8) (by decide)).sat trivial]
    exact ⟨false, by decide +kernel, by decide +kernel, by
      rw [show truncZ f32 (fltOf f32 0x3FC00000) false = fltOf f32 0 by decide +kernel]⟩

/-! ### C27: conversion to an integer -/

/-- The signed integer as a field element. -/
def signedNat (s : Bool) (n : ℕ) : ZMod p := if s then -(n : ZMod p) else (n : ZMod p)

theorem toIntExp_range (G : Good p b f) {x : Flt} (hx : x.Valid f) (ha : x.abn = false)
    (hr : x.mag f = 0 ∨ (1 ≤ x.mag f ∧ x.mag f < 2 ^ f.pow2Size)) : ∃ k : ℕ, toIntExp f x = k ∧ k < f.pow2Size := by
  have hps : f.pow2Size = f.M + f.E + 1 := rfl
  have hMz := G.hMz
  have hmn := f.eMin_eq
  rcases hr with h | ⟨h1, h2⟩
  · have := hx.exp_of_zero ha (mag_eq_zero.1 h)
    exact ⟨0, by unfold toIntExp; simp [this], by omega⟩
  · have h0 : x.man ≠ 0 := fun h0 => by rw [mag_eq_zero.2 h0] at h1; linarith
    have hge : (2:ℝ) ^ x.exp ≤ x.mag f := pow_real_ge (by
      rcases hx.man_cases with h3 | h3
      · exact absurd h3 h0
      · exact h3)
    have hlt : x.mag f < 2 ^ (x.exp + 1) := pow_real_lt hx.man_lt
    have he0 : 0 ≤ x.exp := by
      by_contra hn
      have : (2:ℝ) ^ (x.exp + 1) ≤ 2 ^ (0:ℤ) := zpow_le_zpow_right₀ (by norm_num) (by omega)
      rw [zpow_zero] at this; linarith
    have he1 : x.exp < f.pow2Size := by
      by_contra hn
      have : (2:ℝ) ^ ((f.pow2Size : ℕ) : ℤ) ≤ 2 ^ x.exp := zpow_le_zpow_right₀ (by norm_num) (by omega)
      rw [zpow_natCast] at this; linarith
    refine ⟨x.exp.toNat, ?_, by omega⟩
    unfold toIntExp
    rw [if_neg (by omega)]; omega

/-- **C27** `ToInt` of a number `±a`, `a = 0` or `1 ≤ a < 2^(M+E+1)`, for the honest prover and every table width:
the field element `r` of the same value, i.e. `r * 2^j = ± n` whenever `a * 2^j = n`; for integral `a` this is `± a` itself. -/
theorem C27_toInt_complete (G : Good p b f) {x : FloatVar p} {s : Bool} {a : ℝ} (ex : Encodes f x (.fin s a))
    (ha : a = 0 ∨ (1 ≤ a ∧ a < 2 ^ f.pow2Size)) :
    ∃ r, (fToInt f x).run b = some r ∧ ∀ n j : ℕ, a * 2 ^ j = n → r * 2 ^ j = signedNat s n := by
  obtain ⟨x, hx, hd, rfl⟩ := encodes_iff.1 ex
  obtain ⟨hab, rfl, rfl⟩ := datum_fin_iff.1 hd
  obtain ⟨k, hk, hk2⟩ := toIntExp_range G hx hab ha
  exact ⟨_, fToInt_run G (hx.bdd G) hk hk2, fun n j hn => toIntVal_spec G hx hab hk hn⟩

/-- **C27** For every prover the result is that same field element, when the table width divides the lookup size. -/
theorem C27_toInt_sound_of_dvd (G : Good p b f) (hb : b ∣ f.pow2Size) {x : FloatVar p} {s : Bool} {a : ℝ}
    (ex : Encodes f x (.fin s a)) (ha : a = 0 ∨ (1 ≤ a ∧ a < 2 ^ f.pow2Size)) {st : Bool} {r : ZMod p} :
    (fToInt f x).Sat b st r ↔ (fToInt f x).run b = some r := by
  obtain ⟨x, hx, hd, rfl⟩ := encodes_iff.1 ex
  obtain ⟨hab, rfl, rfl⟩ := datum_fin_iff.1 hd
  obtain ⟨k, hk, hk2⟩ := toIntExp_range G hx hab ha
  have hEM := G.hEM
  have hM2 := G.hM2
  have hE := G.hE
  have hps : f.pow2Size = f.M + f.E + 1 := rfl
  rw [fToInt_run G (hx.bdd G) hk hk2, fToInt_iff G (hx.bdd G), hk, Int.cast_natCast, Option.some.injEq]
  have hq := queryPowerOf2_spec (p := p) (b := b) (H := True) (size := f.pow2Size) G.width (by omega) (by norm_num; omega)
    (G.pow_le (by omega)) (fun _ => hb) hk2
  constructor
  · rintro ⟨T, h1, rfl⟩; rw [(hq.sat trivial _ _).1 h1]
  · rintro rfl; exact ⟨_, (hq.sat trivial _ _).2 rfl, rfl⟩

/-- **C27** The integer is what it should be: an integral float converts to its integer, for every prover. -/
theorem C27_toInt_integral_of_dvd (G : Good p b f) (hb : b ∣ f.pow2Size) {x : FloatVar p} {s : Bool} {n : ℕ}
    (ex : Encodes f x (.fin s n)) (hn : n < 2 ^ f.pow2Size) {st : Bool} {r : ZMod p} :
    (fToInt f x).Sat b st r ↔ r = signedNat s n := by
  have ha : (n:ℝ) = 0 ∨ (1 ≤ (n:ℝ) ∧ (n:ℝ) < 2 ^ f.pow2Size) := by
    rcases Nat.eq_zero_or_pos n with h | h
    · left; simp [h]
    · right; exact ⟨by exact_mod_cast h, by exact_mod_cast hn⟩
  obtain ⟨r', h1, h2⟩ := C27_toInt_complete (b := b) G ex ha
  have h3 := h2 n 0 (by simp)
  rw [pow_zero, mul_one] at h3
  rw [C27_toInt_sound_of_dvd G hb ex ha, h1, Option.some.injEq, h3, eq_comm]

/-- **C27** Infinities, NaN and numbers of magnitude at least `2^(M+E+1)` cannot be converted by any prover, whatever the table width. -/
theorem C27_toInt_rejects_large (G : Good p b f) {x : FloatVar p} {dx : Datum} (ex : Encodes f x dx)
    (hd : ∀ s a, dx = .fin s a → (2:ℝ) ^ f.pow2Size ≤ a) (hsz : (f.pow2Size : ℤ) ≤ 2 ^ (f.E - 1)) {st : Bool} {r : ZMod p} :
    ¬ (fToInt f x).Sat b st r := by
  obtain ⟨x, hx, rfl, rfl⟩ := encodes_iff.1 ex
  have hEM := G.hEM
  have hM2 := G.hM2
  have hE := G.hE
  have hMz := G.hMz
  have hmn := f.eMin_eq
  have hps : f.pow2Size = f.M + f.E + 1 := rfl
  have hmx : f.eMax = 2 ^ (f.E - 1) := rfl
  rw [← hmx] at hsz
  have he : (f.pow2Size : ℤ) ≤ x.exp := by
    cases ha : x.abn
    · have h1 := hd _ _ (datum_fin ha)
      have hlt : x.mag f < 2 ^ (x.exp + 1) := pow_real_lt hx.man_lt
      by_contra hn
      have : (2:ℝ) ^ (x.exp + 1) ≤ 2 ^ ((f.pow2Size : ℕ) : ℤ) := zpow_le_zpow_right₀ (by norm_num) (by omega)
      rw [zpow_natCast] at this; linarith
    · rw [hx.exp_of_abn ha]; exact hsz
  have hle := hx.exp_le G
  have hexp : toIntExp f x = ((x.exp.toNat : ℕ) : ℤ) := by
    unfold toIntExp; rw [if_neg (by omega)]; omega
  rw [fToInt_iff G (hx.bdd G), hexp, Int.cast_natCast]
  rintro ⟨T, h1, _⟩
  refine sat_queryPowerOf2_out G.width (by omega) (G.pow_le (by omega)) ?_ (by omega) st T h1
  have h2 : 2 ^ f.E ≤ 2 ^ f.pow2Size := Nat.pow_le_pow_right (by norm_num) (by omega)
  have h3 := G.zE
  have h4 : ((2 ^ f.E : ℕ) : ℤ) = 2 * f.eMax := by push_cast; exact h3
  omega

/-- **C27** Non-zero numbers of magnitude below 1 cannot be converted, when the width divides the lookup size. -/
theorem C27_toInt_rejects_small_of_dvd (G : Good p b f) (hb : b ∣ f.pow2Size) {x : FloatVar p} {s : Bool} {a : ℝ}
    (ex : Encodes f x (.fin s a)) (h0 : a ≠ 0) (h1 : a < 1) {st : Bool} {r : ZMod p} :
    ¬ (fToInt f x).Sat b st r := by
  obtain ⟨x, hx, hd, rfl⟩ := encodes_iff.1 ex
  obtain ⟨hab, rfl, rfl⟩ := datum_fin_iff.1 hd
  have hEM := G.hEM
  have hM2 := G.hM2
  have hE := G.hE
  have hMz := G.hMz
  have hmn := f.eMin_eq
  have hps : f.pow2Size = f.M + f.E + 1 := rfl
  have hm : x.man ≠ 0 := fun h => h0 (mag_eq_zero.2 h)
  have hge : (2:ℝ) ^ x.exp ≤ x.mag f := pow_real_ge (by
    rcases hx.man_cases with h3 | h3
    · exact absurd h3 hm
    · exact h3)
  have hneg : x.exp < 0 := by
    by_contra hn
    have : (2:ℝ) ^ (0:ℤ) ≤ 2 ^ x.exp := zpow_le_zpow_right₀ (by norm_num) (by omega)
    rw [zpow_zero] at this; linarith
  have hlo : f.eMin + 1 ≤ x.exp := by
    cases hx with
    | nan | zero => simp at hm
    | inf => simp at hab
    | fin s e m _ _ h3 _ _ => exact h3
  have hexp : toIntExp f x = -((((-x.exp).toNat : ℕ)) : ℤ) := by
    unfold toIntExp; rw [if_neg (by omega)]; omega
  rw [fToInt_iff G (hx.bdd G), hexp, Int.cast_neg, Int.cast_natCast]
  rintro ⟨T, h1, _⟩
  refine sat_queryPowerOf2_neg G.width (by omega) (G.pow_le (by omega)) hb (by omega) ?_ st T h1
  have h2 : 2 ^ (f.E + 1) ≤ 2 ^ f.pow2Size := Nat.pow_le_pow_right (by norm_num) (by omega)
  have h3 := G.zE1
  have h4 : ((2 ^ (f.E + 1) : ℕ) : ℤ) = 4 * f.eMax := by push_cast; exact h3
  omega

theorem toInt32_one_encodes : Encodes f32 (w32 0x3F800000) (.fin false 1) := by
  have h := w32_encodes (v := 0x3F800000) (by decide)
  have e : Ieee.decodeBits ⟨8, 23⟩ 0x3F800000 = .fin false 1 := by
    norm_num [Ieee.decodeBits, Ieee.Format.bias]
    decide
  rwa [e] at h

/-- Concrete case: `ToInt(-3) = -3`, for every prover; the hypotheses hold. -/
example (r : ZMod bn254) (st : Bool) : (fToInt f32 (w32 0xC0400000)).Sat 8 st r ↔ r = -3 := by
  have h := w32_encodes (v := 0xC0400000) (by decide)
  have e : Ieee.decodeBits ⟨8, 23⟩ 0xC0400000 = .fin true ((3:ℕ):ℝ) := by
    norm_num [Ieee.decodeBits, Ieee.Format.bias]
    decide
  rw [e] at h
  rw [C27_toInt_integral_of_dvd good8 (by decide) h (by decide)]
  simp [signedNat]

/-- **C27, widths that do not divide the lookup size.** With table width 12 a prover converts `1.0` to the integer
`2^32 + 2` (the honest prover: to `1`). -/
theorem C27_toInt_forgeable_width12 :
    (fToInt f32 (w32 0x3F800000)).Sat 12 true (2 ^ 32 + 2) ∧ (fToInt f32 (w32 0x3F800000)).run 12 = some 1 := by
  have G : Good bn254 12 f32 := good_bn254_f32 ⟨by norm_num, by norm_num⟩
  constructor
  · rw [w32_eq (by decide), fToInt_iff G ((w32_valid (by decide)).bdd G)]
    have he : toIntExp f32 (fltOf f32 0x3F800000) = ((0 : ℕ) : ℤ) := by decide +kernel
    rw [he, Int.cast_natCast]
    refine ⟨_, (sat_queryPowerOf2_nat G.width (by decide) (by decide) (by decide) true _).2 ⟨1, by decide, by decide, rfl⟩, ?_⟩
    have hm : (fltOf f32 0x3F800000).man = 2 ^ 23 := by decide +kernel
    have hs : (fltOf f32 0x3F800000).sign = false := by decide +kernel
    have h2 : (2 : ZMod bn254) ^ 23 ≠ 0 := pow_ne_zero _ (two_ne_zero G)
    unfold toIntVal
    rw [hm, hs]
    simp only [Bool.false_eq_true, if_false, tw, f32, Fmt.pow2Size]
    rw [Nat.cast_pow, Nat.cast_ofNat, mul_comm ((2 : ZMod bn254) ^ 23), mul_assoc, mul_inv_cancel₀ h2]
    push_cast
    norm_num
  · obtain ⟨r, h1, h2⟩ := C27_toInt_complete (b := 12) G toInt32_one_encodes (Or.inr ⟨le_rfl, by norm_num [f32, Fmt.pow2Size]⟩)
    have := h2 1 0 (by norm_num)
    simp [signedNat] at this
    rw [h1, this]

/-- `C27_toInt_complete`, `C27_toInt_rejects_large`, `C27_toInt_rejects_small_of_dvd`: 2.5 is converted to the element whose double is 5, 2^32 and 0.5 are rejected. -/
example : (∃ r, (fToInt f32 (w32 0x40200000)).run 8 = some r ∧ r * 2 ^ 1 = 5) ∧ (∀ r, ¬ (fToInt f32 (w32 0x4F800000)).Sat 8 true r) ∧
    ∀ r, ¬ (fToInt f32 (w32 0x3F000000)).Sat 8 true r := by
  have e1 : Ieee.decodeBits ⟨8, 23⟩ 0x40200000 = .fin false 2.5 := by unfold Ieee.decodeBits; norm_num [Ieee.Format.bias]; decide
  have e2 : Ieee.decodeBits ⟨8, 23⟩ 0x4F800000 = .fin false (2 ^ 32) := by unfold Ieee.decodeBits; norm_num [Ieee.Format.bias]; decide
  have e3 : Ieee.decodeBits ⟨8, 23⟩ 0x3F000000 = .fin false 0.5 := by unfold Ieee.decodeBits; norm_num [Ieee.Format.bias]; decide
  have h1 := w32_encodes (v := 0x40200000) (by norm_num)
  have h2 := w32_encodes (v := 0x4F800000) (by norm_num)
  have h3 := w32_encodes (v := 0x3F000000) (by norm_num)
  rw [e1] at h1
  rw [e2] at h2
  rw [e3] at h3
  have hs : f32.pow2Size = 32 := by decide
  refine ⟨?_, fun r => C27_toInt_rejects_large good8 h2 ?_ (by decide), fun r => C27_toInt_rejects_small_of_dvd good8 (by decide) h3 (by norm_num) (by norm_num)⟩
  · obtain ⟨r, hr, hv⟩ := C27_toInt_complete good8 h1 (Or.inr ⟨by norm_num, by rw [hs]; norm_num⟩)
    exact ⟨r, hr, by simpa [signedNat] using hv 5 1 (by norm_num)⟩
  · intro s a h
    rw [Datum.fin.injEq] at h
    rw [hs, ← h.2]

end ZkLoc
