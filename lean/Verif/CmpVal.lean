import Verif.CmpSpec

/-!
# Meaning of the comparison gadget
-/

namespace ZkLoc

variable {p : ℕ} [Fact p.Prime] {b : ℕ} {f : Fmt}

/-- Extended magnitude of a record that is not a NaN. -/
noncomputable def Flt.emag (f : Fmt) (x : Flt) : EReal := if x.abn then ⊤ else ((x.mag f : ℝ) : EReal)

theorem Flt.mag_nonneg (f : Fmt) (x : Flt) : 0 ≤ x.mag f := by unfold Flt.mag; positivity

theorem Flt.emag_nonneg (f : Fmt) (x : Flt) : 0 ≤ x.emag f := by
  unfold Flt.emag; split
  · exact le_top
  · exact EReal.coe_nonneg.2 (x.mag_nonneg f)

theorem Flt.emag_ne_bot (f : Fmt) (x : Flt) : x.emag f ≠ ⊥ := by
  have := x.emag_nonneg f
  intro h; rw [h] at this; simp at this

theorem value_datum {x : Flt} (hn : x.isNaN = false) :
    (x.datum f).value = some (if x.sign then - x.emag f else x.emag f) := by
  unfold Flt.isNaN at hn
  unfold Flt.datum Flt.emag
  cases ha : x.abn
  · simp only [Bool.false_eq_true, if_false, Ieee.Datum.value, Ieee.signed]
    cases x.sign <;> simp [Flt.mag]
  · rw [ha] at hn
    simp at hn
    simp [hn, Ieee.Datum.value]

theorem value_nan {x : Flt} (hn : x.isNaN = true) : (x.datum f).value = none := by
  unfold Flt.isNaN at hn
  simp at hn
  simp [Flt.datum, hn.1, hn.2, Ieee.Datum.value]

/-- A larger exponent means a larger finite magnitude. -/
theorem mag_lt_of_exp_lt (G : Good p b f) {x y : Flt} (hx : x.Valid f) (hy : y.Valid f) (hya : y.abn = false)
    (h : x.exp < y.exp) : x.mag f < y.mag f := by
  have hym : 2 ^ f.M ≤ y.man := by
    rcases hy.man_cases with h0 | h0
    · have h1 := hy.exp_of_zero hya h0
      have h2 := hx.exp_ge G
      omega
    · exact h0
  have h1 := pow_real_lt (f := f) (e := x.exp) hx.man_lt
  have h2 := pow_real_ge (f := f) (e := y.exp) hym
  have h3 : (2:ℝ) ^ (x.exp + 1) ≤ 2 ^ y.exp := zpow_le_zpow_right₀ (by norm_num) (by omega)
  unfold Flt.mag
  linarith

theorem emag_lt_iff (G : Good p b f) {x y : Flt} (hx : x.Valid f) (hy : y.Valid f) (hxn : x.isNaN = false) (hyn : y.isNaN = false) :
    x.emag f < y.emag f ↔ x.exp < y.exp ∨ (x.exp = y.exp ∧ x.man < y.man) := by
  have man_inf : ∀ {z : Flt}, z.Valid f → z.isNaN = false → z.abn = true → z.man = 2 ^ f.M := by
    intro z hz hn ha
    cases hz with
    | nan s => simp [Flt.isNaN] at hn
    | inf s => rfl
    | zero s => simp at ha
    | fin s e m => simp at ha
  unfold Flt.emag
  cases hxa : x.abn <;> cases hya : y.abn
  · simp only [Bool.false_eq_true, if_false, EReal.coe_lt_coe_iff]
    constructor
    · intro h
      by_contra hc
      push Not at hc
      obtain ⟨h1, h2⟩ := hc
      rcases h1.lt_or_eq with h3 | h3
      · have := mag_lt_of_exp_lt G hy hx hxa h3; linarith
      · have h4 : y.man ≤ x.man := h2 h3.symm
        have h5 : (y.man : ℝ) ≤ x.man := by exact_mod_cast h4
        have : y.mag f ≤ x.mag f := by
          unfold Flt.mag; rw [h3]; exact mul_le_mul_of_nonneg_right h5 (by positivity)
        linarith
    · rintro (h | ⟨h, h'⟩)
      · exact mag_lt_of_exp_lt G hx hy hya h
      · have h5 : (x.man : ℝ) < y.man := by exact_mod_cast h'
        unfold Flt.mag; rw [h]; exact mul_lt_mul_of_pos_right h5 (by positivity)
  · have h1 := hx.exp_fin G hxa
    have h2 := hy.exp_of_abn hya
    simp
    left; omega
  · have h1 := hy.exp_fin G hya
    have h2 := hx.exp_of_abn hxa
    simp
    omega
  · have h1 := hy.exp_of_abn hya
    have h2 := hx.exp_of_abn hxa
    rw [man_inf hx hxn hxa, man_inf hy hyn hya]
    simp
    omega

theorem emag_eq_iff (G : Good p b f) {x y : Flt} (hx : x.Valid f) (hy : y.Valid f) (hxn : x.isNaN = false) (hyn : y.isNaN = false) :
    x.emag f = y.emag f ↔ x.exp = y.exp ∧ x.man = y.man := by
  have h1 := emag_lt_iff G hx hy hxn hyn
  have h2 := emag_lt_iff G hy hx hyn hxn
  constructor
  · intro h
    rw [h] at h1 h2
    simp only [lt_self_iff_false, false_iff] at h1 h2
    omega
  · rintro ⟨h, h'⟩
    refine le_antisymm (not_lt.1 (fun hc => ?_)) (not_lt.1 (fun hc => ?_))
    · have := h2.1 hc; omega
    · have := h1.1 hc; omega

theorem emag_eq_zero {x : Flt} (hxn : x.isNaN = false) : x.emag f = 0 ↔ x.man = 0 := by
  unfold Flt.emag
  cases ha : x.abn
  · simp [mag_eq_zero]
  · unfold Flt.isNaN at hxn
    rw [ha] at hxn; simp at hxn
    simp [hxn]

/-- The integer-level comparison decides the IEEE order of the values. -/
theorem lessZ_iff (G : Good p b f) {x y : Flt} (hx : x.Valid f) (hy : y.Valid f) (a : Bool) :
    lessZ x y a = true ↔ ∃ u v, (x.datum f).value = some u ∧ (y.datum f).value = some v ∧ (u < v ∨ (a = true ∧ u = v)) := by
  unfold lessZ
  cases hxn : x.isNaN
  swap
  · simp [value_nan hxn]
  cases hyn : y.isNaN
  swap
  · simp [value_nan hyn]
  rw [value_datum hxn, value_datum hyn]
  have hex : ∀ P Q : EReal, (∃ u v, some P = some u ∧ some Q = some v ∧ (u < v ∨ (a = true ∧ u = v))) ↔
      (P < Q ∨ (a = true ∧ P = Q)) := by
    intro P Q
    constructor
    · rintro ⟨u, v, h1, h2, h⟩
      injection h1 with h1; injection h2 with h2
      subst h1; subst h2; exact h
    · intro h; exact ⟨P, Q, rfl, rfl, h⟩
  rw [hex]
  simp only [Bool.or_self, Bool.false_eq_true, if_false]
  have hlt := emag_lt_iff G hx hy hxn hyn
  have hgt := emag_lt_iff G hy hx hyn hxn
  have heq := emag_eq_iff G hx hy hxn hyn
  have hx0 := x.emag_nonneg f
  have hy0 := y.emag_nonneg f
  have zx := emag_eq_zero (f := f) hxn
  have zy := emag_eq_zero (f := f) hyn
  generalize x.emag f = u at *
  generalize y.emag f = v at *
  cases hs : x.sign <;> cases ht : y.sign <;> simp only [Bool.false_eq_true, if_false, if_true, reduceCtorEq]
  · rw [hlt, heq]
    by_cases h3 : x.exp = y.exp
    · by_cases h4 : x.man = y.man
      · simp [h3, h4]
      · simp [h3, h4]
    · simp [h3]
  · -- x ≥ 0, y ≤ 0
    have hvu : -v ≤ u := le_trans (EReal.neg_le.2 (by simpa using hy0)) hx0
    have h1 : ¬ u < -v := not_lt.2 hvu
    have h2 : u = -v ↔ x.man + y.man = 0 := by
      rw [Nat.add_eq_zero_iff, ← zx, ← zy]
      constructor
      · intro h
        have h3 : u = 0 := le_antisymm (by rw [h]; exact EReal.neg_le.2 (by simpa using hy0)) hx0
        rw [h3] at h
        exact ⟨h3, by rw [← neg_neg v, ← h]; simp⟩
      · rintro ⟨h3, h4⟩; rw [h3, h4]; simp
    rw [h2]
    clear h2
    generalize x.man + y.man = k
    by_cases h : k = 0 <;> simp [h, h1]
  · -- x ≤ 0, y ≥ 0
    have hnu : -u ≤ 0 := EReal.neg_le.2 (by simpa using hx0)
    have h2 : -u = v ↔ x.man + y.man = 0 := by
      rw [Nat.add_eq_zero_iff, ← zx, ← zy]
      constructor
      · intro h
        have h3 : v = 0 := le_antisymm (by rw [← h]; exact hnu) hy0
        rw [h3] at h
        exact ⟨by rw [← neg_neg u, h]; simp, h3⟩
      · rintro ⟨h3, h4⟩; rw [h3, h4]; simp
    have h1 : -u < v ↔ ¬ x.man + y.man = 0 := by
      rw [← h2]
      exact ⟨fun h => h.ne, fun h => lt_of_le_of_ne (le_trans hnu hy0) h⟩
    rw [h1, h2]
    generalize x.man + y.man = k
    by_cases h : k = 0 <;> simp [h]
  · rw [EReal.neg_lt_neg_iff, hgt, neg_inj, heq]
    by_cases h3 : x.exp = y.exp
    · by_cases h4 : x.man = y.man
      · simp [h3, h4]
      · simp [h3, h4]; omega
    · have : y.exp ≠ x.exp := fun h => h3 h.symm
      simp [h3, this]; omega

end ZkLoc
