import Verif.Bridge
import Verif.DivVal
import Verif.SqrtVal

/-!
# Helper lemmas: all outcomes of an addition
-/

namespace ZkLoc

variable {f : Fmt}

theorem sval_eq_signed (f : Fmt) (x : Flt) : x.sval f = Ieee.signed x.sign (x.mag f) := (signed_mag x).symm

/-- Cancelling finite floats: same magnitude. -/
theorem cancel_mag {f : Fmt} {x y : Flt} (h : x.sval f + y.sval f = 0) :
    x.mag f = y.mag f ∧ (x.sign = y.sign → x.mag f = 0) := by
  rw [sval_eq_signed, sval_eq_signed] at h
  have hx : 0 ≤ x.mag f := by unfold Flt.mag; positivity
  have hy : 0 ≤ y.mag f := by unfold Flt.mag; positivity
  unfold Ieee.signed at h
  cases hs : x.sign <;> cases ht : y.sign <;> rw [hs, ht] at h <;> simp at h ⊢ <;> (try constructor) <;> linarith

theorem mag_top_iff {p b : ℕ} [Fact p.Prime] {f : Fmt} (G : Good p b f) {x : Flt} (hx : x.Valid f) (ha : x.abn = false) :
    (2:ℝ) ^ (f.eMax - 1) ≤ x.mag f ↔ x.exp = f.eMax - 1 ∧ x.man ≠ 0 := by
  have hmax := hx.exp_fin G ha
  constructor
  · intro h
    by_contra hne
    rcases hx.man_cases with h0 | h0
    · have : x.mag f = 0 := by unfold Flt.mag; rw [h0]; simp
      rw [this] at h
      have : (0:ℝ) < 2 ^ (f.eMax - 1) := by positivity
      linarith
    · have hm : x.man ≠ 0 := by have : 0 < 2 ^ f.M := by positivity
                                omega
      have hlt : x.exp + 1 ≤ f.eMax - 1 := by
        have : x.exp ≠ f.eMax - 1 := fun h => hne ⟨h, hm⟩
        omega
      have h1 := pow_real_lt (f := f) (e := x.exp) hx.man_lt
      have h2 : (2:ℝ) ^ (x.exp + 1) ≤ 2 ^ (f.eMax - 1) := zpow_le_zpow_right₀ (by norm_num) hlt
      unfold Flt.mag at h
      linarith
  · rintro ⟨h1, h2⟩
    have h3 : 2 ^ f.M ≤ x.man := by rcases hx.man_cases with h | h; exact absurd h h2; exact h
    have := pow_real_ge (f := f) (e := x.exp) h3
    rw [h1] at this
    unfold Flt.mag; rw [h1]; exact this

theorem datum_fin {f : Fmt} {x : Flt} (h : x.abn = false) : x.datum f = .fin x.sign (x.mag f) := by
  simp [Flt.datum, h, Flt.mag]

/-- All outcomes of an addition of valid floats: `c1`, `c2` are the prover's choices. -/
theorem add_outcomes {p b : ℕ} [Fact p.Prime] (G : Good p b f) {x y : Flt} (hx : x.Valid f) (hy : y.Valid f) (c1 c2 : Bool) :
    ((addZ f x y c1 c2).Valid f ∧ Ieee.Add f.ieee (x.datum f) (y.datum f) ((addZ f x y c1 c2).datum f)) ∨
    (c1 = false ∧ ∃ a, x.datum f = .fin x.sign a ∧ y.datum f = .fin y.sign a ∧ x.sign ≠ y.sign ∧
      addZ f x y c1 c2 = ⟨true, f.eMin, 0, false⟩) ∨
    (c2 = true ∧ TopCancel f (x.datum f) (y.datum f) ∧ addZ f x y c1 c2 = ⟨!c1, f.eMax, 2 ^ f.M, true⟩) ∨
    (c2 = false ∧ ∃ s a t c, x.datum f = .fin s a ∧ y.datum f = .fin t c ∧ Ieee.signed s a + Ieee.signed t c ≠ 0 ∧
      Pseudo f (decide (Ieee.signed s a + Ieee.signed t c < 0)) |Ieee.signed s a + Ieee.signed t c| (addZ f x y c1 c2)) := by
  by_cases hab : x.abn = true ∨ y.abn = true
  · exact Or.inl (addZ_abn G hx hy hab c1 c2)
  have hxa : x.abn = false := by cases h : x.abn; rfl; exact absurd (Or.inl h) hab
  have hya : y.abn = false := by cases h : y.abn; rfl; exact absurd (Or.inr h) hab
  obtain ⟨hnz, hz⟩ := addZ_finite G hx hy hxa hya
  have hdx := datum_fin (f := f) hxa
  have hdy := datum_fin (f := f) hya
  by_cases h0 : x.sval f + y.sval f = 0
  · have h1 := hz h0 c1 c2
    obtain ⟨hm1, hm2⟩ := cancel_mag h0
    have hxe := hx.exp_fin G hxa
    have hye := hy.exp_fin G hya
    by_cases htop : max x.exp y.exp + 1 = f.eMax ∧ c2 = true
    · -- top binade
      rw [if_pos htop] at h1
      have hMz := G.hMz
      have hmn := f.eMin_eq
      have htopx : (2:ℝ) ^ (f.eMax - 1) ≤ x.mag f := by
        have hex : x.exp = f.eMax - 1 ∨ y.exp = f.eMax - 1 := by
          have := htop.1
          rcases le_total x.exp y.exp with h | h
          · rw [max_eq_right h] at this; omega
          · rw [max_eq_left h] at this; omega
        rcases hex with h | h
        · refine (mag_top_iff G hx hxa).2 ⟨h, fun hm => ?_⟩
          have := hx.exp_of_zero hxa hm; omega
        · rw [hm1]
          refine (mag_top_iff G hy hya).2 ⟨h, fun hm => ?_⟩
          have := hy.exp_of_zero hya hm; omega
      have hs : x.sign ≠ y.sign := by
        intro h
        rw [hm2 h] at htopx
        have : (0:ℝ) < 2 ^ (f.eMax - 1) := by positivity
        linarith
      rw [if_neg hs] at h1
      exact Or.inr (Or.inr (Or.inl ⟨htop.2, ⟨x.sign, y.sign, x.mag f, hdx, by rw [hdy, hm1], hs, htopx⟩, h1⟩))
    · rw [if_neg htop] at h1
      by_cases hs : x.sign = y.sign
      · left
        rw [if_pos hs] at h1
        rw [h1]
        refine ⟨Flt.Valid.zero _, ?_⟩
        rw [hdx, hdy]
        simp only [Ieee.Add]
        rw [← sval_eq_signed, ← sval_eq_signed]
        refine ⟨fun _ => ?_, fun h => absurd h0 h⟩
        rw [if_pos hs]; simp [Flt.datum]
      · rw [if_neg hs] at h1
        cases c1 with
        | true =>
          left
          rw [h1]
          refine ⟨Flt.Valid.zero _, ?_⟩
          rw [hdx, hdy]
          simp only [Ieee.Add]
          rw [← sval_eq_signed, ← sval_eq_signed]
          refine ⟨fun _ => ?_, fun h => absurd h0 h⟩
          rw [if_neg hs]; simp [Flt.datum]
        | false =>
          exact Or.inr (Or.inl ⟨rfl, x.mag f, hdx, by rw [hdy, hm1], hs, h1⟩)
  · obtain ⟨g1, g2, g3, g4⟩ := hnz h0
    have hadd : Ieee.Add f.ieee (x.datum f) (y.datum f) ((addZ f x y true true).datum f) := by
      rw [hdx, hdy]
      simp only [Ieee.Add]
      rw [← sval_eq_signed, ← sval_eq_signed]
      exact ⟨fun h => absurd h h0, fun _ => g3⟩
    rw [g1 c1 true c2]
    cases c2 with
    | true => exact Or.inl ⟨g2, hadd⟩
    | false =>
      rcases g4 with ⟨g4, _⟩ | g4
      · rw [g4]; exact Or.inl ⟨g2, hadd⟩
      · refine Or.inr (Or.inr (Or.inr ⟨rfl, x.sign, x.mag f, y.sign, y.mag f, hdx, hdy, ?_, ?_⟩))
        · rw [← sval_eq_signed, ← sval_eq_signed]; exact h0
        · rw [← sval_eq_signed, ← sval_eq_signed]; exact g4

theorem abn_of_eMax {p b : ℕ} [Fact p.Prime] (G : Good p b f) {x y : Flt} (hx : x.Valid f) (hy : y.Valid f) :
    x.exp = f.eMax ∨ y.exp = f.eMax → x.abn = true ∨ y.abn = true := by
  rintro (h | h)
  · cases ha : x.abn
    · have := hx.exp_fin G ha; omega
    · exact Or.inl rfl
  · cases ha : y.abn
    · have := hy.exp_fin G ha; omega
    · exact Or.inr rfl

theorem overflowed_var {p : ℕ} {f : Fmt} {s : Bool} {v : ℝ} {z : Flt} (h : Pseudo f s v z) {r : FloatVar p}
    (hr : Overflowed f s v r) : r = z.toVar := by
  obtain ⟨n, h1, h2, h3, rfl⟩ := hr
  have h4 := h3.unique h.rne
  have hp : (0:ℝ) < 2 ^ (f.eMax - (f.M:ℤ)) := by positivity
  have h5 : (n:ℝ) = z.man := mul_right_cancel₀ hp.ne' h4
  have h6 : n = z.man := by exact_mod_cast h5
  unfold Flt.toVar
  rw [h.sign, h.abn, h.exp, h6]
  cases s <;> simp [Fmt.eMax]

theorem overflowed_not_noTop {p : ℕ} {f : Fmt} {s : Bool} {v : ℝ} {r : FloatVar p} (hr : Overflowed f s v r) :
    ¬ NoTop f v := by
  obtain ⟨n, h1, h2, h3, rfl⟩ := hr
  intro h
  exact h _ h3 ⟨pow_real_ge (f := f) (e := f.eMax) h1, pow_real_lt (f := f) (e := f.eMax) h2⟩

/-- The malformed record is not the encoding of any datum. -/
theorem overflowed_not_encodes {p b : ℕ} [Fact p.Prime] {f : Fmt} (G : Good p b f) {s : Bool} {v : ℝ} {r : FloatVar p}
    (hr : Overflowed f s v r) : ¬ ∃ d, Encodes f r d := by
  obtain ⟨n, h1, h2, h3, rfl⟩ := hr
  rintro ⟨d, he⟩
  obtain ⟨x, hx, _, h⟩ := encodes_iff.1 he
  unfold Flt.toVar at h
  injection h with _ he _ ha
  have hab : x.abn = false := by
    have : (B false : ZMod p) = B x.abn := by rw [B_false]; exact ha
    exact (B_inj.1 this).symm
  have h4 := hx.exp_fin G hab
  have h5 := hx.exp_ge G
  have e1 : ((2:ZMod p) ^ (f.E - 1)) = ((f.eMax : ℤ) : ZMod p) := by unfold Fmt.eMax; push_cast; rfl
  rw [e1] at he
  have hE := G.hE
  have hEM := G.hEM
  have hMz := G.hMz
  have hzE := G.zE1
  have hmn := f.eMin_eq
  have hpE : (2:ℤ) ^ (f.E + 1) ≤ p := by exact_mod_cast G.pow_le (k := f.E + 1) (by omega)
  rw [intCast_inj (by rw [abs_lt]; constructor <;> omega)] at he
  omega

/-- Integer-level negation. -/
def Flt.neg (x : Flt) : Flt := ⟨!x.sign, x.exp, x.man, x.abn⟩

/-- Integer-level absolute value. -/
def Flt.abs (x : Flt) : Flt := ⟨false, x.exp, x.man, x.abn⟩

theorem Flt.Valid.withSign {x : Flt} (hx : x.Valid f) (s : Bool) : Flt.Valid f ⟨s, x.exp, x.man, x.abn⟩ := by
  cases hx with
  | nan => exact .nan s
  | inf => exact .inf s
  | zero => exact .zero s
  | fin _ e m h1 h2 h3 h4 h5 => exact .fin s e m h1 h2 h3 h4 h5

theorem Flt.Valid.neg {x : Flt} (hx : x.Valid f) : x.neg.Valid f := hx.withSign _
theorem Flt.Valid.abs {x : Flt} (hx : x.Valid f) : x.abs.Valid f := hx.withSign _

theorem fNeg_toVar {p : ℕ} (x : Flt) : fNeg (x.toVar : FloatVar p) = x.neg.toVar := by
  unfold fNeg Flt.toVar Flt.neg; simp only [not_B]

theorem fAbs_toVar {p : ℕ} (x : Flt) : fAbs (x.toVar : FloatVar p) = x.abs.toVar := by
  unfold fAbs Flt.toVar Flt.abs; simp

theorem neg_datum (x : Flt) : x.neg.datum f = (x.datum f).neg := by
  unfold Flt.datum Flt.neg
  cases x.abn <;> simp [Ieee.Datum.neg]
  split <;> simp

theorem abs_datum (x : Flt) : x.abs.datum f = (x.datum f).abs := by
  unfold Flt.datum Flt.abs
  cases x.abn <;> simp [Ieee.Datum.abs]
  split <;> simp

theorem encodes_neg {p : ℕ} {x : FloatVar p} {d : Ieee.Datum} (h : Encodes f x d) : Encodes f (fNeg x) d.neg := by
  obtain ⟨x, hx, rfl, rfl⟩ := encodes_iff.1 h
  exact encodes_iff.2 ⟨x.neg, hx.neg, neg_datum x, fNeg_toVar x⟩

theorem encodes_abs {p : ℕ} {x : FloatVar p} {d : Ieee.Datum} (h : Encodes f x d) : Encodes f (fAbs x) d.abs := by
  obtain ⟨x, hx, rfl, rfl⟩ := encodes_iff.1 h
  exact encodes_iff.2 ⟨x.abs, hx.abs, abs_datum x, fAbs_toVar x⟩

theorem signed_not (s : Bool) (a : ℝ) : Ieee.signed (!s) a = - Ieee.signed s a := by
  cases s <;> simp [Ieee.signed]

/-- Subtraction is addition of the negated operand. -/
theorem sub_iff_add_neg {F : Ieee.Format} {x y d : Ieee.Datum} : Ieee.Sub F x y d ↔ Ieee.Add F x y.neg d := by
  cases x <;> cases y <;> simp only [Ieee.Sub, Ieee.Add, Ieee.Datum.neg]
  · rename_i s t; cases s <;> cases t <;> simp
  · rename_i s a t c
    rw [signed_not, ← sub_eq_add_neg]
    have : (if s = t then false else s) = (if s = !t then s else false) := by cases s <;> cases t <;> rfl
    rw [this]

theorem datum_fin_iff {x : Flt} {s : Bool} {a : ℝ} :
    x.datum f = .fin s a ↔ x.abn = false ∧ s = x.sign ∧ a = x.mag f := by
  constructor
  · intro h
    cases ha : x.abn
    · rw [datum_fin ha] at h
      injection h with h1 h2
      exact ⟨rfl, h1.symm, h2.symm⟩
    · unfold Flt.datum at h; rw [ha] at h; simp at h; split at h <;> cases h
  · rintro ⟨h, rfl, rfl⟩; exact datum_fin h

theorem mag_eq_zero {x : Flt} : x.mag f = 0 ↔ x.man = 0 := by
  unfold Flt.mag
  have : (2:ℝ) ^ (x.exp - (f.M:ℤ)) ≠ 0 := by positivity
  simp [this]

theorem valid_zero_eq {z : Flt} {u : Bool} (hz : z.Valid f) (h : z.datum f = .fin u 0) : z = ⟨u, f.eMin, 0, false⟩ := by
  obtain ⟨ha, rfl, hm⟩ := datum_fin_iff.1 h
  have hm := mag_eq_zero.1 hm.symm
  have he := hz.exp_of_zero ha hm
  ext <;> simp [ha, hm, he]

theorem valid_inf_eq {z : Flt} {u : Bool} (hz : z.Valid f) (h : z.datum f = .inf u) : z = ⟨u, f.eMax, 2 ^ f.M, true⟩ := by
  cases hz with
  | nan s => simp [Flt.datum] at h
  | inf s => simp [Flt.datum] at h; rw [h]
  | zero s => simp [Flt.datum] at h
  | fin s e m => simp [Flt.datum] at h

theorem add_outcomes_noncancel {p b : ℕ} [Fact p.Prime] (G : Good p b f) {x y : Flt} (hx : x.Valid f) (hy : y.Valid f)
    (hxa : x.abn = false) (hya : y.abn = false)
    (hc : ¬ ∃ s t a, x.datum f = .fin s a ∧ y.datum f = .fin t a ∧ s ≠ t) (c1 c2 : Bool) :
    addZ f x y c1 c2 = addZ f x y true true ∨
    (∃ s a t c, x.datum f = .fin s a ∧ y.datum f = .fin t c ∧ Ieee.signed s a + Ieee.signed t c ≠ 0 ∧
      Pseudo f (decide (Ieee.signed s a + Ieee.signed t c < 0)) |Ieee.signed s a + Ieee.signed t c| (addZ f x y c1 c2)) := by
  obtain ⟨hnz, hz⟩ := addZ_finite G hx hy hxa hya
  by_cases h0 : x.sval f + y.sval f = 0
  · obtain ⟨hm1, hm2⟩ := cancel_mag h0
    have hs : x.sign = y.sign := by
      by_contra hs
      exact hc ⟨x.sign, y.sign, x.mag f, datum_fin hxa, by rw [datum_fin hya, hm1], hs⟩
    left
    rw [hz h0, hz h0]
    have hmx : x.man = 0 := mag_eq_zero.1 (hm2 hs)
    have hmy : y.man = 0 := mag_eq_zero.1 (by rw [← hm1]; exact hm2 hs)
    have h1 := hx.exp_of_zero hxa hmx
    have h2 := hy.exp_of_zero hya hmy
    have hMz := G.hMz
    have hmn := f.eMin_eq
    have : ¬ (max x.exp y.exp + 1 = f.eMax) := by rw [h1, h2, max_self]; omega
    simp [this, hs]
  · obtain ⟨g1, g2, g3, g4⟩ := hnz h0
    rw [g1 c1 true c2]
    cases c2 with
    | true => exact Or.inl rfl
    | false =>
      rcases g4 with ⟨g4, _⟩ | g4
      · exact Or.inl g4
      · refine Or.inr ⟨x.sign, x.mag f, y.sign, y.mag f, datum_fin hxa, datum_fin hya, ?_, ?_⟩
        · rw [← sval_eq_signed, ← sval_eq_signed]; exact h0
        · rw [← sval_eq_signed, ← sval_eq_signed]; exact g4

end ZkLoc
