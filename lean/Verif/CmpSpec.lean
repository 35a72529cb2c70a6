import Verif.ArithBridge

/-!
# Comparison gadget: circuit level and meaning
-/

namespace ZkLoc

variable {p : ℕ} [Fact p.Prime] {b : ℕ} {f : Fmt} {H : Prop}

/-- The record is a NaN. -/
def Flt.isNaN (x : Flt) : Bool := x.abn && decide (x.man = 0)

/-- Integer-level result of `less`. -/
def lessZ (x y : Flt) (a : Bool) : Bool :=
  if x.isNaN || y.isNaN then false
  else if x.sign = y.sign then
    (if x.exp = y.exp then
      (if x.man = y.man then a else if x.sign then decide (y.man ≤ x.man) else !decide (y.man ≤ x.man))
     else if x.sign then decide (y.exp ≤ x.exp) else !decide (y.exp ≤ x.exp))
  else if x.man + y.man = 0 then a else x.sign

theorem gIsEq_int {z w : ℤ} (h : |z - w| < p) : gIsEq ((z : ℤ) : ZMod p) ((w : ℤ) : ZMod p) = B (decide (z = w)) := by
  rw [gIsEq_eq]
  congr 1
  exact decide_eq_decide.2 (intCast_inj h)

theorem gIsEq_nat {m n : ℕ} (hm : m < p) (hn : n < p) :
    gIsEq ((m : ℕ) : ZMod p) ((n : ℕ) : ZMod p) = B (decide (m = n)) := by
  rw [gIsEq_eq]
  congr 1
  exact decide_eq_decide.2 (natCast_inj hm hn)

theorem eitherNaN_spec (G : Good p b f) {x y : Flt} (hx : x.man < 2 ^ (f.M + 1)) (hy : y.man < 2 ^ (f.M + 1)) :
    Det b H (eitherNaN (x.toVar : FloatVar p) y.toVar) (B (x.isNaN || y.isNaN)) := by
  unfold eitherNaN
  simp only [Circ.bind_eq, Flt.toVar]
  rw [isZero_nat G (G.lt_of_lt_pow hx (by omega)), isZero_nat G (G.lt_of_lt_pow hy (by omega))]
  refine Spec.det_bind (and_spec _ _) ?_
  refine Spec.det_bind (and_spec _ _) ?_
  exact or_spec _ _

theorem ite_B (c x y : Bool) : (if c = true then (B x : ZMod p) else B y) = B (if c then x else y) := by
  cases c <;> rfl

theorem natCast_B (a : Bool) : (((if a then 1 else 0 : ℕ)) : ZMod p) = B a := by
  cases a <;> simp [B]

theorem fLess_spec (G : Good p b f) {x y : Flt} (hx : x.Bdd f) (hy : y.Bdd f) (a : Bool) :
    Det b H (fLess f (x.toVar : FloatVar p) y.toVar (if a then 1 else 0)) (B (lessZ x y a)) := by
  have hE := G.hE
  have hEM := G.hEM
  have hM := G.hMz
  have hNm := f.eNormalMin_eq
  have hmn := f.eMin_eq
  obtain ⟨hx1, hx2, hx3⟩ := hx
  obtain ⟨hy1, hy2, hy3⟩ := hy
  have hxp := G.lt_of_lt_pow hx1 (by omega)
  have hyp := G.lt_of_lt_pow hy1 (by omega)
  have hpz : (2:ℤ) ^ (f.E + 1) ≤ 2 ^ (f.M + 1) := pow_le_pow_right₀ (by norm_num) (by omega)
  have hpz2 : (2:ℤ) ^ (f.M + 1) < p := by exact_mod_cast G.pow_lt (k := f.M + 1) (by omega)
  have hE1 := G.zE1
  have hed : |x.exp - y.exp| < 2 ^ (f.E + 1) := by rw [abs_lt]; constructor <;> omega
  have hmd : |(x.man : ℤ) - y.man| < 2 ^ (f.M + 1) := by
    have h1 : (x.man : ℤ) < 2 ^ (f.M + 1) := by exact_mod_cast hx1
    have h2 : (y.man : ℤ) < 2 ^ (f.M + 1) := by exact_mod_cast hy1
    rw [abs_lt]; constructor <;> omega
  unfold fLess
  simp only [Circ.bind_eq]
  have e1 : (x.toVar : FloatVar p).exponent - (y.toVar : FloatVar p).exponent = ((x.exp - y.exp : ℤ) : ZMod p) := by
    simp [Flt.toVar]
  have e2 : (x.toVar : FloatVar p).mantissa - (y.toVar : FloatVar p).mantissa = (((x.man : ℤ) - y.man : ℤ) : ZMod p) := by
    simp [Flt.toVar]
  have e3 : (x.toVar : FloatVar p).mantissa + (y.toVar : FloatVar p).mantissa = ((x.man + y.man : ℕ) : ZMod p) := by
    simp [Flt.toVar]
  have e4 : gIsEq (x.toVar : FloatVar p).exponent (y.toVar : FloatVar p).exponent = B (decide (x.exp = y.exp)) :=
    gIsEq_int (lt_of_lt_of_le hed (by linarith))
  have e5 : gIsEq (x.toVar : FloatVar p).mantissa (y.toVar : FloatVar p).mantissa = B (decide (x.man = y.man)) :=
    gIsEq_nat hxp hyp
  have e6 : gIsEq (x.toVar : FloatVar p).sign (y.toVar : FloatVar p).sign = B (decide (x.sign = y.sign)) := gIsEq_B _ _
  have e7 : isZero ((x.man + y.man : ℕ) : ZMod p) = B (decide (x.man + y.man = 0)) := by
    refine isZero_nat G ?_
    have h1 : x.man + y.man < 2 ^ (f.M + 2) := by rw [show f.M + 2 = f.M + 1 + 1 by ring, pow_succ]; omega
    exact G.lt_of_lt_pow h1 (by omega)
  have hs : (x.toVar : FloatVar p).sign = B x.sign := rfl
  rw [e1, e2, e3, e4, e5, e6, e7, hs, natCast_B]
  refine (Spec.bind_pos G.width (by omega) hed (G.pow_le (by omega)) (w := fun _ => B (lessZ x y a))
    (T := fun _ r => r = B (lessZ x y a)) ?_).congr rfl ?_
  · intro c hc1 hc2
    refine (Spec.bind_pos G.width (by omega) hmd (G.pow_le (by omega)) (w := fun _ => B (lessZ x y a))
      (T := fun _ r => r = B (lessZ x y a)) ?_).congr rfl ?_
    · intro d hd1 hd2
      refine Spec.det_bind (eitherNaN_spec G hx1 hy1) ?_
      rw [not_B, not_B]
      refine Spec.det_bind (select_spec _ _ _) ?_
      rw [ite_B]
      refine Spec.det_bind (select_spec _ _ _) ?_
      rw [ite_B]
      refine Spec.det_bind (select_spec _ _ _) ?_
      rw [ite_B]
      refine Spec.det_bind (select_spec _ _ _) ?_
      rw [ite_B]
      refine Spec.det_bind (select_spec _ _ _) ?_
      rw [ite_B]
      refine Spec.det_bind (select_spec _ _ _) ?_
      rw [ite_B]
      rw [show (0 : ZMod p) = B false from rfl]
      refine (select_spec _ _ _).congr ?_ ?_
      all_goals
        rw [ite_B]
        have key : (if x.isNaN || y.isNaN then false else
            if decide (x.sign = y.sign) then
              if decide (x.exp = y.exp) then if decide (x.man = y.man) then a else if x.sign then d else !d
              else if x.sign then c else !c
            else if decide (x.man + y.man = 0) then a else x.sign) = lessZ x y a := by
          unfold lessZ
          by_cases h1 : (x.isNaN || y.isNaN) = true
          · simp [h1]
          by_cases h2 : x.sign = y.sign
          · by_cases h3 : x.exp = y.exp
            · by_cases h4 : x.man = y.man
              · simp [h1, h2, h3, h4]
              · have hd : d = decide (y.man ≤ x.man) := by
                  by_cases h5 : y.man ≤ x.man
                  · rw [decide_eq_true h5]; exact hd1 (by omega)
                  · rw [decide_eq_false h5]; exact hd2 (by omega)
                simp [h1, h2, h3, h4, hd]
            · have hc : c = decide (y.exp ≤ x.exp) := by
                by_cases h5 : y.exp ≤ x.exp
                · rw [decide_eq_true h5]; exact hc1 (by omega)
                · rw [decide_eq_false h5]; exact hc2 (by omega)
              simp [h1, h2, h3, hc]
          · simp [h1, h2]
        rw [← key]
      intro r; rfl
    · intro r
      constructor
      · rintro ⟨c, _, _, h⟩; exact h
      · intro h; exact ⟨decide (0 ≤ (x.man : ℤ) - y.man), by intro h; simp; omega, by intro h; simp; omega, h⟩
  · intro r
    constructor
    · rintro ⟨c, _, _, h⟩; exact h
    · intro h; exact ⟨decide (0 ≤ x.exp - y.exp), by intro h; simp; omega, by intro h; simp; omega, h⟩

end ZkLoc
