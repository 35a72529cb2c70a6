import Verif.RealErr
import Verif.HexReal

/-!
# Helper lemmas: bit decomposition and scaling by the resolution
-/

namespace ZkLoc

variable {p : ℕ} [Fact p.Prime] {b : ℕ} {f : Fmt} {m : Prover} {g : GeoConsts}

/-- Value of bits, least significant first. -/
def bitsVal : List Bool → ℕ
  | [] => 0
  | c :: cs => (if c then 1 else 0) + 2 * bitsVal cs

theorem bitsVal_lt (cs : List Bool) : bitsVal cs < 2 ^ cs.length := by
  induction cs with
  | nil => simp [bitsVal]
  | cons c cs ih => simp only [bitsVal, List.length_cons, pow_succ]; split <;> omega

theorem bitsOf_bitsVal (cs : List Bool) : H3.bitsOf cs.length (bitsVal cs) = cs := by
  induction cs with
  | nil => rfl
  | cons c cs ih =>
    simp only [bitsVal, List.length_cons, H3.bitsOf]
    cases c
    · simp only [Bool.false_eq_true, if_false]
      rw [show (0 + 2 * bitsVal cs) % 2 = 0 by omega, show (0 + 2 * bitsVal cs) / 2 = bitsVal cs by omega, ih]; rfl
    · simp only [if_true]
      rw [show (1 + 2 * bitsVal cs) % 2 = 1 by omega, show (1 + 2 * bitsVal cs) / 2 = bitsVal cs by omega, ih]; rfl

theorem bitsOf_length (n t : ℕ) : (H3.bitsOf n t).length = n := by
  induction n generalizing t with
  | zero => rfl
  | succ n ih => simp [H3.bitsOf, ih]

theorem bitsVal_bitsOf (n t : ℕ) : bitsVal (H3.bitsOf n t) = t % 2 ^ n := by
  induction n generalizing t with
  | zero => simp [H3.bitsOf, bitsVal, Nat.mod_one]
  | succ n ih =>
    simp only [H3.bitsOf, bitsVal, ih, decide_eq_true_eq]
    rw [pow_succ, mul_comm (2 ^ n) 2, Nat.mod_mul]
    split <;> omega

theorem compose_bits (cs : List Bool) : compose 1 (cs.map (fun c => (B c : ZMod p))) = (bitsVal cs : ZMod p) := by
  induction cs with
  | nil => simp [compose, bitsVal]
  | cons c cs ih => simp only [List.map_cons, compose, bitsVal, ih]; cases c <;> simp [B]

theorem bitWires_ok (v : ZMod p) (n i : ℕ) : Ok m b (bitWires v n i) (fun r => ∃ cs : List Bool, cs.length = n ∧
    r = cs.map (fun c => (B c : ZMod p)) ∧ (m = .honest → cs = H3.bitsOf n (v.val / 2 ^ i))) := by
  induction n generalizing i with
  | zero => exact .pure ⟨[], rfl, rfl, fun _ => rfl⟩
  | succ n ih =>
    unfold bitWires
    simp only [Circ.bind_eq, Circ.pure_eq]
    refine Ok.bind (Q := fun r => m = .honest → r = B (decide (v.val / 2 ^ i % 2 = 1))) ?_ ?_
    · cases m with
      | honest =>
        refine ⟨_, rfl, fun _ => ?_⟩
        rcases Nat.mod_two_eq_zero_or_one (v.val / 2 ^ i) with h | h <;> simp [h, B]
      | any st => exact fun r hr h => by cases h
    intro r hr
    refine Ok.bind (Q := fun _ => isBool r = true) ?_ ?_
    · cases m with
      | honest => exact ⟨(), by rw [hr rfl]; simp [assertIsBoolean, Circ.run, isBool_B], by rw [hr rfl]; exact isBool_B _⟩
      | any st => intro u hu; simp only [assertIsBoolean, Circ.Sat] at hu; exact hu.1
    intro _ hb
    obtain ⟨c, rfl⟩ := (isBool_iff r).1 hb
    refine (ih (i + 1)).bind ?_
    rintro _ ⟨cs, h1, rfl, h3⟩
    refine .pure ⟨c :: cs, by simp [h1], rfl, fun h => ?_⟩
    rw [h3 h, H3.bitsOf, B_inj.1 (hr h), Nat.div_div_eq_div_mul, ← pow_succ]

theorem toBinary_ok (v : ZMod p) (n : ℕ) (hn : 2 ^ n ≤ p) (hv : m = .honest → v.val < 2 ^ n) :
    Ok m b (toBinary v n) (fun r => v.val < 2 ^ n ∧ r = (H3.bitsOf n v.val).map (fun c => (B c : ZMod p))) := by
  unfold toBinary
  simp only [Circ.bind_eq, Circ.pure_eq]
  refine (bitWires_ok v n 0).bind ?_
  rintro _ ⟨cs, h1, rfl, h3⟩
  have hlt := bitsVal_lt cs
  rw [h1] at hlt
  refine Ok.bind (Q := fun _ => v = (bitsVal cs : ZMod p)) ?_ ?_
  · rw [compose_bits]
    cases m with
    | honest =>
      have : (bitsVal cs : ZMod p) = v := by
        rw [h3 rfl, bitsVal_bitsOf, pow_zero, Nat.div_one, Nat.mod_eq_of_lt (hv rfl), ZMod.natCast_zmod_val]
      exact ⟨(), by simp [assertIsEqual, Circ.run, this], this.symm⟩
    | any st => intro u hu; simp only [assertIsEqual, Circ.Sat, decide_eq_true_eq] at hu; exact hu.1.symm
  intro _ hv'
  have hval : v.val = bitsVal cs := by rw [hv', ZMod.val_natCast_of_lt (by omega)]
  refine .pure ⟨by omega, ?_⟩
  rw [hval, ← h1, bitsOf_bitsVal]

/-- The wires of a positive number. -/
theorem Num.pos_wires {x : FloatVar p} {v : ℝ} (h : Num f x v) (hv : 0 < v) : x = ⟨0, x.exponent, x.mantissa, 0⟩ := by
  obtain ⟨s, h1, _, h3⟩ := h.sign
  rw [h3 hv] at h1
  obtain ⟨s, a, h4, _⟩ := h
  obtain ⟨x, hx, hd, rfl⟩ := encodes_iff.1 h4
  obtain ⟨ha, _, _⟩ := datum_fin_iff.1 hd
  have h2 : (x.toVar : FloatVar p).isAbnormal = 0 := by simp [Flt.toVar, ha, B]
  have h1' : (x.toVar : FloatVar p).sign = 0 := h1
  have key : ∀ y : FloatVar p, y.sign = 0 → y.isAbnormal = 0 → y = ⟨0, y.exponent, y.mantissa, 0⟩ := by
    rintro ⟨_, _, _, _⟩ rfl rfl; rfl
  exact key _ h1' h2

/-- The powers of the scaling constant. -/
structure ScaleConsts (p : ℕ) (f : Fmt) (g : GeoConsts) (q0 q1 q2 q3 : ℝ) : Prop where
  one : Num f (newConstant f g.one : FloatVar p) 1
  powers : ∃ c0 c1 c2 c3, g.powers = [c0, c1, c2, c3] ∧ Num f (newConstant f c0 : FloatVar p) q0 ∧ Num f (newConstant f c1 : FloatVar p) q1 ∧
    Num f (newConstant f c2 : FloatVar p) q2 ∧ Num f (newConstant f c3 : FloatVar p) q3
  le0 : 1 ≤ q0 ∧ q0 ≤ 2 ^ 2
  le1 : 1 ≤ q1 ∧ q1 ≤ 2 ^ 3
  le2 : 1 ≤ q2 ∧ q2 ≤ 2 ^ 6
  le3 : 1 ≤ q3 ∧ q3 ≤ 2 ^ 12

theorem scaleStep_ok (G : Good p b f) (hm : m.Fits b f) {x : FloatVar p} {v q : ℝ} {c : ℕ} {j k : ℕ} (hx : Num f x v) (hv1 : 1 ≤ v) (hv : v ≤ 2 ^ j)
    (hc : Num f (newConstant f c : FloatVar p) q) (hq1 : 1 ≤ q) (hq : q ≤ 2 ^ k) (hjk : j + k ≤ 29) (bit : Bool) {bits : List (ZMod p)} {cs : List ℕ}
    {Q : FloatVar p → Prop} (hk : ∀ x' w, Num f x' w → 1 ≤ w → w ≤ 2 ^ (j + k) → (if bit then Rn f (v * q) w else w = v) →
      Ok m b (scaleLoop f bits cs x') Q) :
    Ok m b (scaleLoop f (B bit :: bits) (c :: cs) x) Q := by
  have hbig := big_ge G
  rw [scaleLoop]
  simp only [Circ.bind_eq]
  have hle : v * q ≤ 2 ^ (j + k) := by rw [pow_add]; exact mul_le_mul hv hq (by linarith) (by positivity)
  have hge : 1 ≤ v * q := by nlinarith
  have h29 : (2:ℝ) ^ (j + k) ≤ 2 ^ 29 := pow_le_pow_right₀ (by norm_num) hjk
  have habs : |v * q| ≤ 2 ^ (j + k) := by rw [abs_of_nonneg (by linarith)]; exact hle
  refine (ok_mul G hm hx hc (by linarith)).bind ?_
  rintro t ⟨w, hw, hr⟩
  have hw1 : 1 ≤ w := hr.ge (by simpa using powRepr G 0) hge
  have hw2 := hr.abs_le_pow G _ habs
  rw [abs_of_nonneg (by linarith)] at hw2
  refine (Ok.select bit _ _).bind ?_
  rintro _ rfl
  refine (Ok.select bit _ _).bind ?_
  rintro _ rfl
  have e : (⟨0, if bit then t.exponent else x.exponent, if bit then t.mantissa else x.mantissa, 0⟩ : FloatVar p) = if bit then t else x := by
    cases bit
    · simp only [Bool.false_eq_true, if_false]; exact (hx.pos_wires (by linarith)).symm
    · simp only [if_true]; exact (hw.pos_wires (by linarith)).symm
  rw [e]
  cases bit
  · refine hk x v hx hv1 (hv.trans (pow_le_pow_right₀ (by norm_num) (by omega))) (by simp)
  · exact hk t w hw hw1 hw2 (by simpa using hr)

theorem scaleR_ok (G : Good p b f) (hm : m.Fits b f) {q0 q1 q2 q3 : ℝ} (K : ScaleConsts p f g q0 q1 q2 q3) {r : FloatVar p} {u : ℝ}
    (hr : Num f r u) (hu : |u| ≤ 2 ^ 6) {res : ZMod p} (hres : m = .honest → res.val < 16) :
    Ok m b (scaleR f g r res) (fun r' => ∃ n : ℕ, n < 16 ∧ res = (n : ZMod p) ∧ ∃ μ w, 1 ≤ μ ∧ μ ≤ 2 ^ 23 ∧
      H3.ScaleLoop (Rn f) (H3.bitsOf 4 n) [q0, q1, q2, q3] 1 μ ∧ Rn f (u * μ) w ∧ Num f r' w) := by
  have hbig := big_ge G
  have hp : 2 ^ 4 ≤ p := (Nat.pow_le_pow_right (by norm_num) (by omega)).trans G.hp
  unfold scaleR
  simp only [Circ.bind_eq]
  refine (toBinary_ok res 4 hp (fun h => hres h)).bind ?_
  rintro _ ⟨hlt, rfl⟩
  obtain ⟨c0, c1, c2, c3, e, n0, n1, n2, n3⟩ := K.powers
  rw [e]
  obtain ⟨n, hn⟩ : ∃ n, n = res.val := ⟨_, rfl⟩
  refine Ok.bind (Q := fun r' => ∃ μ, Num f r' μ ∧ 1 ≤ μ ∧ μ ≤ 2 ^ 23 ∧ H3.ScaleLoop (Rn f) (H3.bitsOf 4 res.val) [q0, q1, q2, q3] 1 μ) ?_ ?_
  · simp only [H3.bitsOf, List.map_cons, List.map_nil]
    refine scaleStep_ok (j := 0) (k := 2) G hm K.one le_rfl (by norm_num) n0 K.le0.1 K.le0.2 (by norm_num) _ ?_
    intro x0 w0 hx0 h10 hl0 hr0
    refine scaleStep_ok (j := 2) (k := 3) G hm hx0 h10 hl0 n1 K.le1.1 K.le1.2 (by norm_num) _ ?_
    intro x1 w1 hx1 h11 hl1 hr1
    refine scaleStep_ok (j := 5) (k := 6) G hm hx1 h11 hl1 n2 K.le2.1 K.le2.2 (by norm_num) _ ?_
    intro x2 w2 hx2 h12 hl2 hr2
    refine scaleStep_ok (j := 11) (k := 12) G hm hx2 h12 hl2 n3 K.le3.1 K.le3.2 (by norm_num) _ ?_
    intro x3 w3 hx3 h13 hl3 hr3
    have e : scaleLoop f ([] : List (ZMod p)) [] x3 = Circ.pure x3 := by simp [scaleLoop]
    rw [e]
    refine .pure ⟨w3, hx3, h13, hl3, ?_⟩
    simp only [H3.ScaleLoop]
    have step : ∀ (c : Bool) (v q w : ℝ) (P : ℝ → Prop), (if c then Rn f (v * q) w else w = v) → P w →
        if c then ∃ t, Rn f (v * q) t ∧ P t else P v := by
      intro c v q w P h hp
      cases c
      · simp only [Bool.false_eq_true, if_false] at h ⊢; rwa [← h]
      · simp only [if_true] at h ⊢; exact ⟨w, h, hp⟩
    exact step _ _ _ w0 _ hr0 (step _ _ _ w1 _ hr1 (step _ _ _ w2 _ hr2 (step _ _ _ w3 (fun t => w3 = t) hr3 rfl)))
  · rintro mu ⟨μ, h1, h2, h3, h4⟩
    have hb2 : |u * μ| ≤ 2 ^ 29 := by
      rw [abs_mul, abs_of_nonneg (show 0 ≤ μ by linarith)]
      calc |u| * μ ≤ 2 ^ 6 * 2 ^ 23 := mul_le_mul hu h3 (by linarith) (by positivity)
        _ = 2 ^ 29 := by norm_num
    refine (ok_mul G hm hr h1 (by linarith)).mono ?_
    rintro r' ⟨w, hw, hr'⟩
    exact ⟨res.val, hlt, by rw [ZMod.natCast_zmod_val], μ, w, h2, h3, h4, hr', hw⟩

/-! ### Accuracy of the multiplier -/

/-- Relative closeness of positive numbers. -/
def Within (κ T v : ℝ) : Prop := T * (1 - κ) ≤ v ∧ v ≤ T * (1 + κ)

theorem Within.mul_round (hE : 3 ≤ f.E) {κ η κ' T S v q w : ℝ} (h : Within κ T v) (h' : Within η S q) (hT : 1 ≤ T) (hS : 1 ≤ S) (hκ0 : 0 ≤ κ)
    (hη0 : 0 ≤ η) (hκ : κ ≤ 1 / 4) (hη : η ≤ 1 / 4) (hr : Rn f (v * q) w)
    (hk : (1 + κ) * (1 + η) * (1 + 2 ^ (-(f.M:ℤ) - 1)) ≤ 1 + κ') (hM : 1 ≤ f.M) : Within κ' (T * S) w := by
  obtain ⟨a1, a2⟩ := h
  obtain ⟨b1, b2⟩ := h'
  generalize hε : (2:ℝ) ^ (-(f.M:ℤ) - 1) = ε at hk
  have hε0 : 0 < ε := by rw [← hε]; positivity
  have hε1 : ε ≤ 1 / 4 := by
    rw [← hε, show (1/4:ℝ) = 2 ^ (-2:ℤ) by norm_num]
    exact zpow_le_zpow_right₀ (by norm_num) (by omega)
  have hv : 3 / 4 ≤ v := by nlinarith
  have hq : 3 / 4 ≤ q := by nlinarith
  have hvq : 9 / 16 ≤ v * q := by nlinarith
  have hn : (2:ℝ) ^ (Ieee.Format.emin ⟨f.E, f.M⟩) ≤ |v * q| := by
    rw [abs_of_pos (by linarith)]
    have : (2:ℝ) ^ (Ieee.Format.emin ⟨f.E, f.M⟩) ≤ 2 ^ (0:ℤ) / 2 := by
      rw [show (2:ℝ) ^ (0:ℤ) / 2 = 2 ^ (-1:ℤ) by norm_num]
      refine zpow_le_zpow_right₀ (by norm_num) ?_
      unfold Ieee.Format.emin Ieee.Format.bias
      have h1 : (2:ℤ) ^ 2 ≤ 2 ^ (f.E - 1) := pow_le_pow_right₀ (by norm_num) (by omega)
      simp only
      omega
    norm_num at this ⊢
    linarith
  have hrel := hr.rel hn
  simp only [hε] at hrel
  rw [abs_of_pos (show 0 < v * q by linarith), abs_le] at hrel
  have up : v * q ≤ T * S * ((1 + κ) * (1 + η)) := by
    calc v * q ≤ (T * (1 + κ)) * (S * (1 + η)) := mul_le_mul a2 b2 (by linarith) (by nlinarith)
      _ = _ := by ring
  have lo : T * S * ((1 - κ) * (1 - η)) ≤ v * q := by
    calc T * S * ((1 - κ) * (1 - η)) = (T * (1 - κ)) * (S * (1 - η)) := by ring
      _ ≤ _ := mul_le_mul a1 b1 (by nlinarith) (by linarith)
  have hTS : 1 ≤ T * S := by nlinarith
  constructor
  · have h1 : w ≥ v * q * (1 - ε) := by linarith
    have h2 : T * S * ((1 - κ) * (1 - η)) * (1 - ε) ≤ v * q * (1 - ε) := mul_le_mul_of_nonneg_right lo (by linarith)
    have h3 : 1 - κ' ≤ (1 - κ) * (1 - η) * (1 - ε) := by
      have e1 : κ + η + ε ≤ κ' := by nlinarith [mul_nonneg hκ0 hη0, mul_nonneg hκ0 hε0.le, mul_nonneg hη0 hε0.le, mul_nonneg (mul_nonneg hκ0 hη0) hε0.le]
      have e2 : 1 - κ - η ≤ (1 - κ) * (1 - η) := by nlinarith
      have e3 : (1 - κ - η) * (1 - ε) ≤ (1 - κ) * (1 - η) * (1 - ε) := mul_le_mul_of_nonneg_right e2 (by linarith)
      nlinarith
    have h4 := mul_le_mul_of_nonneg_left h3 (show 0 ≤ T * S by linarith)
    nlinarith
  · have h1 : w ≤ v * q * (1 + ε) := by linarith
    have h2 : v * q * (1 + ε) ≤ T * S * ((1 + κ) * (1 + η)) * (1 + ε) := mul_le_mul_of_nonneg_right up (by linarith)
    have h4 := mul_le_mul_of_nonneg_left hk (show 0 ≤ T * S by linarith)
    nlinarith

omit [Fact p.Prime] in
theorem loop_cons {rn : ℝ → ℝ → Prop} {c : Bool} {bs : List Bool} {q : ℝ} {qs : List ℝ} {μ μ' : ℝ}
    (h : H3.ScaleLoop rn (c :: bs) (q :: qs) μ μ') : ∃ w, (if c then rn (μ * q) w else w = μ) ∧ H3.ScaleLoop rn bs qs w μ' := by
  cases c
  · simp only [H3.ScaleLoop, Bool.false_eq_true, if_false] at h ⊢; exact ⟨μ, rfl, h⟩
  · simp only [H3.ScaleLoop, if_true] at h ⊢; exact h

theorem Within.step (hE : 3 ≤ f.E) (hM : 1 ≤ f.M) {κ η κ' T S v q w : ℝ} {c : Bool} (h : Within κ T v) (h' : Within η S q) (hT : 1 ≤ T) (hS : 1 ≤ S)
    (hκ0 : 0 ≤ κ) (hη0 : 0 ≤ η) (hκ : κ ≤ 1 / 4) (hη : η ≤ 1 / 4) (hr : if c then Rn f (v * q) w else w = v)
    (hk : (1 + κ) * (1 + η) * (1 + 2 ^ (-(f.M:ℤ) - 1)) ≤ 1 + κ') : Within κ' (T * if c then S else 1) w := by
  cases c
  · simp only [Bool.false_eq_true, if_false] at hr ⊢
    subst hr
    have hε0 : (0:ℝ) < 2 ^ (-(f.M:ℤ) - 1) := by positivity
    generalize (2:ℝ) ^ (-(f.M:ℤ) - 1) = ε at hk hε0
    have : κ ≤ κ' := by nlinarith [mul_nonneg hκ0 hη0, mul_nonneg hκ0 hε0.le, mul_nonneg hη0 hε0.le, mul_nonneg (mul_nonneg hκ0 hη0) hε0.le]
    rw [mul_one]
    constructor
    · have := h.1; nlinarith
    · have := h.2; nlinarith
  · simp only [if_true] at hr ⊢
    exact h.mul_round hE h' hT hS hκ0 hη0 hκ hη hr hk hM

/-- Four steps of square-and-multiply. -/
theorem scale_within (hE : 3 ≤ f.E) (hM : 1 ≤ f.M) {q0 q1 q2 q3 s η0 η1 η2 η3 κ0 κ1 κ2 κ3 μ : ℝ} (hs : 1 ≤ s)
    (h0 : Within η0 s q0) (h1 : Within η1 (s ^ 2) q1) (h2 : Within η2 (s ^ 4) q2) (h3 : Within η3 (s ^ 8) q3)
    (p0 : 0 ≤ η0 ∧ η0 ≤ 1 / 4) (p1 : 0 ≤ η1 ∧ η1 ≤ 1 / 4) (p2 : 0 ≤ η2 ∧ η2 ≤ 1 / 4) (p3 : 0 ≤ η3 ∧ η3 ≤ 1 / 4)
    (r0 : 0 ≤ κ0 ∧ κ0 ≤ 1 / 4) (r1 : 0 ≤ κ1 ∧ κ1 ≤ 1 / 4) (r2 : 0 ≤ κ2 ∧ κ2 ≤ 1 / 4)
    (k0 : (1 + 0) * (1 + η0) * (1 + 2 ^ (-(f.M:ℤ) - 1)) ≤ 1 + κ0) (k1 : (1 + κ0) * (1 + η1) * (1 + 2 ^ (-(f.M:ℤ) - 1)) ≤ 1 + κ1)
    (k2 : (1 + κ1) * (1 + η2) * (1 + 2 ^ (-(f.M:ℤ) - 1)) ≤ 1 + κ2) (k3 : (1 + κ2) * (1 + η3) * (1 + 2 ^ (-(f.M:ℤ) - 1)) ≤ 1 + κ3)
    {n : ℕ} (hn : n < 16) (h : H3.ScaleLoop (Rn f) (H3.bitsOf 4 n) [q0, q1, q2, q3] 1 μ) : Within κ3 (s ^ n) μ := by
  simp only [H3.bitsOf] at h
  obtain ⟨w0, a0, h⟩ := loop_cons h
  obtain ⟨w1, a1, h⟩ := loop_cons h
  obtain ⟨w2, a2, h⟩ := loop_cons h
  obtain ⟨w3, a3, h⟩ := loop_cons h
  simp only [H3.ScaleLoop] at h
  subst h
  have hone : ∀ (c : Bool) (k : ℕ), 1 ≤ (if c then s ^ k else 1) := by
    intro c k; cases c
    · simp
    · simpa using one_le_pow₀ hs
  have s0 : Within 0 1 1 := ⟨by norm_num, by norm_num⟩
  have t0 := s0.step hE hM h0 le_rfl hs le_rfl p0.1 (by norm_num) p0.2 a0 k0
  have g0 : 1 ≤ 1 * (if decide (n % 2 = 1) = true then s else 1) := by
    have := hone (decide (n % 2 = 1)) 1; rw [pow_one] at this; linarith
  have t1 := t0.step hE hM h1 g0 (one_le_pow₀ hs) r0.1 p1.1 r0.2 p1.2 a1 k1
  have g1 := one_le_mul_of_one_le_of_one_le g0 (hone (decide (n / 2 % 2 = 1)) 2)
  have t2 := t1.step hE hM h2 g1 (one_le_pow₀ hs) r1.1 p2.1 r1.2 p2.2 a2 k2
  have g2 := one_le_mul_of_one_le_of_one_le g1 (hone (decide (n / 2 / 2 % 2 = 1)) 4)
  have t3 := t2.step hE hM h3 g2 (one_le_pow₀ hs) r2.1 p3.1 r2.2 p3.2 a3 k3
  convert t3 using 1
  interval_cases n <;> norm_num <;> ring

theorem scaleConsts32 : ScaleConsts p f32 geo32 (0xa953fd / 2 ^ 22) (0xdfffff / 2 ^ 21) (0xc3fffe / 2 ^ 18) (0x960ffd / 2 ^ 12) where
  one := num_exact (E := 8) (M := 23) (neg := false) (num := 1) (den := 1) (by norm_num) (by norm_num) (by decide) (by decide +kernel) (by simp [Ieee.signed])
  powers := ⟨_, _, _, _, rfl,
    num_exact (E := 8) (M := 23) (neg := false) (num := 0xa953fd) (den := 2 ^ 22) (by norm_num) (by norm_num) (by decide) (by decide +kernel) (by simp [Ieee.signed]; norm_num),
    num_exact (E := 8) (M := 23) (neg := false) (num := 0xdfffff) (den := 2 ^ 21) (by norm_num) (by norm_num) (by decide) (by decide +kernel) (by simp [Ieee.signed]; norm_num),
    num_exact (E := 8) (M := 23) (neg := false) (num := 0xc3fffe) (den := 2 ^ 18) (by norm_num) (by norm_num) (by decide) (by decide +kernel) (by simp [Ieee.signed]; norm_num),
    num_exact (E := 8) (M := 23) (neg := false) (num := 0x960ffd) (den := 2 ^ 12) (by norm_num) (by norm_num) (by decide) (by decide +kernel) (by simp [Ieee.signed]; norm_num)⟩
  le0 := by norm_num
  le1 := by norm_num
  le2 := by norm_num
  le3 := by norm_num

theorem scaleConsts64 : ScaleConsts p f64 geo64 (0x152a7fa9d2f8ea / 2 ^ 51) (0x1c000000000001 / 2 ^ 50) (0x18800000000002 / 2 ^ 47)
    (0x12c20000000003 / 2 ^ 41) where
  one := num_exact (E := 11) (M := 52) (neg := false) (num := 1) (den := 1) (by norm_num) (by norm_num) (by decide) (by decide +kernel) (by simp [Ieee.signed])
  powers := ⟨_, _, _, _, rfl,
    num_exact (E := 11) (M := 52) (neg := false) (num := 0x152a7fa9d2f8ea) (den := 2 ^ 51) (by norm_num) (by norm_num) (by decide) (by decide +kernel) (by simp [Ieee.signed]; norm_num),
    num_exact (E := 11) (M := 52) (neg := false) (num := 0x1c000000000001) (den := 2 ^ 50) (by norm_num) (by norm_num) (by decide) (by decide +kernel) (by simp [Ieee.signed]; norm_num),
    num_exact (E := 11) (M := 52) (neg := false) (num := 0x18800000000002) (den := 2 ^ 47) (by norm_num) (by norm_num) (by decide) (by decide +kernel) (by simp [Ieee.signed]; norm_num),
    num_exact (E := 11) (M := 52) (neg := false) (num := 0x12c20000000003) (den := 2 ^ 41) (by norm_num) (by norm_num) (by decide) (by decide +kernel) (by simp [Ieee.signed]; norm_num)⟩
  le0 := by norm_num
  le1 := by norm_num
  le2 := by norm_num
  le3 := by norm_num

theorem within_sqrt7 {η q : ℝ} (hη : 0 ≤ η) (hη1 : η ≤ 1) (h1 : 7 * (1 - η) ^ 2 ≤ q ^ 2) (h2 : q ^ 2 ≤ 7 * (1 + η) ^ 2) (hq : 0 ≤ q) : Within η (Real.sqrt 7) q := by
  have hs : Real.sqrt 7 ^ 2 = 7 := Real.sq_sqrt (by norm_num)
  have h0 := Real.sqrt_nonneg 7
  constructor
  · refine abs_le_of_sq_le_sq' ?_ hq |>.2
    rw [mul_pow, hs]; exact h1
  · refine abs_le_of_sq_le_sq' ?_ (by positivity) |>.2
    rw [mul_pow, hs]; exact h2

theorem sqrt7_pows : Real.sqrt 7 ^ 2 = 7 ∧ Real.sqrt 7 ^ 4 = 49 ∧ Real.sqrt 7 ^ 8 = 2401 := by
  have hs : Real.sqrt 7 ^ 2 = 7 := Real.sq_sqrt (by norm_num)
  refine ⟨hs, ?_, ?_⟩
  · rw [show (4:ℕ) = 2 * 2 by norm_num, pow_mul, hs]; norm_num
  · rw [show (8:ℕ) = 2 * 4 by norm_num, pow_mul, hs]; norm_num

theorem one_le_sqrt7 : 1 ≤ Real.sqrt 7 := by rw [Real.one_le_sqrt]; norm_num

theorem scale_accuracy32 {n : ℕ} (hn : n < 16) {μ : ℝ}
    (h : H3.ScaleLoop (Rn f32) (H3.bitsOf 4 n) [0xa953fd / 2 ^ 22, 0xdfffff / 2 ^ 21, 0xc3fffe / 2 ^ 18, 0x960ffd / 2 ^ 12] 1 μ) :
    Within (1 / 2 ^ 20) (Real.sqrt 7 ^ n) μ := by
  obtain ⟨e2, e4, e8⟩ := sqrt7_pows
  have hM : (2:ℝ) ^ (-(f32.M:ℤ) - 1) = 1 / 2 ^ 24 := by rw [show f32.M = 23 from rfl]; norm_num
  refine scale_within (f := f32) (by decide) (by decide) (η0 := 5 / 10 ^ 8) (η1 := 7 / 10 ^ 8) (η2 := 16 / 10 ^ 8) (η3 := 33 / 10 ^ 8)
    (κ0 := 12 / 10 ^ 8) (κ1 := 26 / 10 ^ 8) (κ2 := 49 / 10 ^ 8) one_le_sqrt7 (within_sqrt7 (by norm_num) (by norm_num) (by norm_num) (by norm_num) (by norm_num))
    (by rw [e2]; constructor <;> norm_num) (by rw [e4]; constructor <;> norm_num) (by rw [e8]; constructor <;> norm_num)
    (by norm_num) (by norm_num) (by norm_num) (by norm_num) (by norm_num) (by norm_num) (by norm_num)
    (by rw [hM]; norm_num) (by rw [hM]; norm_num) (by rw [hM]; norm_num) (by rw [hM]; norm_num) hn h

theorem scale_accuracy64 {n : ℕ} (hn : n < 16) {μ : ℝ}
    (h : H3.ScaleLoop (Rn f64) (H3.bitsOf 4 n) [0x152a7fa9d2f8ea / 2 ^ 51, 0x1c000000000001 / 2 ^ 50, 0x18800000000002 / 2 ^ 47,
      0x12c20000000003 / 2 ^ 41] 1 μ) :
    Within (1 / 2 ^ 49) (Real.sqrt 7 ^ n) μ := by
  obtain ⟨e2, e4, e8⟩ := sqrt7_pows
  have hM : (2:ℝ) ^ (-(f64.M:ℤ) - 1) = 1 / 2 ^ 53 := by rw [show f64.M = 52 from rfl]; norm_num
  refine scale_within (f := f64) (by decide) (by decide) (η0 := 7 / 10 ^ 17) (η1 := 13 / 10 ^ 17) (η2 := 30 / 10 ^ 17) (η3 := 57 / 10 ^ 17)
    (κ0 := 19 / 10 ^ 17) (κ1 := 44 / 10 ^ 17) (κ2 := 86 / 10 ^ 17) one_le_sqrt7 (within_sqrt7 (by norm_num) (by norm_num) (by norm_num) (by norm_num) (by norm_num))
    (by rw [e2]; constructor <;> norm_num) (by rw [e4]; constructor <;> norm_num) (by rw [e8]; constructor <;> norm_num)
    (by norm_num) (by norm_num) (by norm_num) (by norm_num) (by norm_num) (by norm_num) (by norm_num)
    (by rw [hM]; norm_num) (by rw [hM]; norm_num) (by rw [hM]; norm_num) (by rw [hM]; norm_num) hn h

end ZkLoc
