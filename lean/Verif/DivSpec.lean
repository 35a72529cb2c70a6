import Verif.MulSpec

/-!
# Helper lemmas: circuit-level specification of `Div`
-/

namespace ZkLoc

variable {p : ℕ} [Fact p.Prime] {b : ℕ} {H : Prop} {f : Fmt}

theorem checkSat_loose_int' (hb : Width b) {z : ℤ} {bits C : ℕ} (hn : 0 < bits)
    (hz : |z| ≤ 2 ^ C) (hC : bits + 16 ≤ C) (hp : 2 ^ (C + 2) ≤ p)
    (h : CheckSat b ((z : ℤ) : ZMod p) bits .loose) : 0 ≤ z := by
  rw [checkSat_loose_iff hb.pos hn] at h
  have h2 := hb.mul_le hn
  have h3 : ((z : ZMod p)).val < 2 ^ C :=
    lt_of_lt_of_le h (Nat.pow_le_pow_right (by norm_num) (by omega))
  have h3' : (((z : ZMod p)).val : ℤ) < 2 ^ C := by exact_mod_cast h3
  have hp' : (2:ℤ) ^ (C + 2) ≤ p := by exact_mod_cast hp
  have e1 : (2:ℤ) ^ (C + 2) = 4 * 2 ^ C := by ring
  have e3 : (0:ℤ) < 2 ^ C := by positivity
  rw [e1] at hp'
  clear e1 h3 h hp
  generalize (2:ℤ) ^ C = P at *
  by_contra hneg
  have hneg : z < 0 := by omega
  rw [abs_of_neg hneg] at hz
  rw [val_intCast_neg hneg (by linarith)] at h3'
  linarith

/-- Integer-level `Div`. -/
def divZ (f : Fmt) (x y : Flt) (c : Bool) : Flt :=
  let yz : Bool := decide (y.man = 0)
  let Y := if yz then 2 ^ f.M else y.man
  let Q0 := x.man * 2 ^ (f.M + 2) / Y
  let msb : Bool := decide (2 ^ (f.M + 2) ≤ Q0)
  let Q := if msb then Q0 else Q0 + Q0
  let e := x.exp - y.exp - (if msb then 0 else 1)
  let σ := subShift f e (f.M + 2)
  let m := rnd (Q * 2 ^ (f.M + 2 - σ)) (f.M + 4) (decide (x.man * 2 ^ (f.M + 2) % Y = 0)) * 2 ^ σ
  let mz : Bool := decide (m = 0) || y.abn
  let r := fixZ f m mz e (x.abn || yz) c
  ⟨xor x.sign y.sign, r.2.1, if mz then 0 else r.1, r.2.2⟩

/-- Divisor, quotient and remainder of the significands in `Div`; then what is handed to `round`, its exponent and the shift. -/
def divY (f : Fmt) (y : Flt) : ℕ := if decide (y.man = 0) then 2 ^ f.M else y.man
def divQ (f : Fmt) (x y : Flt) : ℕ := x.man * 2 ^ (f.M + 2) / divY f y
def divR (f : Fmt) (x y : Flt) : ℕ := x.man * 2 ^ (f.M + 2) % divY f y
def divN (f : Fmt) (x y : Flt) : ℕ := if decide (2 ^ (f.M + 2) ≤ divQ f x y) then divQ f x y else divQ f x y + divQ f x y
def divE (f : Fmt) (x y : Flt) : ℤ := x.exp - y.exp - (if decide (2 ^ (f.M + 2) ≤ divQ f x y) then 0 else 1)
def divShift (f : Fmt) (x y : Flt) : ℕ := subShift f (divE f x y) (f.M + 2)

/-- Integer-level `Div` when `round` returns the significand `m`. -/
def divFin (f : Fmt) (x y : Flt) (m : ℕ) (c : Bool) : Flt :=
  let mz : Bool := decide (m = 0) || y.abn
  let r := fixZ f m mz (divE f x y) (x.abn || decide (y.man = 0)) c
  ⟨xor x.sign y.sign, r.2.1, if mz then 0 else r.1, r.2.2⟩

/-- The rounding in `Div` can be forged. -/
def DivForge (b : ℕ) (f : Fmt) (x y : Flt) : Prop :=
  RoundForge b f (divN f x y) (f.M + 2 + 1) (divShift f x y) (f.M + 2)

theorem divZ_eq (f : Fmt) (x y : Flt) (c : Bool) : divZ f x y c =
    divFin f x y (rnd (divN f x y * 2 ^ (f.M + 2 - divShift f x y)) (f.M + 4) (decide (divR f x y = 0)) * 2 ^ divShift f x y) c := rfl

/-- The quotient hint of `Div` is forced by the three range checks on it. -/
theorem div_sound (G : Good p b f) {XX Y : ℕ} (hX : XX < 2 ^ (2 * f.M + 3)) (hYpos : 0 < Y)
    (hY : Y < 2 ^ (f.M + 1)) {v : ZMod p} {c : Bool}
    (h1 : CheckSat b (((XX : ℕ) : ZMod p) - v * ((Y : ℕ) : ZMod p)) (f.M + 1) .loose)
    (h2 : CheckSat b (((Y : ℕ) : ZMod p) - (((XX : ℕ) : ZMod p) - v * ((Y : ℕ) : ZMod p) + 1)) (f.M + 1) .loose)
    (h3 : CheckSat b (v - B c * tw (f.M + 2)) (f.M + 2) .unknown) : v = ((XX / Y : ℕ) : ZMod p) := by
  have hE := G.hE
  have hEM := G.hEM
  have hb17 := G.width.le
  have h2b : 2 ^ (2 * b) ≤ p := G.pow_le (by omega)
  rw [checkSat_unknown_iff G.bpos (by omega) h2b] at h3
  obtain ⟨V, hV, hVlt⟩ : ∃ V : ℕ, v = ((V : ℕ) : ZMod p) ∧ V < 2 ^ (f.M + 2 + 1) := by
    refine ⟨(v - B c * tw (f.M + 2)).val + c.toNat * 2 ^ (f.M + 2), ?_, ?_⟩
    · push_cast; rw [toNat_B]; simp
    · rw [show 2 ^ (f.M + 2 + 1) = 2 * 2 ^ (f.M + 2) by ring]
      generalize 2 ^ (f.M + 2) = P at *
      cases c
      · rw [Bool.toNat_false, zero_mul]; omega
      · rw [Bool.toNat_true, one_mul]; omega
  subst hV
  clear h3
  have er : ((XX : ℕ) : ZMod p) - ((V : ℕ) : ZMod p) * ((Y : ℕ) : ZMod p) = (((XX : ℤ) - V * Y : ℤ) : ZMod p) := by
    push_cast; ring
  have er2 : ((Y : ℕ) : ZMod p) - (((XX : ℕ) : ZMod p) - ((V : ℕ) : ZMod p) * ((Y : ℕ) : ZMod p) + 1) =
      (((Y : ℤ) - ((XX : ℤ) - V * Y + 1) : ℤ) : ZMod p) := by push_cast; ring
  rw [er2] at h2
  rw [er] at h1
  have hVY : V * Y < 2 ^ (f.M + 2 + 1) * 2 ^ (f.M + 1) := Nat.mul_lt_mul'' hVlt hY
  rw [← pow_add] at hVY
  obtain ⟨C, hC⟩ : ∃ C, C = 2 * f.M + 30 := ⟨_, rfl⟩
  have p1 : V * Y < 2 ^ C := lt_of_lt_of_le hVY (Nat.pow_le_pow_right (by norm_num) (by omega))
  have p2 : XX < 2 ^ C := lt_of_lt_of_le hX (Nat.pow_le_pow_right (by norm_num) (by omega))
  have p3 : Y < 2 ^ C := lt_of_lt_of_le hY (Nat.pow_le_pow_right (by norm_num) (by omega))
  have q4 : (2 : ℤ) ^ (C + 2) = 4 * 2 ^ C := by ring
  have q1 : ((V * Y : ℕ) : ℤ) < 2 ^ C := by exact_mod_cast p1
  have q2 : (XX : ℤ) < 2 ^ C := by exact_mod_cast p2
  have q3 : (Y : ℤ) < 2 ^ C := by exact_mod_cast p3
  have hVYc : (V : ℤ) * Y = ((V * Y : ℕ) : ℤ) := by push_cast; rfl
  rw [hVYc] at h1 h2
  have b1 : |(XX : ℤ) - ((V * Y : ℕ) : ℤ)| ≤ 2 ^ (C + 2) := by
    rw [abs_le, q4]; generalize (2:ℤ) ^ C = P at *; constructor <;> omega
  have b2 : |(Y : ℤ) - ((XX : ℤ) - ((V * Y : ℕ) : ℤ) + 1)| ≤ 2 ^ (C + 2) := by
    rw [abs_le, q4]; generalize (2:ℤ) ^ C = P at *; constructor <;> omega
  have g1 := checkSat_loose_int' G.width (by omega) b1 (by omega) (G.pow_le (by omega)) h1
  have g2 := checkSat_loose_int' G.width (by omega) b2 (by omega) (G.pow_le (by omega)) h2
  congr 1
  symm
  rw [Nat.div_eq_iff hYpos]
  generalize V * Y = W at *
  omega

theorem fDiv_core (G : Good p b f) {x y : Flt} (hx : x.Bdd f) (hy : y.Bdd f)
    (hym : y.man = 0 ∨ 2 ^ f.M ≤ y.man) {Fz : Prop} (hround : divN f x y < 2 ^ (f.M + 2 + 1) →
      RoundOut p b H f (divN f x y) (f.M + 2 + 1) (divShift f x y) (f.M + 2) (decide (divR f x y = 0)) Fz) :
    Spec b H (fDiv f (x.toVar : FloatVar p) y.toVar) (divZ f x y true).toVar
      (fun r => (∃ c, r = (divZ f x y c).toVar) ∨ (Fz ∧ ∃ c, r = (divFin f x y 0 c).toVar)) := by
  have hE := G.hE
  have hEM := G.hEM
  have hM := G.hMz
  have hNm := f.eNormalMin_eq
  have hmn := f.eMin_eq
  have hb17 := G.width.le
  obtain ⟨hx1, hx2, hx3⟩ := hx
  obtain ⟨hy1, hy2, hy3⟩ := hy
  unfold fDiv
  simp only [Circ.bind_eq, Circ.pure_eq, Flt.toVar]
  refine Spec.det_bind (xor_spec _ _) ?_
  rw [isZero_nat G (G.lt_of_lt_pow hy1 (by omega))]
  refine Spec.det_bind (select_spec _ _ _) ?_
  obtain ⟨yz, hyz⟩ : ∃ yz : Bool, yz = decide (y.man = 0) := ⟨_, rfl⟩
  obtain ⟨Y, hY⟩ : ∃ Y, Y = if yz then 2 ^ f.M else y.man := ⟨_, rfl⟩
  have hYc : (if decide (y.man = 0) = true then (tw f.M : ZMod p) else ((y.man : ℕ) : ZMod p)) = ((Y : ℕ) : ZMod p) := by
    rw [hY, hyz]; by_cases h : y.man = 0 <;> simp [h]
  rw [hYc, ← hyz]
  have hY1 : 2 ^ f.M ≤ Y := by
    rw [hY, hyz]; rcases hym with h | h
    · simp [h]
    · have : 0 < 2 ^ f.M := by positivity
      have h0 : y.man ≠ 0 := by omega
      simp [h0, h]
  have hY2 : Y < 2 ^ (f.M + 1) := by
    rw [hY]; cases yz
    · simpa using hy1
    · simp only [if_true]; exact Nat.pow_lt_pow_right (by norm_num) (by omega)
  have hYpos : 0 < Y := lt_of_lt_of_le (by positivity) hY1
  obtain ⟨XX, hXX⟩ : ∃ XX, XX = x.man * 2 ^ (f.M + 2) := ⟨_, rfl⟩
  have hXXlt : XX < 2 ^ (2 * f.M + 3) := by
    rw [hXX, show 2 * f.M + 3 = (f.M + 1) + (f.M + 2) by omega, pow_add _ _ (f.M + 2)]
    exact Nat.mul_lt_mul_of_pos_right hx1 (by positivity)
  obtain ⟨Q0, hQ0⟩ : ∃ Q0, Q0 = XX / Y := ⟨_, rfl⟩
  obtain ⟨R, hR⟩ : ∃ R, R = XX % Y := ⟨_, rfl⟩
  have hdm : Y * Q0 + R = XX := by rw [hQ0, hR]; exact Nat.div_add_mod _ _
  have hRlt : R < Y := by rw [hR]; exact Nat.mod_lt _ hYpos
  have hQ0lt : Q0 < 2 ^ (f.M + 2 + 1) := by
    rw [hQ0, Nat.div_lt_iff_lt_mul hYpos]
    calc XX < 2 ^ (2 * f.M + 3) := hXXlt
      _ = 2 ^ (f.M + 2 + 1) * 2 ^ f.M := by rw [← pow_add]; congr 1; omega
      _ ≤ _ := Nat.mul_le_mul_left _ hY1
  have hXc : ((x.man : ℕ) : ZMod p) * tw (f.M + 2) = ((XX : ℕ) : ZMod p) := by rw [hXX]; push_cast; rfl
  rw [hXc]
  obtain ⟨msb, hmsb⟩ : ∃ msb : Bool, msb = decide (2 ^ (f.M + 2) ≤ Q0) := ⟨_, rfl⟩
  have h2b : 2 ^ (2 * b) ≤ p := G.pow_le (by omega)
  rw [show f.M + 2 + 1 - 1 = f.M + 2 by omega]
  refine Spec.hint_det (v0 := ((Q0 : ℕ) : ZMod p)) ?_ ?_ ?_
  · unfold divHint
    rw [ZMod.val_natCast_of_lt (G.lt_of_lt_pow hx1 (by omega)),
      ZMod.val_natCast_of_lt (G.lt_of_lt_pow hY2 (by omega)), if_neg (by omega), ← hXX, ← hQ0]
  · intro _ v r hs
    simp only [newHint, assertIsBoolean, assertBitLength, Circ.bind, Circ.Sat] at hs
    obtain ⟨c, hc, h1, h2, h3, -⟩ := hs
    obtain ⟨c, rfl⟩ := (isBool_iff c).1 hc
    rw [hQ0]
    exact div_sound G hXXlt hYpos hY2 h1 h2 h3
  have hQ0p : Q0 < p := G.lt_of_lt_pow hQ0lt (by omega)
  refine Spec.hint_det (v0 := B msb) ?_ ?_ ?_
  · unfold nthBitHint; rw [ZMod.val_natCast_of_lt hQ0p, nthBit_top hQ0lt, ← hmsb]; rfl
  · intro _ v r hs
    simp only [assertIsBoolean, assertBitLength, Circ.bind, Circ.Sat] at hs
    obtain ⟨hc, -, -, h3, -⟩ := hs
    have h3' : CheckSat b (((Q0 : ℕ) : ZMod p) - v * tw (f.M + 2)) (f.M + 2) .smallAbs := by
      rw [checkSat_unknown_iff G.bpos (by omega) h2b] at h3
      have hcs := checkRun_smallAbs (p := p) (b := b) (bits := f.M + 2) G.bpos (by omega)
        (le_trans (Nat.pow_le_pow_right (by norm_num) (G.width.mul_le (by omega))) (G.pow_le (k := f.M + 2 + 16) (by omega))) h3
      exact Circ.checkSat_of_checkRun hcs
    rw [hmsb]
    exact msb_sound G (C := 0) (by omega) hQ0lt (by omega) hc h3'
  refine Spec.det_bind (assertIsBoolean_spec _) ?_
  have er : ((XX : ℕ) : ZMod p) - ((Q0 : ℕ) : ZMod p) * ((Y : ℕ) : ZMod p) = ((R : ℕ) : ZMod p) := by
    rw [← hdm]; push_cast; ring
  have er2 : ((Y : ℕ) : ZMod p) - (((R : ℕ) : ZMod p) + 1) = ((Y - (R + 1) : ℕ) : ZMod p) := by
    rw [Nat.cast_sub (by omega)]; push_cast; ring
  rw [er, er2]
  refine Spec.det_bind (check_loose_spec G.width (by omega) (by omega)) ?_
  refine Spec.det_bind (check_loose_spec G.width (by omega) (by omega)) ?_
  refine Spec.det_bind (assertBitLength_spec ?_) ?_
  · have e1 : ((Q0 : ℕ) : ZMod p) - B msb * tw (f.M + 2) = ((Q0 % 2 ^ (f.M + 2) : ℕ) : ZMod p) := by
      rw [hmsb]
      by_cases h : 2 ^ (f.M + 2) ≤ Q0
      · have : Q0 % 2 ^ (f.M + 2) = Q0 - 2 ^ (f.M + 2) := by
          rw [Nat.mod_eq_sub_mod h, Nat.mod_eq_of_lt]; rw [pow_succ] at hQ0lt; omega
        rw [this]; simp [h]
      · rw [Nat.mod_eq_of_lt (by omega)]; simp [h]
    rw [e1]
    exact checkRun_unknown G.bpos (by omega) (lt_of_le_of_lt (val_natCast_le _) (Nat.mod_lt _ (by positivity)))
  refine Spec.det_bind (select_spec _ _ _) ?_
  obtain ⟨N, hN⟩ : ∃ N, N = if msb then Q0 else Q0 + Q0 := ⟨_, rfl⟩
  obtain ⟨e, he⟩ : ∃ e, e = x.exp - y.exp - (if msb then 0 else 1) := ⟨_, rfl⟩
  have e1 : ((Q0 : ℕ) : ZMod p) + (if msb = true then 0 else ((Q0 : ℕ) : ZMod p)) = ((N : ℕ) : ZMod p) := by
    rw [hN]; cases msb <;> simp
  have e2 : ((x.exp : ℤ) : ZMod p) - ((y.exp : ℤ) : ZMod p) - (1 - B msb) = ((e : ℤ) : ZMod p) := by
    rw [he]; cases msb <;> simp
  rw [e1, e2]
  have hNlt : N < 2 ^ (f.M + 2 + 1) := by
    rw [hN]
    cases msb
    · have : ¬ 2 ^ (f.M + 2) ≤ Q0 := by simpa using hmsb
      simp only [Bool.false_eq_true, if_false]; rw [pow_succ]; omega
    · simpa using hQ0lt
  have hebd : x.exp - y.exp - 1 ≤ e ∧ e ≤ x.exp - y.exp := by
    rw [he]; cases msb <;> simp
  refine Spec.det_bind (subnormalShift_spec G (by push_cast; omega) (by omega) (by push_cast; omega)) ?_
  obtain ⟨σ, hσ⟩ : ∃ σ, σ = subShift f e (f.M + 2) := ⟨_, rfl⟩
  have hσle : σ ≤ f.M + 2 := hσ ▸ subShift_le _ _
  rw [← hσ, isZero_nat G (lt_trans hRlt (G.lt_of_lt_pow hY2 (by omega)))]
  have hYd : divY f y = Y := by unfold divY; rw [← hyz, ← hY]
  have hQd : divQ f x y = Q0 := by unfold divQ; rw [hYd, ← hXX, ← hQ0]
  have hRd : divR f x y = R := by unfold divR; rw [hYd, ← hXX, ← hR]
  have hNd : divN f x y = N := by unfold divN; rw [hQd, ← hmsb, ← hN]
  have hEd : divE f x y = e := by unfold divE; rw [hQd, ← hmsb, ← he]
  have hSd : divShift f x y = σ := by unfold divShift; rw [hEd, ← hσ]
  have hr := hround (hNd ▸ hNlt)
  rw [hNd, hSd, hRd] at hr
  unfold RoundOut at hr
  rw [show f.M + 2 + (f.M + 2 + 1) - f.M - 1 = f.M + 4 by omega] at hr
  obtain ⟨m, hm⟩ : ∃ m, m = rnd (N * 2 ^ (f.M + 2 - σ)) (f.M + 4) (decide (R = 0)) * 2 ^ σ := ⟨_, rfl⟩
  rw [← hm] at hr
  have hmle : m ≤ 2 ^ (f.M + 1 + σ) := by
    rw [hm, pow_add]
    refine Nat.mul_le_mul_right _ (rnd_le ?_)
    have : N * 2 ^ (f.M + 2 - σ) ≤ N * 2 ^ (f.M + 2) :=
      Nat.mul_le_mul_left _ (Nat.pow_le_pow_right (by norm_num) (by omega))
    refine lt_of_le_of_lt this ?_
    rw [show f.M + 4 + (f.M + 1) = (f.M + 2 + 1) + (f.M + 2) by omega, pow_add _ _ (f.M + 2)]
    exact Nat.mul_lt_mul_of_pos_right hNlt (Nat.two_pow_pos _)
  have hmp : m < p := lt_of_le_of_lt hmle (G.pow_lt (by omega))
  have tail : ∀ m, m < p → Spec b H (Circ.bind (or' (isZero ((m : ℕ) : ZMod p)) (B y.abn)) fun mz =>
      Circ.bind (or' (B x.abn) (B yz)) fun abn =>
      Circ.bind (fixOverflow f ((m : ℕ) : ZMod p) mz ((e : ℤ) : ZMod p) abn) fun t =>
      Circ.bind (select mz 0 t.1) fun m' =>
        Circ.pure (⟨B (xor x.sign y.sign), t.2.1, m', t.2.2⟩ : FloatVar p))
      (divFin f x y m true).toVar (fun r => ∃ c, r = (divFin f x y m c).toVar) := by
    intro m hmp
    rw [isZero_nat G hmp]
    refine Spec.det_bind (or_spec _ _) (Spec.det_bind (or_spec _ _) ?_)
    have hres : ∀ c, divFin f x y m c = ⟨xor x.sign y.sign, (fixZ f m (decide (m = 0) || y.abn) e (x.abn || yz) c).2.1,
        if (decide (m = 0) || y.abn) then 0 else (fixZ f m (decide (m = 0) || y.abn) e (x.abn || yz) c).1,
        (fixZ f m (decide (m = 0) || y.abn) e (x.abn || yz) c).2.2⟩ := by
      intro c; unfold divFin; simp only; rw [hEd, ← hyz]
    have key : ∀ t : ℕ × ℤ × Bool, Det b H
        (Circ.bind (select (B (decide (m = 0) || y.abn)) 0 (fixOut t : ZMod p × ZMod p × ZMod p).1) fun m' =>
          Circ.pure (⟨B (xor x.sign y.sign), (fixOut t : ZMod p × ZMod p × ZMod p).2.1, m', (fixOut t : ZMod p × ZMod p × ZMod p).2.2⟩ : FloatVar p))
        (Flt.toVar ⟨xor x.sign y.sign, t.2.1, if (decide (m = 0) || y.abn) then 0 else t.1, t.2.2⟩) := by
      intro t
      refine Spec.det_bind (select_spec _ _ _) ?_
      have : (⟨B (xor x.sign y.sign), (fixOut t : ZMod p × ZMod p × ZMod p).2.1,
          if (decide (m = 0) || y.abn) = true then 0 else (fixOut t : ZMod p × ZMod p × ZMod p).1, (fixOut t : ZMod p × ZMod p × ZMod p).2.2⟩ : FloatVar p) =
          (Flt.toVar ⟨xor x.sign y.sign, t.2.1, if (decide (m = 0) || y.abn) then 0 else t.1, t.2.2⟩) := by
        unfold Flt.toVar fixOut
        cases (decide (m = 0) || y.abn) <;> simp
      rw [← this]; exact Spec.pure _
    refine (Spec.bind_fix G hmp (by omega) (by omega)
      (w := fun t => Flt.toVar ⟨xor x.sign y.sign, t.2.1, if (decide (m = 0) || y.abn) then 0 else t.1, t.2.2⟩) (fun c => key _)).congr ?_ ?_
    · rw [hres]
    · intro r; simp only [hres]
  have hz : ∀ c, divZ f x y c = divFin f x y m c := by
    intro c; rw [divZ_eq, hNd, hSd, hRd, ← hm]
  simp only [hz]
  exact Spec.bind_forge hr (tail m hmp) (tail 0 (by omega))

theorem divShift_lt (f : Fmt) (x y : Flt) (hE : 2 ≤ f.E) : divShift f x y < f.pow2Size :=
  lt_of_le_of_lt (subShift_le _ _) (by unfold Fmt.pow2Size; omega)

theorem fDiv_spec (G : Good p b f) {x y : Flt} (hx : x.Bdd f) (hy : y.Bdd f)
    (hym : y.man = 0 ∨ 2 ^ f.M ≤ y.man) (hH : H → b ∣ f.pow2Size) :
    Spec b H (fDiv f (x.toVar : FloatVar p) y.toVar) (divZ f x y true).toVar
      (fun r => ∃ c, r = (divZ f x y c).toVar) := by
  have hE := G.hE
  have hEM := G.hEM
  exact (fDiv_core G hx hy hym fun hN => round_spec_dvd (p := p) (f := f) G hN (by omega) (by omega) (subShift_le _ _)
    (divShift_lt f x y (by omega)) (by omega) _ hH).congr rfl (by simp)

/-- The exact outcomes of `Div` at every table width (the last hypothesis bounds the width for large formats). -/
theorem fDiv_spec_any (G : Good p b f) {x y : Flt} (hx : x.Bdd f) (hy : y.Bdd f) (hym : y.man = 0 ∨ 2 ^ f.M ≤ y.man)
    (hpw : 2 ^ (3 * f.M + f.E + 6 + 3 * (b - 1)) ≤ p) :
    Spec b H (fDiv f (x.toVar : FloatVar p) y.toVar) (divZ f x y true).toVar
      (fun r => (∃ c, r = (divZ f x y c).toVar) ∨ (DivForge b f x y ∧ ∃ c, r = (divFin f x y 0 c).toVar)) := by
  have hE := G.hE
  have hEM := G.hEM
  refine fDiv_core G hx hy hym fun hN => round_spec_any (p := p) (f := f) G hN (by omega) (by omega) (subShift_le _ _)
    (divShift_lt f x y (by omega)) (by omega) ?_ _
  refine le_trans (Nat.pow_le_pow_right (by norm_num) ?_) hpw
  unfold Fmt.pow2Size; omega

end ZkLoc
