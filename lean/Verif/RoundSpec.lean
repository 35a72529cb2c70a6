import Verif.Flt

/-!
# Helper lemmas: the rounding gadget
-/

namespace ZkLoc

/-- Round `V / 2^q` to an integer: to nearest, an exact half (`h` set) going to the even neighbour; with
`h` unset an apparent half is known to be more than a half and goes up. -/
def rnd (V q : ℕ) (h : Bool) : ℕ :=
  if V % 2 ^ q = 2 ^ (q - 1) ∧ h = true then V / 2 ^ q + V / 2 ^ q % 2
  else if 2 ^ (q - 1) ≤ V % 2 ^ q then V / 2 ^ q + 1 else V / 2 ^ q

/-- Unique decomposition behind `round`. -/
theorem rnd_decomp {V pp s rI : ℕ} {q r h : Bool}
    (hV : V = ((pp + pp + q.toNat) * 2 ^ (rI + 1)) + (r.toNat * 2 ^ rI + s)) (hs : s < 2 ^ rI) :
    (pp + pp + q.toNat) + (if r.toNat * 2 ^ rI + s = 2 ^ rI ∧ h = true then q.toNat else r.toNat) =
      rnd V (rI + 1) h := by
  have hr : r.toNat * 2 ^ rI + s < 2 ^ (rI + 1) := by
    rw [pow_succ]; cases r <;> simp <;> omega
  have h1 : V / 2 ^ (rI + 1) = pp + pp + q.toNat := by
    rw [hV, mul_comm]
    rw [Nat.mul_add_div (by positivity), Nat.div_eq_of_lt hr, add_zero]
  have h2 : V % 2 ^ (rI + 1) = r.toNat * 2 ^ rI + s := by
    rw [hV, mul_comm, Nat.mul_add_mod, Nat.mod_eq_of_lt hr]
  have h3 : (pp + pp + q.toNat) % 2 = q.toNat := by cases q <;> simp <;> omega
  unfold rnd
  rw [h1, h2, h3, Nat.add_sub_cancel]
  by_cases hc : r.toNat * 2 ^ rI + s = 2 ^ rI ∧ h = true
  · simp only [hc, and_self, if_true]
  · simp only [hc, if_false]
    cases r
    · simp; omega
    · simp

theorem rnd_decomp' (V rI : ℕ) : V = ((V / 2 ^ (rI + 2) + V / 2 ^ (rI + 2) + (V.testBit (rI + 1)).toNat) *
    2 ^ (rI + 1)) + ((V.testBit rI).toNat * 2 ^ rI + V % 2 ^ rI) := by
  have h1 : V / 2 ^ rI / 2 = V / 2 ^ (rI + 1) := by rw [Nat.div_div_eq_div_mul, pow_succ]
  have h2 : V / 2 ^ (rI + 1) / 2 = V / 2 ^ (rI + 2) := by rw [Nat.div_div_eq_div_mul]; rfl
  have t1 : (V.testBit rI).toNat = V / 2 ^ rI % 2 := by
    rw [Nat.testBit_eq_decide_div_mod_eq]; rcases Nat.mod_two_eq_zero_or_one (V / 2 ^ rI) with h | h <;> simp [h]
  have t2 : (V.testBit (rI + 1)).toNat = V / 2 ^ (rI + 1) % 2 := by
    rw [Nat.testBit_eq_decide_div_mod_eq]; rcases Nat.mod_two_eq_zero_or_one (V / 2 ^ (rI + 1)) with h | h <;> simp [h]
  have e0 := Nat.div_add_mod V (2 ^ rI)
  have e1 := Nat.div_add_mod (V / 2 ^ rI) 2
  have e2 := Nat.div_add_mod (V / 2 ^ (rI + 1)) 2
  rw [t1, t2, ← h2]
  rw [h1] at e1
  generalize V / 2 ^ (rI + 1) / 2 = a at *
  generalize V / 2 ^ (rI + 1) % 2 = c at *
  generalize V / 2 ^ (rI + 1) = d at *
  generalize V / 2 ^ rI % 2 = e at *
  generalize V / 2 ^ rI = g at *
  generalize V % 2 ^ rI = m at *
  rw [pow_succ]
  generalize 2 ^ rI = P at *
  subst e1; subst e2; rw [← e0]; ring

variable {p : ℕ} [Fact p.Prime] {b : ℕ} {H : Prop} {f : Fmt}

theorem toNat_B (c : Bool) : (B c : ZMod p) = ((c.toNat : ℕ) : ZMod p) := by cases c <;> simp

theorem checkRun_smallAbs_nat (hb : Width b) {n bits : ℕ} (hn : 0 < bits) (hp : 2 ^ (bits + 16) ≤ p)
    (h : n < 2 ^ bits) : checkRun b ((n : ℕ) : ZMod p) bits .smallAbs = true :=
  checkRun_smallAbs hb.pos hn (le_trans (Nat.pow_le_pow_right (by norm_num) (hb.mul_le hn)) hp)
    (lt_of_le_of_lt (val_natCast_le n) h)

theorem round_tail (G : Good p b f) {pp s rI σ : ℕ} (q r h : Bool) (hs : s < 2 ^ rI) (hrI : rI ≤ 4 * f.M + 41) :
    Det b H (Circ.bind (and' (gIsEq (B r * tw rI + ((s : ℕ) : ZMod p)) (tw rI)) (B h)) fun isHalf =>
      Circ.bind (select isHalf (B q) (B r)) fun carry =>
        Circ.pure ((((pp : ℕ) : ZMod p) + ((pp : ℕ) : ZMod p) + B q + carry) * 2 ^ σ))
      ((((pp + pp + q.toNat) + (if r.toNat * 2 ^ rI + s = 2 ^ rI ∧ h = true then q.toNat else r.toNat)) * 2 ^ σ : ℕ) : ZMod p) := by
  have hrslt : r.toNat * 2 ^ rI + s < 2 ^ (rI + 1) := by
    rw [pow_succ]; cases r <;> simp <;> omega
  have hEq : gIsEq (B r * tw rI + ((s : ℕ) : ZMod p)) (tw rI) =
      B (decide (r.toNat * 2 ^ rI + s = 2 ^ rI)) := by
    have e1 : (B r * tw rI + ((s : ℕ) : ZMod p)) = ((r.toNat * 2 ^ rI + s : ℕ) : ZMod p) := by
      rw [toNat_B]; push_cast; rfl
    have e2 : (tw rI : ZMod p) = ((2 ^ rI : ℕ) : ZMod p) := by push_cast; rfl
    rw [gIsEq_eq, e1, e2]
    congr 1
    rw [decide_eq_decide]
    exact natCast_inj (G.lt_of_lt_pow hrslt (by omega)) (G.pow_lt (by omega))
  rw [hEq]
  refine Spec.det_bind (and_spec _ _) (Spec.det_bind (select_spec _ _ _) ?_)
  refine (Spec.pure _).congr ?_ ?_
  · by_cases hc : r.toNat * 2 ^ rI + s = 2 ^ rI ∧ h = true
    · simp only [hc, and_self, if_true, decide_true, Bool.and_self]; rw [toNat_B q]; push_cast; ring
    · have : (decide (r.toNat * 2 ^ rI + s = 2 ^ rI) && h) = false := by
        rw [Bool.eq_false_iff]; simpa using hc
      simp only [hc, this, if_false, Bool.false_eq_true]
      rw [toNat_B q, toNat_B r]; push_cast; ring
  · intro x
    by_cases hc : r.toNat * 2 ^ rI + s = 2 ^ rI ∧ h = true
    · simp only [hc, and_self, if_true, decide_true, Bool.and_self]; rw [toNat_B q]; push_cast; ring_nf
    · have : (decide (r.toNat * 2 ^ rI + s = 2 ^ rI) && h) = false := by
        rw [Bool.eq_false_iff]; simpa using hc
      simp only [hc, this, if_false, Bool.false_eq_true]
      rw [toNat_B q, toNat_B r]; push_cast; ring_nf

/-- `round` after the power-of-two lookup. -/
def roundRest (f : Fmt) (mantissa : ZMod p) (mantissaBitLength : ℕ) (twoToShift : ZMod p) (shiftMax : ℕ)
    (halfFlag : ZMod p) : Circ p (ZMod p) := do
  let rIdx := shiftMax + mantissaBitLength - f.M - 2
  let qIdx := rIdx + 1
  let pIdx := qIdx + 1
  let pp ← newHint (roundHintP mantissa twoToShift shiftMax pIdx)
  let q ← newHint (roundHintBit mantissa twoToShift shiftMax qIdx)
  let r ← newHint (roundHintBit mantissa twoToShift shiftMax rIdx)
  let s ← newHint (roundHintS mantissa twoToShift shiftMax rIdx)
  assertIsBoolean q
  assertIsBoolean r
  assertBitLength pp f.M .loose
  assertBitLength s rIdx .smallAbs
  let pq := pp + pp + q
  let rs := r * tw rIdx + s
  let pqrs := pq * tw qIdx + rs
  assertIsEqual (pqrs * twoToShift) (mantissa * tw shiftMax)
  let isHalf ← and' (gIsEq rs (tw rIdx)) halfFlag
  let carry ← select isHalf q r
  pure ((pq + carry) * twoToShift)

theorem round_eq (f : Fmt) (mantissa : ZMod p) (mbl : ℕ) (shift : ZMod p) (smax : ℕ) (h : ZMod p) :
    round f mantissa mbl shift smax h =
      Circ.bind (queryPowerOf2 f.pow2Size shift) fun T => roundRest f mantissa mbl T smax h := rfl

theorem roundRest_spec (G : Good p b f) {N mbl σ smax : ℕ} (hN : N < 2 ^ mbl) (hmbl : f.M + 2 ≤ mbl)
    (hrI : 0 < smax + mbl - f.M - 2) (hσ : σ ≤ smax) (hσ2 : σ < f.pow2Size)
    (hsz : 2 * smax + mbl ≤ 4 * f.M + 6) (h : Bool) :
    Det b H (roundRest f ((N : ℕ) : ZMod p) mbl (2 ^ σ) smax (B h))
      ((rnd (N * 2 ^ (smax - σ)) (smax + mbl - f.M - 1) h * 2 ^ σ : ℕ) : ZMod p) := by
  have hE := G.hE
  have hEM := G.hEM
  have hM2 := G.hM2
  have hps : f.pow2Size = f.M + f.E + 1 := rfl
  unfold roundRest
  simp only [Circ.bind_eq]
  obtain ⟨rI, hrI'⟩ : ∃ rI, rI = smax + mbl - f.M - 2 := ⟨_, rfl⟩
  have hqI : smax + mbl - f.M - 1 = rI + 1 := by omega
  rw [← hrI', hqI]
  rw [← hrI'] at hrI
  -- the quotient
  obtain ⟨V, hV⟩ : ∃ V, V = N * 2 ^ (smax - σ) := ⟨_, rfl⟩
  have hVlt : V < 2 ^ (mbl + smax - σ) := by
    rw [hV, show mbl + smax - σ = mbl + (smax - σ) by omega, pow_add]
    exact Nat.mul_lt_mul_of_pos_right hN (by positivity)
  have hVσ : V * 2 ^ σ = N * 2 ^ smax := by
    rw [hV, mul_assoc, ← pow_add, Nat.sub_add_cancel hσ]
  have hσcast : ((2 : ZMod p) ^ σ) = ((2 ^ σ : ℕ) : ZMod p) := by push_cast; rfl
  have hσp : 2 ^ σ < p := G.pow_lt (by omega)
  rw [← hV]
  refine Spec.det_of ?_ ?_
  · -- honest run
    have hv : roundHintV ((N : ℕ) : ZMod p) ((2 : ZMod p) ^ σ) smax = some V := by
      unfold roundHintV
      rw [hσcast, ZMod.val_natCast_of_lt hσp, if_neg (by positivity),
        ZMod.val_natCast_of_lt (G.lt_of_lt_pow hN (by omega)), ← hVσ, Nat.mul_div_cancel _ (by positivity)]
    have hpp : V / 2 ^ (rI + 2) < 2 ^ f.M := by
      rw [Nat.div_lt_iff_lt_mul (by positivity), ← pow_add]
      exact lt_of_lt_of_le hVlt (Nat.pow_le_pow_right (by norm_num) (by omega))
    have hs : V % 2 ^ rI < 2 ^ rI := Nat.mod_lt _ (by positivity)
    have hbit : ∀ i, (if V.testBit i = true then (1 : ZMod p) else 0) = B (V.testBit i) := fun i => rfl
    have c1 := checkRun_loose (p := p) (b := b) (bits := f.M) (v := ((V / 2 ^ (rI + 2) : ℕ) : ZMod p))
      G.bpos (by omega) (lt_of_le_of_lt (val_natCast_le _) hpp)
    have c2 := checkRun_smallAbs_nat (p := p) (n := V % 2 ^ rI) G.width hrI (G.pow_le (by omega)) hs
    have hdec := rnd_decomp' V rI
    have eqn : ((((V / 2 ^ (rI + 2) : ℕ) : ZMod p) + ((V / 2 ^ (rI + 2) : ℕ) : ZMod p) + B (V.testBit (rI + 1))) * tw (rI + 1) +
        (B (V.testBit rI) * tw rI + ((V % 2 ^ rI : ℕ) : ZMod p))) * 2 ^ σ = ((N : ℕ) : ZMod p) * tw smax := by
      have h2 : ((N : ℕ) : ZMod p) * tw smax = ((V : ℕ) : ZMod p) * 2 ^ σ := by
        have := congrArg (fun n : ℕ => (n : ZMod p)) hVσ
        push_cast at this; rw [this]
      rw [h2]
      conv_rhs => rw [hdec]
      rw [toNat_B, toNat_B]
      push_cast; ring
    have hfin := rnd_decomp (h := h) hdec hs
    have ht := (round_tail (p := p) (b := b) (H := True) (f := f) (pp := V / 2 ^ (rI + 2)) (σ := σ) G
      (V.testBit (rI + 1)) (V.testBit rI) h hs (by omega)).run
    rw [hfin] at ht
    simp only [newHint, roundHintP, roundHintBit, roundHintS, hv, Option.map_some, hbit,
      Circ.bind, assertIsBoolean, assertBitLength, assertIsEqual, Circ.run, isBool_B, if_true, c1, c2, eqn,
      decide_true, Circ.pure_eq]
    exact ht
  · -- soundness
    intro hHH r0 hsat
    simp only [newHint, Circ.bind, assertIsBoolean, assertBitLength, assertIsEqual, Circ.Sat,
      decide_eq_true_eq, Circ.pure_eq] at hsat
    obtain ⟨pp, q, r, s, hq, hr, hpp, hs, heq, hrest⟩ := hsat
    obtain ⟨q, rfl⟩ := (isBool_iff q).1 hq
    obtain ⟨r, rfl⟩ := (isBool_iff r).1 hr
    rw [checkSat_loose_iff G.bpos (by omega)] at hpp
    rw [checkSat_smallAbs_iff G.bpos hrI] at hs
    have hpp2 : pp.val < 2 ^ (f.M + 16) :=
      lt_of_lt_of_le hpp (Nat.pow_le_pow_right (by norm_num) (G.width.mul_le (by omega)))
    have hppc : pp = ((pp.val : ℕ) : ZMod p) := by simp
    generalize pp.val = P at *
    subst hppc
    clear hpp
    -- scale by the slack
    have hsl := slack_add rI G.bpos
    rw [← hsl] at hs
    have hd : slack b rI ≤ 16 := by have := slack_lt G.bpos hrI; have := G.width.le; omega
    generalize slack b rI = d at *
    obtain ⟨u, hu⟩ : ∃ u : ℕ, s * 2 ^ d = ((u : ℕ) : ZMod p) ∧ u < 2 ^ (rI + d) :=
      ⟨_, by simp, hs⟩
    obtain ⟨hu1, hu2⟩ := hu
    have hint : (((P + P + q.toNat) * 2 ^ (rI + 1) * 2 ^ d + (r.toNat * 2 ^ rI * 2 ^ d + u)) * 2 ^ σ : ℕ) =
        V * 2 ^ d * 2 ^ σ := by
      rw [← natCast_inj (p := p)]
      · have e := congrArg (fun z : ZMod p => z * 2 ^ d) heq
        have e2 : ((V * 2 ^ d * 2 ^ σ : ℕ) : ZMod p) = ((N : ℕ) : ZMod p) * tw smax * 2 ^ d := by
          rw [show V * 2 ^ d * 2 ^ σ = V * 2 ^ σ * 2 ^ d by ring, hVσ]; push_cast; rfl
        rw [e2, ← e, toNat_B, toNat_B]
        push_cast
        rw [← hu1]; ring
      · refine G.lt_of_lt_pow (k := (f.M + 18 + (rI + 1) + d) + σ) ?_ (by omega)
        rw [pow_add _ _ σ]
        refine Nat.mul_lt_mul_of_pos_right ?_ (by positivity)
        have g1 : (r.toNat * 2 ^ rI * 2 ^ d + u) < 2 ^ (rI + 1) * 2 ^ d := by
          have h1 : r.toNat * 2 ^ rI * 2 ^ d ≤ 1 * 2 ^ rI * 2 ^ d :=
            Nat.mul_le_mul_right _ (Nat.mul_le_mul_right _ (by cases r <;> simp))
          rw [pow_add] at hu2
          rw [pow_succ]
          have : 2 ^ rI * 2 * 2 ^ d = 1 * 2 ^ rI * 2 ^ d + 2 ^ rI * 2 ^ d := by ring
          omega
        have g2 : P + P + q.toNat + 1 ≤ 2 ^ (f.M + 18) := by
          have : 2 ^ (f.M + 18) = 4 * 2 ^ (f.M + 16) := by ring
          have : q.toNat ≤ 1 := by cases q <;> simp
          have : 0 < 2 ^ (f.M + 16) := by positivity
          omega
        calc (P + P + q.toNat) * 2 ^ (rI + 1) * 2 ^ d + (r.toNat * 2 ^ rI * 2 ^ d + u)
            < (P + P + q.toNat) * 2 ^ (rI + 1) * 2 ^ d + 2 ^ (rI + 1) * 2 ^ d := by omega
          _ = (P + P + q.toNat + 1) * 2 ^ (rI + 1) * 2 ^ d := by ring
          _ ≤ 2 ^ (f.M + 18) * 2 ^ (rI + 1) * 2 ^ d :=
            Nat.mul_le_mul_right _ (Nat.mul_le_mul_right _ g2)
          _ = 2 ^ (f.M + 18 + (rI + 1) + d) := by simp only [pow_add]
      · refine G.lt_of_lt_pow (k := mbl + smax - σ + d + σ) ?_ (by omega)
        rw [pow_add _ _ σ, pow_add _ _ d]
        exact Nat.mul_lt_mul_of_pos_right (Nat.mul_lt_mul_of_pos_right hVlt (by positivity)) (by positivity)
    have hint2 := Nat.eq_of_mul_eq_mul_right (by positivity) hint
    -- `2^d ∣ u`, hence `s` is an integer
    have hdvd : 2 ^ d ∣ u := by
      have h1 : 2 ^ d ∣ (P + P + q.toNat) * 2 ^ (rI + 1) * 2 ^ d + (r.toNat * 2 ^ rI * 2 ^ d + u) := by
        rw [hint2]; exact Dvd.intro_left _ rfl
      have h2 := (Nat.dvd_add_right (Dvd.intro_left _ rfl)).1 h1
      exact (Nat.dvd_add_right (Dvd.intro_left _ rfl)).1 h2
    obtain ⟨w, rfl⟩ := hdvd
    have hs0 : s = ((w : ℕ) : ZMod p) := by
      have h2 : (2 : ZMod p) ^ d ≠ 0 := by
        have : ((2 : ZMod p) ^ d) = ((2 ^ d : ℕ) : ZMod p) := by push_cast; rfl
        rw [this]
        intro h0
        have := (natCast_inj (p := p) (a := 2 ^ d) (c := 0) (G.pow_lt (by omega)) (by have := G.pow_lt (k := 0) (by omega); omega)).1 (by simpa using h0)
        exact absurd this (by positivity)
      apply mul_right_cancel₀ h2
      rw [hu1]; push_cast; ring
    subst hs0
    have hw : w < 2 ^ rI := by
      rw [pow_add, mul_comm] at hu2
      exact Nat.lt_of_mul_lt_mul_right hu2
    have hdec : V = ((P + P + q.toNat) * 2 ^ (rI + 1)) + (r.toNat * 2 ^ rI + w) := by
      have h3 : V * 2 ^ d = (((P + P + q.toNat) * 2 ^ (rI + 1)) + (r.toNat * 2 ^ rI + w)) * 2 ^ d := by
        rw [← hint2]; ring
      exact Nat.eq_of_mul_eq_mul_right (by positivity) h3
    have hfin := rnd_decomp (h := h) hdec hw
    have ht := ((round_tail (p := p) (b := b) (H := True) (f := f) (pp := P) (σ := σ) G
      q r h hw (by omega)).sat trivial false r0).1 hrest
    rw [hfin] at ht
    exact ht

theorem round_spec (G : Good p b f) {N mbl σ smax : ℕ} (hN : N < 2 ^ mbl) (hmbl : f.M + 2 ≤ mbl)
    (hrI : 0 < smax + mbl - f.M - 2) (hσ : σ ≤ smax) (hσ2 : σ < f.pow2Size)
    (hsz : 2 * smax + mbl ≤ 4 * f.M + 6) (h : Bool) (hH : H → b ∣ f.pow2Size) :
    Det b H (round f ((N : ℕ) : ZMod p) mbl ((σ : ℕ) : ZMod p) smax (B h))
      ((rnd (N * 2 ^ (smax - σ)) (smax + mbl - f.M - 1) h * 2 ^ σ : ℕ) : ZMod p) := by
  have hE := G.hE
  have hEM := G.hEM
  have hM2 := G.hM2
  have hps : f.pow2Size = f.M + f.E + 1 := rfl
  rw [round_eq]
  exact Spec.det_bind (queryPowerOf2_spec G.width (by omega) (by norm_num; omega)
    (G.pow_le (by omega)) hH hσ2) (roundRest_spec G hN hmbl hrI hσ hσ2 hsz h)

end ZkLoc
