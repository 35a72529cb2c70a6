import Verif.Native

/-!
# Helper lemmas: circuit-level specification of `NewFloat`
-/

namespace ZkLoc

variable {p : ℕ} [Fact p.Prime] {b : ℕ} {H : Prop} {f : Fmt}

/-- Normalisation part of `NewFloat`. -/
def nfNorm (f : Fmt) (m : ZMod p) : Circ p (ZMod p × ZMod p) :=
  Circ.bind (newHint (normalizeHint m f.M)) fun shift =>
  Circ.bind (assertBitLength shift (bitLen f.M) .loose) fun _ =>
  Circ.bind (queryPowerOf2 f.pow2Size shift) fun t =>
  Circ.bind (assertBitLength (m * t - (1 - isZero m) * tw (f.M - 1)) (f.M - 1) .smallAbs) fun _ =>
  Circ.pure (shift, m * t)

/-- Selection part of `NewFloat`. -/
def nfSel (f : Fmt) (s e m : ZMod p) (t : ZMod p × ZMod p) : Circ p (FloatVar p) :=
  let exponentMin : ZMod p := ((f.eNormalMin - 1 : ℤ) : ZMod p)
  let exponent := e + exponentMin
  Circ.bind (select (isZero m) (exponentMin - (f.M : ZMod p)) (exponent - t.1)) fun e1 =>
  Circ.bind (select (gIsEq exponent exponentMin) e1 exponent) fun e' =>
  Circ.bind (and' (gIsEq exponent ((f.eMax : ℤ) : ZMod p)) (1 - isZero m)) fun isNaN =>
  Circ.bind (select isNaN 0 (m + tw f.M)) fun m1 =>
  Circ.bind (select (gIsEq exponent exponentMin) (t.2 + t.2) m1) fun mantissa =>
  Circ.pure ⟨s, e', mantissa, gIsEq exponent ((f.eMax : ℤ) : ZMod p)⟩

theorem newFloat_eq (v : ZMod p) : newFloat f v =
    Circ.bind (newHint (decodeSignHint v f.E f.M)) fun s =>
    Circ.bind (newHint (decodeExpHint v f.E f.M)) fun e =>
    Circ.bind (assertIsBoolean s) fun _ =>
    Circ.bind (assertBitLength e f.E .unknown) fun _ =>
    Circ.bind (assertBitLength (v - (s * tw (f.E + f.M) + e * tw f.M)) f.M .unknown) fun _ =>
    Circ.bind (nfNorm f (v - (s * tw (f.E + f.M) + e * tw f.M))) fun t =>
    nfSel f s e (v - (s * tw (f.E + f.M) + e * tw f.M)) t := rfl

theorem isZero_natCast {m : ℕ} (hm : m < p) : isZero ((m : ℕ) : ZMod p) = B (decide (m = 0)) := by
  rw [isZero_eq]; congr 1; rw [decide_eq_decide, show (0 : ZMod p) = ((0 : ℕ) : ZMod p) by simp]
  exact natCast_inj hm (by omega)

theorem lt_two_pow_bitLen (n : ℕ) : n < 2 ^ bitLen n := Nat.lt_size_self n

theorem leadingZeros_le (m n : ℕ) : leadingZeros m n ≤ n := by
  induction n with
  | zero => simp [leadingZeros]
  | succ n ih => unfold leadingZeros; split <;> omega

/-- Honest normalisation. -/
theorem nfNorm_run (G : Good p b f) {m : ℕ} (hm : m < 2 ^ f.M) :
    ∃ k : ℕ, (m ≠ 0 → k = leadingZeros m f.M) ∧
      (nfNorm f ((m : ℕ) : ZMod p)).run b = some (((k : ℕ) : ZMod p), ((m * 2 ^ k : ℕ) : ZMod p)) := by
  have hE := G.hE
  have hEM := G.hEM
  have hM2 := G.hM2
  have hps : f.pow2Size = f.M + f.E + 1 := rfl
  have hmp : m < p := G.lt_of_lt_pow hm (by omega)
  obtain ⟨k, hk, hkM⟩ : ∃ k : ℕ, k = (if m = 0 then 0 else leadingZeros m f.M) ∧ k ≤ f.M :=
    ⟨_, rfl, by split; omega; exact leadingZeros_le _ _⟩
  have hkb : k < 2 ^ bitLen f.M := lt_of_le_of_lt hkM (lt_two_pow_bitLen _)
  have hkp : k < p := by
    refine lt_of_lt_of_le hkb (G.pow_le (le_trans (bitLen_le (k := f.M) Nat.lt_two_pow_self) (by omega)))
  refine ⟨k, fun h => by rw [hk, if_neg h], ?_⟩
  have h1 : normalizeHint ((m : ℕ) : ZMod p) f.M = some ((k : ℕ) : ZMod p) := by
    unfold normalizeHint
    rw [ZMod.val_natCast_of_lt hmp, hk]
    split <;> simp
  have h2 : checkRun b ((k : ℕ) : ZMod p) (bitLen f.M) .loose = true :=
    checkRun_loose G.bpos (by unfold bitLen; exact Nat.size_pos.2 (by omega)) (lt_of_le_of_lt (val_natCast_le _) hkb)
  have h3 := run_queryPowerOf2 (p := p) (size := f.pow2Size) (k := k) G.width (G.pow_le (by omega)) (by omega)
    (by rw [hps]; norm_num; omega)
  have h4 : checkRun b (((m : ℕ) : ZMod p) * 2 ^ k - (1 - isZero ((m : ℕ) : ZMod p)) * tw (f.M - 1)) (f.M - 1) .smallAbs = true := by
    apply checkRun_smallAbs G.bpos (by omega)
    · exact G.pow_le (by have := G.width.mul_le (bits := f.M - 1) (by omega); omega)
    · rw [isZero_natCast hmp]
      by_cases h0 : m = 0
      · simp [h0]
      · have h := leadingZeros_spec (by omega : 0 < m) hm
        have hkk : k = leadingZeros m f.M := by rw [hk, if_neg h0]
        rw [← hkk] at h
        have e1 : ((m : ℕ) : ZMod p) * 2 ^ k - (1 - B (decide (m = 0))) * tw (f.M - 1) = ((m * 2 ^ k - 2 ^ (f.M - 1) : ℕ) : ZMod p) := by
          rw [Nat.cast_sub h.2.1]; simp [h0]
        rw [e1]
        refine lt_of_le_of_lt (val_natCast_le _) ?_
        have : 2 ^ f.M = 2 * 2 ^ (f.M - 1) := by rw [← pow_succ']; congr 1; omega
        omega
  unfold nfNorm
  rw [Circ.run_bind, h1]
  simp only [newHint, Circ.run, assertBitLength, Circ.run_bind, Option.bind, h2, if_true, h3, h4]
  push_cast; rfl

theorem abs_sub_le_pow {a c n : ℕ} (h1 : a < 2 ^ n) (h2 : c ≤ 2 ^ n) : |((a : ℕ) - (c : ℕ) : ℤ)| ≤ 2 ^ n := by
  have h3 : (a : ℤ) < 2 ^ n := by exact_mod_cast h1
  have h4 : (c : ℤ) ≤ 2 ^ n := by exact_mod_cast h2
  rw [abs_le]; constructor <;> omega

/-- Any prover's normalisation. -/
theorem nfNorm_sat (G : Good p b f) {m : ℕ} (hm : m < 2 ^ f.M) {st : Bool} {r : ZMod p × ZMod p}
    (h : (nfNorm f ((m : ℕ) : ZMod p)).Sat b st r) :
    (m ≠ 0 → r = (((leadingZeros m f.M : ℕ) : ZMod p), ((m * 2 ^ leadingZeros m f.M : ℕ) : ZMod p))) ∧
    (m = 0 → r.2 = 0) := by
  have hE := G.hE
  have hEM := G.hEM
  have hM2 := G.hM2
  have hME := G.hME
  have hps : f.pow2Size = f.M + f.E + 1 := rfl
  have hmp : m < p := G.lt_of_lt_pow hm (by omega)
  unfold nfNorm at h
  rw [Circ.sat_bind] at h
  obtain ⟨shift, _, h⟩ := h
  rw [Circ.sat_bind] at h
  obtain ⟨_, hs, h⟩ := h
  rw [Circ.sat_bind] at h
  obtain ⟨t, ht, h⟩ := h
  rw [Circ.sat_bind] at h
  obtain ⟨_, hc, h⟩ := h
  simp only [assertBitLength, Circ.Sat, and_true] at hs hc h
  subst h
  refine ⟨fun h0 => ?_, fun h0 => by simp [h0]⟩
  have hbl : bitLen f.M ≤ 10 := bitLen_le (by norm_num; omega)
  have hbp : 0 < bitLen f.M := by unfold bitLen; exact Nat.size_pos.2 (by omega)
  rw [checkSat_loose_iff G.bpos hbp] at hs
  have hsz : shift.val < 2 ^ f.pow2Size := by
    refine lt_of_lt_of_le hs (Nat.pow_le_pow_right (by norm_num) ?_)
    have := G.width.mul_le hbp; omega
  obtain ⟨k, hk⟩ : ∃ k, k = shift.val := ⟨_, rfl⟩
  have hsk : shift = ((k : ℕ) : ZMod p) := by rw [hk]; simp
  rw [← hk] at hsz
  rw [hsk] at ht
  rw [sat_queryPowerOf2_nat G.width (by omega) (G.pow_le (by omega)) hsz] at ht
  obtain ⟨u, hu, hku, htt⟩ := ht
  rw [isZero_natCast hmp, not_B] at hc
  have hsl : slack b f.pow2Size ≤ 16 := by
    have h1 := slack_lt G.bpos (bits := f.pow2Size) (by omega)
    have h2 := G.width.le
    omega
  have hu16 : u < 2 ^ 16 := lt_of_lt_of_le hu (Nat.pow_le_pow_right (by norm_num) hsl)
  obtain ⟨T, hT⟩ : ∃ T, T = 2 ^ (k + u) + u * 2 ^ f.pow2Size := ⟨_, rfl⟩
  rw [← hT] at htt
  have hTb : T < 2 ^ (f.pow2Size + 16) := by
    have h1 : 2 ^ (k + u) < 2 ^ f.pow2Size := Nat.pow_lt_pow_right (by norm_num) hku
    have h2 : (u + 1) * 2 ^ f.pow2Size ≤ 2 ^ 16 * 2 ^ f.pow2Size := Nat.mul_le_mul_right _ hu16
    rw [pow_add, mul_comm _ (2 ^ 16), hT]
    rw [Nat.add_mul, Nat.one_mul] at h2
    omega
  have hmT : m * T < 2 ^ (2 * f.M + f.E + 17) := by
    calc m * T ≤ 2 ^ f.M * T := Nat.mul_le_mul_right _ hm.le
      _ < 2 ^ f.M * 2 ^ (f.pow2Size + 16) := Nat.mul_lt_mul_of_pos_left hTb (by positivity)
      _ = _ := by rw [← pow_add]; congr 1; omega
  have e1 : ((m : ℕ) : ZMod p) * t - B (!decide (m = 0)) * tw (f.M - 1) = (((m * T : ℕ) - (2 ^ (f.M - 1) : ℕ) : ℤ) : ZMod p) := by
    rw [htt]; simp [h0]
  rw [e1, checkSat_smallAbs_int G.bpos (by omega) (C := 2 * f.M + f.E + 17) (z := ((m * T : ℕ) - (2 ^ (f.M - 1) : ℕ) : ℤ))] at hc
  · have e2 : 2 ^ f.M = 2 * 2 ^ (f.M - 1) := by rw [← pow_succ']; congr 1; omega
    have h1 : 2 ^ (f.M - 1) ≤ m * T := by have := hc.1; omega
    have h2 : m * T < 2 ^ f.M := by
      have h := hc.2
      rw [e2]
      have : ((m * T : ℕ) : ℤ) < ((2 * 2 ^ (f.M - 1) : ℕ) : ℤ) := by push_cast at h ⊢; linarith
      exact_mod_cast this
    have hu0 : u = 0 := by
      by_contra hne
      have h3 : 2 ^ f.pow2Size ≤ T := by
        have := Nat.mul_le_mul_right (2 ^ f.pow2Size) (by omega : 1 ≤ u)
        rw [hT]; exact le_trans (by simpa using this) (Nat.le_add_left _ _)
      have h4 : 2 ^ f.M ≤ 2 ^ f.pow2Size := Nat.pow_le_pow_right (by norm_num) (by omega)
      have h5 : 1 * T ≤ m * T := Nat.mul_le_mul_right _ (by omega)
      omega
    have hTk : T = 2 ^ k := by rw [hT, hu0]; simp
    rw [hTk] at h1 h2 htt
    have h3 := leadingZeros_spec (by omega : 0 < m) hm
    have hkk : k = leadingZeros m f.M := norm_unique (n := f.M - 1) h1
      (by rw [show f.M - 1 + 1 = f.M by omega]; exact h2) h3.2.1 (by rw [show f.M - 1 + 1 = f.M by omega]; exact h3.2.2)
    rw [hsk, htt, hkk]; push_cast; rfl
  · exact abs_sub_le_pow hmT (Nat.pow_le_pow_right (by norm_num) (by omega))
  · omega
  · exact G.pow_le (by have := G.width.le; omega)

theorem nfSel_spec (G : Good p b f) {s : Bool} {e m : ℕ} (he : e < 2 ^ f.E) (hm : m < 2 ^ f.M)
    {t : ZMod p × ZMod p}
    (ht : m ≠ 0 → t = (((leadingZeros m f.M : ℕ) : ZMod p), ((m * 2 ^ leadingZeros m f.M : ℕ) : ZMod p)))
    (ht0 : m = 0 → t.2 = 0) :
    Det b H (nfSel f (B s) ((e : ℕ) : ZMod p) ((m : ℕ) : ZMod p) t)
      (fltOf f (s.toNat * 2 ^ (f.E + f.M) + e * 2 ^ f.M + m)).toVar := by
  have hE := G.hE
  have hEM := G.hEM
  have hM2 := G.hM2
  have hMz := G.hMz
  have hmp : m < p := G.lt_of_lt_pow hm (by omega)
  have hzE := G.zE
  have hpE : (2 : ℤ) ^ (f.E + 2) ≤ p := by exact_mod_cast G.pow_le (k := f.E + 2) (by omega)
  have hpE' : (2 : ℤ) ^ (f.E + 2) = 8 * f.eMax := by rw [pow_add, hzE]; ring
  have hez : (e : ℤ) < 2 * f.eMax := by rw [← hzE]; exact_mod_cast he
  have hN := f.eNormalMin_eq
  obtain ⟨g1, g2, g3, g4⟩ := enc_fields (s := s.toNat) he hm
  have hmin : gIsEq (((e : ℕ) : ZMod p) + ((f.eNormalMin - 1 : ℤ) : ZMod p)) ((f.eNormalMin - 1 : ℤ) : ZMod p) = B (decide (e = 0)) := by
    rw [gIsEq_eq]; congr 1; rw [decide_eq_decide, add_eq_right, show (0 : ZMod p) = ((0 : ℕ) : ZMod p) by simp]
    exact natCast_inj (by omega) (by omega)
  have hmax : gIsEq (((e : ℕ) : ZMod p) + ((f.eNormalMin - 1 : ℤ) : ZMod p)) ((f.eMax : ℤ) : ZMod p) = B (decide (e = 2 ^ f.E - 1)) := by
    rw [gIsEq_eq]; congr 1
    rw [decide_eq_decide]
    rw [show ((e : ℕ) : ZMod p) + ((f.eNormalMin - 1 : ℤ) : ZMod p) = ((e + (f.eNormalMin - 1) : ℤ) : ZMod p) by push_cast; rfl]
    rw [intCast_inj (by rw [abs_lt]; constructor <;> omega)]
    have h1 : ((2 ^ f.E : ℕ) : ℤ) = 2 * f.eMax := by push_cast; exact hzE
    have h2 : 0 < 2 ^ f.E := by positivity
    omega
  unfold nfSel
  simp only [hmin, hmax]
  rw [isZero_natCast hmp, not_B]
  refine Spec.det_bind (select_spec _ _ _) (Spec.det_bind (select_spec _ _ _) (Spec.det_bind (and_spec _ _)
    (Spec.det_bind (select_spec _ _ _) (Spec.det_bind (select_spec _ _ _) ?_))))
  have h2E : 1 < 2 ^ f.E := Nat.one_lt_two_pow (by omega)
  have hs : decide ((s.toNat * 2 ^ (f.E + f.M) + e * 2 ^ f.M + m) / 2 ^ (f.E + f.M) % 2 = 1) = s := by
    rw [g1]; cases s <;> simp
  have hgoal : (⟨B s, if decide (e = 0) = true then
        (if decide (m = 0) = true then ((f.eNormalMin - 1 : ℤ) : ZMod p) - (f.M : ZMod p)
          else ((e : ℕ) : ZMod p) + ((f.eNormalMin - 1 : ℤ) : ZMod p) - t.1)
        else ((e : ℕ) : ZMod p) + ((f.eNormalMin - 1 : ℤ) : ZMod p),
      if decide (e = 0) = true then t.2 + t.2 else
        (if (decide (e = 2 ^ f.E - 1) && !decide (m = 0)) = true then 0 else ((m : ℕ) : ZMod p) + tw f.M),
      B (decide (e = 2 ^ f.E - 1))⟩ : FloatVar p) =
      (fltOf f (s.toNat * 2 ^ (f.E + f.M) + e * 2 ^ f.M + m)).toVar := by
    unfold fltOf
    simp only [hs, g3, g4]
    unfold Flt.toVar
    by_cases h1 : e = 2 ^ f.E - 1
    · have h0 : ¬ e = 0 := by omega
      have hcast : ((e : ℕ) : ZMod p) + ((f.eNormalMin - 1 : ℤ) : ZMod p) = ((f.eMax : ℤ) : ZMod p) := by
        rw [gIsEq_eq] at hmax
        have := (B_inj (p := p)).1 hmax
        rw [decide_eq_decide] at this
        exact this.2 h1
      rw [if_pos h1]
      by_cases hm0 : m = 0
      · simp only [h0, hm0, decide_false, Bool.false_eq_true, if_false, hcast]
        simp [h1]
      · simp only [h0, hm0, decide_false, Bool.false_eq_true, if_false, hcast]
        simp [h1]
    · rw [if_neg h1]
      by_cases h0 : e = 0
      · rw [if_pos h0]
        by_cases hm0 : m = 0
        · have := ht0 hm0
          subst hm0; subst h0
          rw [leadingZeros_zero]
          simp [this, h1]
        · have := ht hm0
          subst h0
          simp only [hm0, this, h1]
          simp
          ring
      · rw [if_neg h0]
        simp only [h0, h1, decide_false, Bool.false_eq_true, if_false, Bool.false_and]
        ext
        · rfl
        · push_cast [f.eNormalMin_eq]; ring
        · push_cast; rfl
        · rfl
  rw [← hgoal]
  exact Spec.pure _

/-- `NewFloat`: honest prover. -/
theorem newFloat_run (G : Good p b f) (h64 : 1 + f.E + f.M ≤ 64) {v : ℕ} (hv : v < 2 ^ (1 + f.E + f.M)) :
    (newFloat f ((v : ℕ) : ZMod p)).run b = some (fltOf f v).toVar := by
  have hE := G.hE
  have hEM := G.hEM
  have hvp : v < p := G.lt_of_lt_pow hv (by omega)
  have hv64 : u64 v = v := Nat.mod_eq_of_lt (lt_of_lt_of_le hv (Nat.pow_le_pow_right (by norm_num) h64))
  obtain ⟨s, e, m, hs, he, hm, rfl⟩ := exists_enc hv
  obtain ⟨s, rfl⟩ : ∃ c : Bool, s = c.toNat := by
    have : s = 0 ∨ s = 1 := by omega
    rcases this with rfl | rfl
    · exact ⟨false, rfl⟩
    · exact ⟨true, rfl⟩
  obtain ⟨g1, g2, g3, g4⟩ := enc_fields (s := s.toNat) he hm
  have hd1 : decodeSignHint ((s.toNat * 2 ^ (f.E + f.M) + e * 2 ^ f.M + m : ℕ) : ZMod p) f.E f.M = some (B s) := by
    unfold decodeSignHint
    rw [ZMod.val_natCast_of_lt hvp, hv64, g1]; cases s <;> simp
  have hd2 : decodeExpHint ((s.toNat * 2 ^ (f.E + f.M) + e * 2 ^ f.M + m : ℕ) : ZMod p) f.E f.M = some ((e : ℕ) : ZMod p) := by
    unfold decodeExpHint
    rw [ZMod.val_natCast_of_lt hvp, hv64, g1, g2, Nat.add_sub_cancel_left]
  have hmm : ((s.toNat * 2 ^ (f.E + f.M) + e * 2 ^ f.M + m : ℕ) : ZMod p) - (B s * tw (f.E + f.M) + ((e : ℕ) : ZMod p) * tw f.M) = ((m : ℕ) : ZMod p) := by
    cases s <;> push_cast <;> simp
  rw [newFloat_eq, hd1, hd2]
  simp only [newHint, Circ.bind, Circ.run]
  rw [hmm]
  obtain ⟨k, hk, hrun⟩ := nfNorm_run (p := p) (b := b) G hm
  have c1 : checkRun b ((e : ℕ) : ZMod p) f.E .unknown = true :=
    checkRun_unknown G.bpos (by omega) (lt_of_le_of_lt (val_natCast_le _) he)
  have c2 : checkRun b ((m : ℕ) : ZMod p) f.M .unknown = true :=
    checkRun_unknown G.bpos (by omega) (lt_of_le_of_lt (val_natCast_le _) hm)
  simp only [assertIsBoolean, assertBitLength, Circ.bind, Circ.run, isBool_B, c1, c2, if_true]
  rw [Circ.run_bind, hrun]
  exact (nfSel_spec (H := True) G he hm (by intro h; rw [hk h]) (by intro h; simp [h])).run

/-- `NewFloat`: any prover, every table width. -/
theorem newFloat_sat (G : Good p b f) {v : ZMod p} {st : Bool} {r : FloatVar p} (h : (newFloat f v).Sat b st r) :
    v.val < 2 ^ (1 + f.E + f.M) ∧ r = (fltOf f v.val).toVar := by
  have hE := G.hE
  have hEM := G.hEM
  have h2b : 2 ^ (2 * b) ≤ p := G.pow_le (by have := G.width.le; have := G.hME; omega)
  rw [newFloat_eq] at h
  simp only [Circ.sat_bind] at h
  obtain ⟨s, _, e, _, _, hs, _, he, _, hm, t, ht, h⟩ := h
  simp only [assertIsBoolean, assertBitLength, Circ.Sat, and_true] at hs he hm
  rw [isBool_iff] at hs
  obtain ⟨c, rfl⟩ := hs
  rw [checkSat_unknown_iff G.bpos (by omega) h2b] at he hm
  obtain ⟨m, hmd⟩ : ∃ m, m = (v - (B c * tw (f.E + f.M) + e * tw f.M)).val := ⟨_, rfl⟩
  obtain ⟨e', hed⟩ : ∃ e', e' = e.val := ⟨_, rfl⟩
  have hee : e = ((e' : ℕ) : ZMod p) := by rw [hed]; simp
  have hmm : v - (B c * tw (f.E + f.M) + e * tw f.M) = ((m : ℕ) : ZMod p) := by rw [hmd]; simp
  rw [← hmd] at hm
  rw [← hed] at he
  rw [hmm] at ht h
  have hv : v = ((c.toNat * 2 ^ (f.E + f.M) + e' * 2 ^ f.M + m : ℕ) : ZMod p) := by
    rw [← sub_add_cancel v (B c * tw (f.E + f.M) + e * tw f.M), hmm, hee]
    cases c <;> push_cast <;> simp <;> ring
  have hlt := enc_lt (s := c.toNat) (by cases c <;> simp) he hm
  have hvv : v.val = c.toNat * 2 ^ (f.E + f.M) + e' * 2 ^ f.M + m := by
    rw [hv, ZMod.val_natCast_of_lt (G.lt_of_lt_pow hlt (by omega))]
  refine ⟨by rw [hvv]; exact hlt, ?_⟩
  rw [hvv]
  obtain ⟨n1, n2⟩ := nfNorm_sat G hm ht
  rw [hee] at h
  exact ((nfSel_spec (H := True) G he hm n1 n2).sat trivial st r).1 h

end ZkLoc
