import Verif.DivSpec

/-!
# Helper lemmas: circuit-level specification of `Sqrt`
-/

namespace ZkLoc

variable {p : ℕ} [Fact p.Prime] {b : ℕ} {H : Prop} {f : Fmt}

/-- Integer-level `Sqrt`. -/
def sqrtZ (f : Fmt) (x : Flt) : Flt :=
  let odd : Bool := decide (x.exp % 2 = 1)
  let e := (x.exp - (if odd then 1 else 0)) / 2
  let m0 := x.man * 2 ^ (f.M + 4)
  let m := if odd then m0 + m0 else m0
  let n := Nat.sqrt m
  let q := rnd n 2 (decide (m = n * n))
  let abn := (x.sign && !decide (n = 0)) || x.abn
  ⟨x.sign, if abn then f.eMax else if n = 0 then f.eMin else e, if x.sign then 0 else q, abn⟩

/-- Radicand and integer root in `Sqrt`. -/
def sqrtM (f : Fmt) (x : Flt) : ℕ :=
  if decide (x.exp % 2 = 1) then x.man * 2 ^ (f.M + 4) + x.man * 2 ^ (f.M + 4) else x.man * 2 ^ (f.M + 4)
def sqrtN (f : Fmt) (x : Flt) : ℕ := Nat.sqrt (sqrtM f x)

/-- Integer-level `Sqrt` when `round` returns the significand `q`. -/
def sqrtFin (f : Fmt) (x : Flt) (q : ℕ) : Flt :=
  let abn := (x.sign && !decide (sqrtN f x = 0)) || x.abn
  ⟨x.sign, if abn then f.eMax else if sqrtN f x = 0 then f.eMin else (x.exp - (if decide (x.exp % 2 = 1) then 1 else 0)) / 2,
    if x.sign then 0 else q, abn⟩

/-- The rounding in `Sqrt` can be forged. -/
def SqrtForge (b : ℕ) (f : Fmt) (x : Flt) : Prop := RoundForge b f (sqrtN f x) (f.M + 3) 0 0

theorem sqrtZ_eq (f : Fmt) (x : Flt) :
    sqrtZ f x = sqrtFin f x (rnd (sqrtN f x) 2 (decide (sqrtM f x = sqrtN f x * sqrtN f x))) := rfl

theorem two_ne_zero (G : Good p b f) : (2 : ZMod p) ≠ 0 := by
  have h1 := G.pow_lt (k := 1) (by omega)
  intro h
  have := (natCast_inj (p := p) (a := 2) (c := 0) (by omega) (by omega)).1 (by exact_mod_cast h)
  omega

/-- A small field element has a small double. -/
theorem sqrt_parity (G : Good p b f) {z : ℤ} {v : ZMod p} (hv : 2 * v = ((z : ℤ) : ZMod p))
    (hz : |z| ≤ 4 * f.eMax) {c : Bool} (h : CheckSat b (if c then v else -v) (f.E - 1) .loose) :
    z % 2 = 0 := by
  have hE := G.hE
  have hEM := G.hEM
  have hME := G.zE1
  rw [checkSat_loose_iff G.bpos (by omega)] at h
  have h2 := G.width.mul_le (bits := f.E - 1) (by omega)
  have h3 : (if c then v else -v).val < 2 ^ (f.M + 20) :=
    lt_of_lt_of_le h (Nat.pow_le_pow_right (by norm_num) (by omega))
  have hzb : |z| ≤ 2 ^ (f.M + 20) := by
    rw [← hME] at hz
    exact le_trans hz (pow_le_pow_right₀ (by norm_num) (by omega))
  obtain ⟨n, hn⟩ : ∃ n : ℕ, (if c then v else -v) = ((n : ℕ) : ZMod p) ∧ n < 2 ^ (f.M + 20) :=
    ⟨_, by simp, h3⟩
  obtain ⟨hn1, hn2⟩ := hn
  have hp : (2:ℤ) ^ (f.M + 20 + 3) ≤ p := by exact_mod_cast G.pow_le (by omega)
  have hn2' : (n : ℤ) < 2 ^ (f.M + 20) := by exact_mod_cast hn2
  rw [show (2:ℤ) ^ (f.M + 20 + 3) = 8 * 2 ^ (f.M + 20) by ring] at hp
  rw [abs_le] at hzb
  generalize (2:ℤ) ^ (f.M + 20) = P at *
  cases c
  · simp only [Bool.false_eq_true, if_false] at hn1
    have : (((-2 * n : ℤ)) : ZMod p) = ((z : ℤ) : ZMod p) := by
      rw [← hv]; push_cast; rw [← hn1]; ring
    rw [intCast_inj (by rw [abs_lt]; constructor <;> linarith)] at this
    omega
  · simp only [if_true] at hn1
    have : (((2 * n : ℤ)) : ZMod p) = ((z : ℤ) : ZMod p) := by
      rw [← hv]; push_cast; rw [← hn1]
    rw [intCast_inj (by rw [abs_lt]; constructor <;> linarith)] at this
    omega

/-- The square-root hint is forced by its two range checks. -/
theorem sqrt_sound (G : Good p b f) {m : ℕ} (hm : m < 2 ^ (2 * f.M + 6)) {v : ZMod p}
    (h1 : CheckSat b (((m : ℕ) : ZMod p) - v * v) (f.M + 3 + 1) .loose)
    (h2 : CheckSat b (v + v - (((m : ℕ) : ZMod p) - v * v)) (f.M + 3 + 1) .loose) :
    v = ((Nat.sqrt m : ℕ) : ZMod p) := by
  have hE := G.hE
  have hEM := G.hEM
  rw [checkSat_loose_iff G.bpos (by omega)] at h1 h2
  have hle := G.width.mul_le (bits := f.M + 3 + 1) (by omega)
  have h1' := lt_of_lt_of_le h1 (Nat.pow_le_pow_right (by norm_num) hle)
  have h2' := lt_of_lt_of_le h2 (Nat.pow_le_pow_right (by norm_num) hle)
  clear h1 h2
  obtain ⟨R, hR, hRlt⟩ : ∃ R : ℕ, ((m : ℕ) : ZMod p) - v * v = ((R : ℕ) : ZMod p) ∧ R < 2 ^ (f.M + 3 + 1 + 16) :=
    ⟨_, by simp, h1'⟩
  obtain ⟨S, hS, hSlt⟩ : ∃ S : ℕ, v + v - (((m : ℕ) : ZMod p) - v * v) = ((S : ℕ) : ZMod p) ∧ S < 2 ^ (f.M + 3 + 1 + 16) :=
    ⟨_, by simp, h2'⟩
  clear h1' h2'
  have hv2 : 2 * v = ((R + S : ℕ) : ZMod p) := by
    rw [hR] at hS
    push_cast; rw [← hS]; ring
  have hsq : (((R + S) * (R + S) + 4 * R : ℕ) : ZMod p) = ((4 * m : ℕ) : ZMod p) := by
    push_cast
    have e : (R : ZMod p) + S = 2 * v := by rw [hv2]; push_cast; rfl
    rw [e, ← hR]; ring
  have hRS : R + S < 2 ^ (f.M + 21) := by
    rw [show 2 ^ (f.M + 21) = 2 * 2 ^ (f.M + 3 + 1 + 16) by ring]; omega
  have hlt1 : (R + S) * (R + S) + 4 * R < 2 ^ (2 * f.M + 43) := by
    have h3 : (R + S) * (R + S) ≤ 2 ^ (f.M + 21) * 2 ^ (f.M + 21) := Nat.mul_le_mul hRS.le hRS.le
    rw [← pow_add, show f.M + 21 + (f.M + 21) = 2 * f.M + 42 by omega] at h3
    have h4 : 4 * 2 ^ (f.M + 3 + 1 + 16) ≤ 2 ^ (2 * f.M + 42) := by
      rw [show 4 * 2 ^ (f.M + 3 + 1 + 16) = 2 ^ (f.M + 22) by ring]
      exact Nat.pow_le_pow_right (by norm_num) (by omega)
    rw [show 2 ^ (2 * f.M + 43) = 2 * 2 ^ (2 * f.M + 42) by ring]
    generalize 2 ^ (2 * f.M + 42) = A at *
    generalize 2 ^ (f.M + 3 + 1 + 16) = C at *
    omega
  have hlt2 : 4 * m < 2 ^ (2 * f.M + 8) := by
    rw [show 2 ^ (2 * f.M + 8) = 4 * 2 ^ (2 * f.M + 6) by ring]; omega
  rw [natCast_inj (G.lt_of_lt_pow hlt1 (by omega)) (G.lt_of_lt_pow hlt2 (by omega))] at hsq
  have heven : (R + S) % 2 = 0 := by
    by_contra h
    obtain ⟨k, hk⟩ : ∃ k, R + S = 2 * k + 1 := ⟨(R + S) / 2, by omega⟩
    rw [hk] at hsq
    have : (2 * k + 1) * (2 * k + 1) = 4 * (k * k + k) + 1 := by ring
    omega
  obtain ⟨n, hn⟩ : ∃ n, R + S = 2 * n := ⟨(R + S) / 2, by omega⟩
  rw [hn] at hsq
  have hnm : n * n + R = m := by
    have : 2 * n * (2 * n) = 4 * (n * n) := by ring
    omega
  have hsqrt : Nat.sqrt m = n := by
    rw [eq_comm, Nat.eq_sqrt]
    have : (n + 1) * (n + 1) = n * n + 2 * n + 1 := by ring
    omega
  rw [hsqrt]
  apply mul_left_cancel₀ (two_ne_zero G)
  rw [hv2, hn]; push_cast; rfl

theorem fSqrt_core (G : Good p b f) {x : Flt} (hx : x.Bdd f) {Fz : Prop} (hround : sqrtN f x < 2 ^ (f.M + 3) → ∀ h,
      RoundOut p b H f (sqrtN f x) (f.M + 3) 0 0 h Fz) :
    Spec b H (fSqrt f (x.toVar : FloatVar p)) (sqrtZ f x).toVar
      (fun r => r = (sqrtZ f x).toVar ∨ (Fz ∧ r = (sqrtFin f x 0).toVar)) := by
  have hE := G.hE
  have hEM := G.hEM
  have hM := G.hMz
  have hNm := f.eNormalMin_eq
  have hmn := f.eMin_eq
  have hb17 := G.width.le
  obtain ⟨hx1, hx2, hx3⟩ := hx
  unfold fSqrt
  simp only [Circ.bind_eq, Circ.pure_eq, Flt.toVar]
  obtain ⟨odd, hodd⟩ : ∃ odd : Bool, odd = decide (x.exp % 2 = 1) := ⟨_, rfl⟩
  obtain ⟨e, he⟩ : ∃ e, e = (x.exp - (if odd then 1 else 0)) / 2 := ⟨_, rfl⟩
  have he2 : 2 * e = x.exp - (if odd then 1 else 0) := by
    rw [he, hodd]; by_cases h : x.exp % 2 = 1 <;> simp [h] <;> omega
  have h20 := two_ne_zero G
  have hpz : (2:ℤ) ^ (f.E + 1) ≤ 2 ^ (f.M + 1) := pow_le_pow_right₀ (by norm_num) (by omega)
  have hpz2 : (2:ℤ) ^ (f.M + 1) < p := by exact_mod_cast G.pow_lt (k := f.M + 1) (by omega)
  rw [G.zE1] at hpz
  refine Spec.hint_det (v0 := B odd) ?_ ?_ ?_
  · unfold nthBitHint
    rw [← Int.cast_sub]
    have hd : sqrtDelta f % 2 = 0 ∧ sqrtDelta f ≤ f.eMin ∧ f.eMin - 1 ≤ sqrtDelta f := by
      unfold sqrtDelta; split <;> omega
    obtain ⟨n, hn⟩ : ∃ n : ℕ, x.exp - sqrtDelta f = (n : ℤ) := Int.eq_ofNat_of_zero_le (by omega)
    rw [hn, Int.cast_natCast]
    have hnp : n < p := by omega
    rw [ZMod.val_natCast_of_lt hnp]
    have : n.testBit 0 = odd := by
      rw [hodd, Nat.testBit_zero, decide_eq_decide]; omega
    rw [this]; rfl
  · intro _ v r hs
    simp only [assertIsBoolean, inverse, gAbs, newHint, select, softBool, assertBitLength, Circ.bind_eq,
      Circ.pure_eq, Circ.bind, Circ.Sat] at hs
    obtain ⟨hc, -, c, -, hc2, -, h3, -⟩ := hs
    obtain ⟨c, rfl⟩ := (isBool_iff c).1 hc2
    obtain ⟨o, rfl⟩ := (isBool_iff v).1 hc
    rw [sel_B] at h3
    have hpar := sqrt_parity G (z := x.exp - (if o then 1 else 0)) (v := (((x.exp : ℤ) : ZMod p) - B o) * 2⁻¹) (c := c)
      (by rw [mul_comm, mul_assoc, inv_mul_cancel₀ h20, mul_one]; rw [B_int]; push_cast; rfl)
      (by rw [abs_le]; cases o <;> simp <;> constructor <;> omega)
      (by cases c <;> simpa using h3)
    congr 1
    rw [hodd]
    cases o <;> simp at hpar ⊢ <;> omega
  refine Spec.det_bind (assertIsBoolean_spec _) ?_
  refine Spec.det_bind (inverse_spec h20) ?_
  have hec : (((x.exp : ℤ) : ZMod p) - B odd) * 2⁻¹ = ((e : ℤ) : ZMod p) := by
    have : ((x.exp : ℤ) : ZMod p) - B odd = ((2 * e : ℤ) : ZMod p) := by
      rw [he2, B_int]; push_cast; rfl
    rw [this]; push_cast
    rw [mul_comm, ← mul_assoc, inv_mul_cancel₀ h20, one_mul]
  rw [hec]
  have hebd : |e| < 2 ^ (f.E - 1) := by
    have : (2:ℤ) ^ (f.E - 1) = f.eMax := rfl
    rw [this, abs_lt]
    cases odd <;> simp at he2 <;> constructor <;> omega
  refine Spec.bind_irrel (gAbs_spec G.width (by omega) hebd (G.pow_le (by omega))) (absOut_honest _) (fun a _ => ?_)
  refine Spec.det_bind (select_spec _ _ _) ?_
  rw [show (f.M + 3) * 2 - (f.M + 2) = f.M + 4 by omega]
  obtain ⟨m, hm⟩ : ∃ m, m = if odd then x.man * 2 ^ (f.M + 4) + x.man * 2 ^ (f.M + 4) else x.man * 2 ^ (f.M + 4) := ⟨_, rfl⟩
  have hmc : (if odd = true then ((x.man : ℕ) : ZMod p) * tw (f.M + 4) + ((x.man : ℕ) : ZMod p) * tw (f.M + 4)
      else ((x.man : ℕ) : ZMod p) * tw (f.M + 4)) = ((m : ℕ) : ZMod p) := by
    rw [hm]; cases odd <;> simp
  rw [hmc]
  have hmlt : m < 2 ^ (2 * f.M + 6) := by
    have h1 : x.man * 2 ^ (f.M + 4) < 2 ^ (f.M + 1) * 2 ^ (f.M + 4) := Nat.mul_lt_mul_of_pos_right hx1 (by positivity)
    rw [← pow_add] at h1
    rw [show 2 * f.M + 6 = f.M + 1 + (f.M + 4) + 1 by omega, pow_succ, hm]
    cases odd <;> simp <;> omega
  obtain ⟨n, hn⟩ : ∃ n, n = Nat.sqrt m := ⟨_, rfl⟩
  have hn1 : n * n ≤ m := hn ▸ Nat.sqrt_le m
  have hn2 : m ≤ n * n + n + n := hn ▸ Nat.sqrt_le_add m
  have hnlt : n < 2 ^ (f.M + 3) := by
    rw [hn, Nat.sqrt_lt, ← pow_add, show f.M + 3 + (f.M + 3) = 2 * f.M + 6 by omega]; exact hmlt
  refine Spec.hint_det (v0 := ((n : ℕ) : ZMod p)) ?_ ?_ ?_
  · unfold sqrtHint; rw [ZMod.val_natCast_of_lt (G.lt_of_lt_pow hmlt (by omega)), ← hn]
  · intro _ v r hs
    simp only [assertBitLength, Circ.bind, Circ.Sat] at hs
    rw [hn]; exact sqrt_sound G hmlt hs.1 hs.2.1
  have er : ((m : ℕ) : ZMod p) - ((n : ℕ) : ZMod p) * ((n : ℕ) : ZMod p) = ((m - n * n : ℕ) : ZMod p) := by
    rw [Nat.cast_sub hn1]; push_cast; rfl
  have er2 : ((n : ℕ) : ZMod p) + ((n : ℕ) : ZMod p) - ((m - n * n : ℕ) : ZMod p) = ((n + n - (m - n * n) : ℕ) : ZMod p) := by
    rw [Nat.cast_sub (show m - n * n ≤ n + n by omega), Nat.cast_add]
  have hnn : n + n < 2 ^ (f.M + 3 + 1) := by rw [pow_succ]; omega
  rw [er, er2]
  refine Spec.det_bind (check_loose_spec G.width (by omega) (by omega)) ?_
  refine Spec.det_bind (check_loose_spec G.width (by omega) (by omega)) ?_
  rw [isZero_nat G (G.lt_of_lt_pow hnlt (by omega)),
    isZero_nat G (n := m - n * n) (lt_of_le_of_lt (Nat.sub_le _ _) (G.lt_of_lt_pow hmlt (by omega)))]
  have hMd : sqrtM f x = m := by unfold sqrtM; rw [← hodd, ← hm]
  have hNd : sqrtN f x = n := by unfold sqrtN; rw [hMd, ← hn]
  have hr := hround (hNd ▸ hnlt) (decide (m - n * n = 0))
  rw [hNd] at hr
  unfold RoundOut at hr
  rw [show 0 + (f.M + 3) - f.M - 1 = 2 by omega, Nat.cast_zero, Nat.sub_zero, pow_zero, mul_one, mul_one] at hr
  have hdz : decide (m - n * n = 0) = decide (m = n * n) := by rw [decide_eq_decide]; omega
  rw [hdz] at hr ⊢
  have tail : ∀ q : ℕ, Det b H (Circ.bind (and' (B x.sign) (1 - B (decide (n = 0)))) fun negNonzero =>
      Circ.bind (or' negNonzero (B x.abn)) fun abn =>
      Circ.bind (select (B (decide (n = 0))) ((f.eMin : ℤ) : ZMod p) ((e : ℤ) : ZMod p)) fun e1 =>
      Circ.bind (select abn ((f.eMax : ℤ) : ZMod p) e1) fun e2 =>
      Circ.bind (select (B x.sign) 0 ((q : ℕ) : ZMod p)) fun m' =>
        Circ.pure (⟨B x.sign, e2, m', abn⟩ : FloatVar p)) (sqrtFin f x q).toVar := by
    intro q
    rw [not_B]
    refine Spec.det_bind (and_spec _ _) (Spec.det_bind (or_spec _ _) (Spec.det_bind (select_spec _ _ _)
      (Spec.det_bind (select_spec _ _ _) (Spec.det_bind (select_spec _ _ _) ?_))))
    have hres : sqrtFin f x q = ⟨x.sign, if ((x.sign && !decide (n = 0)) || x.abn) then f.eMax else if n = 0 then f.eMin else e,
        if x.sign then 0 else q, (x.sign && !decide (n = 0)) || x.abn⟩ := by
      unfold sqrtFin; simp only; rw [hNd, ← hodd, ← he]
    rw [hres]
    have : (⟨B x.sign, if ((x.sign && !decide (n = 0)) || x.abn) = true then ((f.eMax : ℤ) : ZMod p)
        else if decide (n = 0) = true then ((f.eMin : ℤ) : ZMod p) else ((e : ℤ) : ZMod p),
        if x.sign = true then 0 else ((q : ℕ) : ZMod p), B ((x.sign && !decide (n = 0)) || x.abn)⟩ : FloatVar p) =
        Flt.toVar ⟨x.sign, if ((x.sign && !decide (n = 0)) || x.abn) then f.eMax else if n = 0 then f.eMin else e,
        if x.sign then 0 else q, (x.sign && !decide (n = 0)) || x.abn⟩ := by
      ext
      · rfl
      · simp only [Flt.toVar]
        by_cases h : ((x.sign && !decide (n = 0)) || x.abn) = true
        · rw [if_pos h, if_pos h]
        · rw [if_neg h, if_neg h]; by_cases h0 : n = 0 <;> simp [h0]
      · simp only [Flt.toVar]; cases x.sign <;> simp
      · rfl
    rw [← this]
    exact Spec.pure _
  have hz : sqrtZ f x = sqrtFin f x (rnd n 2 (decide (m = n * n))) := by rw [sqrtZ_eq, hNd, hMd]
  rw [hz]
  exact Spec.bind_forge hr (tail _) (tail 0)

theorem fSqrt_spec (G : Good p b f) {x : Flt} (hx : x.Bdd f) (hH : H → b ∣ f.pow2Size) :
    Det b H (fSqrt f (x.toVar : FloatVar p)) (sqrtZ f x).toVar := by
  have hE := G.hE
  have hEM := G.hEM
  exact (fSqrt_core G hx fun hN h => round_spec_dvd (p := p) (f := f) G hN (by omega) (by omega) le_rfl
    (by unfold Fmt.pow2Size; omega) (by omega) h hH).congr rfl (by simp)

/-- The exact outcomes of `Sqrt` at every table width. -/
theorem fSqrt_spec_any (G : Good p b f) {x : Flt} (hx : x.Bdd f) :
    Spec b H (fSqrt f (x.toVar : FloatVar p)) (sqrtZ f x).toVar
      (fun r => r = (sqrtZ f x).toVar ∨ (SqrtForge b f x ∧ r = (sqrtFin f x 0).toVar)) := by
  have hE := G.hE
  have hEM := G.hEM
  have hME := G.hME
  have hb17 := G.width.le
  exact fSqrt_core G hx fun hN h => round_spec_any (p := p) (f := f) G hN (by omega) (by omega) le_rfl
    (by unfold Fmt.pow2Size; omega) (by omega) (G.pow_le (by unfold Fmt.pow2Size; omega)) h

end ZkLoc
