import Verif.FixSpec

/-!
# Helper lemmas: circuit-level specification of `Mul`
-/

namespace ZkLoc

variable {p : ℕ} [Fact p.Prime] {b : ℕ} {H : Prop} {f : Fmt}

/-- Sequencing after a hint whose value is forced by the constraints that follow. -/
theorem Spec.hint_det {α : Type} {h : Option (ZMod p)} {v0 : ZMod p} {g : ZMod p → Circ p α} {w : α}
    {T : α → Prop} (hh : h = some v0) (hs : H → ∀ v r, (g v).Sat b false r → v = v0)
    (hf : Spec b H (g v0) w T) : Spec b H (Circ.bind (newHint h) g) w T := by
  subst hh
  refine ⟨hf.run, fun hH st r => ?_⟩
  rw [← hf.sat hH st r]
  simp only [newHint, Circ.bind, Circ.Sat]
  constructor
  · rintro ⟨v, hv⟩
    have : v = v0 := by
      refine hs hH v r ?_
      cases st
      · exact hv
      · exact Circ.sat_mono _ _ hv
    exact this ▸ hv
  · intro h; exact ⟨v0, h⟩

theorem assertIsBoolean_spec (c : Bool) : Det b H (assertIsBoolean (B c : ZMod p)) () :=
  Spec.det_of (by simp [assertIsBoolean, Circ.run, isBool_B]) (by intros; rfl)

/-- The bounds that all gadgets need on their inputs. -/
structure Flt.Bdd (f : Fmt) (x : Flt) : Prop where
  man : x.man < 2 ^ (f.M + 1)
  lo : f.eMin ≤ x.exp
  hi : x.exp ≤ f.eMax

theorem Flt.Valid.bdd (G : Good p b f) {x : Flt} (h : x.Valid f) : x.Bdd f :=
  ⟨h.man_lt, h.exp_ge G, h.exp_le G⟩

/-- Number of positions the significand is shifted because the result is subnormal. -/
def subShift (f : Fmt) (e : ℤ) (smax : ℕ) : ℕ := (max (min (f.eNormalMin - e) smax) 0).toNat

theorem subShift_le (e : ℤ) (smax : ℕ) : subShift f e smax ≤ smax := by
  unfold subShift; omega

theorem subnormalShift_spec (G : Good p b f) {e : ℤ} {smax : ℕ} (hs : (smax : ℤ) ≤ f.eMax)
    (h1 : -3 * f.eMax < e) (h2 : e + smax ≤ 3 * f.eMax) :
    Det b H (subnormalShift f ((e : ℤ) : ZMod p) smax) ((subShift f e smax : ℕ) : ZMod p) := by
  have hE := G.hE
  have hEM := G.hEM
  have hM := G.hMz
  have hN := f.eNormalMin_eq
  unfold subnormalShift
  simp only [Circ.bind_eq]
  rw [← Int.cast_sub, ← Int.cast_natCast (R := ZMod p) smax]
  refine Spec.det_bind (gMin_spec G.width (by omega) ?_ (G.pow_le (by omega))) ?_
  · rw [G.zE1, abs_lt]; constructor <;> omega
  · have := gMax_spec (p := p) (b := b) (H := H) (x := min (f.eNormalMin - e) smax) (y := 0) (len := f.E + 1) G.width
      (by omega) (by rw [G.zE1, abs_lt]; constructor <;> omega) (G.pow_le (by omega))
    rw [Int.cast_zero] at this
    have h3 : ((subShift f e smax : ℕ) : ZMod p) = ((max (min (f.eNormalMin - e) (smax : ℤ)) 0 : ℤ) : ZMod p) := by
      rw [← Int.cast_natCast]; congr 1
      unfold subShift; omega
    rw [h3]; exact this

/-- Integer-level `Mul`. -/
def mulZ (f : Fmt) (x y : Flt) (c : Bool) : Flt :=
  let N0 := x.man * y.man
  let msb : Bool := decide (2 ^ (2 * f.M + 1) ≤ N0)
  let N := if msb then N0 else N0 + N0
  let e := x.exp + y.exp + (if msb then 1 else 0)
  let σ := subShift f e (f.M + 2)
  let m := rnd (N * 2 ^ (f.M + 2 - σ)) (2 * f.M + 3) true * 2 ^ σ
  let r := fixZ f m (decide (m = 0)) e (x.abn || y.abn) c
  ⟨xor x.sign y.sign, r.2.1, if m = 0 then 0 else r.1, r.2.2⟩

/-- The significand handed to `round` by `Mul`, its exponent and the shift. -/
def mulN (f : Fmt) (x y : Flt) : ℕ :=
  if decide (2 ^ (2 * f.M + 1) ≤ x.man * y.man) then x.man * y.man else x.man * y.man + x.man * y.man
def mulE (f : Fmt) (x y : Flt) : ℤ := x.exp + y.exp + (if decide (2 ^ (2 * f.M + 1) ≤ x.man * y.man) then 1 else 0)
def mulShift (f : Fmt) (x y : Flt) : ℕ := subShift f (mulE f x y) (f.M + 2)

/-- Integer-level `Mul` when `round` returns the significand `m`. -/
def mulFin (f : Fmt) (x y : Flt) (m : ℕ) (c : Bool) : Flt :=
  let r := fixZ f m (decide (m = 0)) (mulE f x y) (x.abn || y.abn) c
  ⟨xor x.sign y.sign, r.2.1, if m = 0 then 0 else r.1, r.2.2⟩

/-- The rounding in `Mul` can be forged. -/
def MulForge (b : ℕ) (f : Fmt) (x y : Flt) : Prop :=
  RoundForge b f (mulN f x y) ((f.M + 1) * 2) (mulShift f x y) (f.M + 2)

theorem mulZ_eq (f : Fmt) (x y : Flt) (c : Bool) : mulZ f x y c =
    mulFin f x y (rnd (mulN f x y * 2 ^ (f.M + 2 - mulShift f x y)) (2 * f.M + 3) true * 2 ^ mulShift f x y) c := rfl

theorem rnd_le {V q k : ℕ} {h : Bool} (hV : V < 2 ^ (q + k)) : rnd V q h ≤ 2 ^ k := by
  have h1 : V / 2 ^ q < 2 ^ k := by
    rw [Nat.div_lt_iff_lt_mul (by positivity), ← pow_add, add_comm]; exact hV
  unfold rnd
  have := Nat.mod_lt (V / 2 ^ q) (show 2 > 0 by norm_num)
  split_ifs <;> omega

theorem nthBit_top {v n : ℕ} (hv : v < 2 ^ (n + 1)) : v.testBit n = decide (2 ^ n ≤ v) := by
  rw [Nat.testBit_eq_decide_div_mod_eq]
  by_cases h : 2 ^ n ≤ v
  · have h1 : v / 2 ^ n = 1 := by
      rw [Nat.div_eq_iff (by positivity)]; rw [pow_succ] at hv; omega
    simp [h1, h]
  · rw [Nat.div_eq_of_lt (by omega)]; simp [h]

theorem isZero_nat (G : Good p b f) {n : ℕ} (hn : n < p) :
    isZero ((n : ℕ) : ZMod p) = B (decide (n = 0)) := by
  rw [isZero_eq]; congr 1; rw [decide_eq_decide]
  have := natCast_inj (p := p) (a := n) (c := 0) hn (by omega)
  simpa using this

/-- The most-significant-bit hint and its check determine the bit. -/
theorem msb_sound (G : Good p b f) {N n C : ℕ} (hn : 0 < n) (hN : N < 2 ^ (n + 1)) (hC : n + 1 ≤ 2 * f.M + 4)
    {v : ZMod p} (hv : isBool v = true)
    (h : CheckSat b (((N : ℕ) : ZMod p) - v * tw n) n .smallAbs) : v = B (decide (2 ^ n ≤ N)) := by
  obtain ⟨c, rfl⟩ := (isBool_iff v).1 hv
  have e1 : ((N : ℕ) : ZMod p) - B c * tw n = (((N : ℤ) - (if c then 2 ^ n else 0) : ℤ) : ZMod p) := by
    cases c <;> simp
  rw [e1, checkSat_smallAbs_int G.bpos hn (C := n + 1) ?_ (by omega)
    (G.pow_le (by have := G.width.le; have := G.hE; have := G.hEM; omega))] at h
  · obtain ⟨h1, h2⟩ := h
    congr 1
    cases c
    · simp only [Bool.false_eq_true, if_false, sub_zero] at h2
      have h2 : N < 2 ^ n := by exact_mod_cast h2
      simp [h2]
    · simp only [if_true] at h1
      have h1 : (2 ^ n : ℤ) ≤ N := by linarith
      have h1 : 2 ^ n ≤ N := by exact_mod_cast h1
      simp [h1]
  · have hN' : (N : ℤ) < 2 ^ (n + 1) := by exact_mod_cast hN
    have : (0:ℤ) < 2 ^ n := by positivity
    rw [pow_succ] at hN' ⊢
    rw [abs_le]
    cases c <;> simp <;> constructor <;> omega

theorem fMul_core (G : Good p b f) {x y : Flt} (hx : x.Bdd f) (hy : y.Bdd f) {Fz : Prop}
    (hround : mulN f x y < 2 ^ ((f.M + 1) * 2) →
      RoundOut p b H f (mulN f x y) ((f.M + 1) * 2) (mulShift f x y) (f.M + 2) true Fz) :
    Spec b H (fMul f (x.toVar : FloatVar p) y.toVar) (mulZ f x y true).toVar
      (fun r => (∃ c, r = (mulZ f x y c).toVar) ∨ (Fz ∧ ∃ c, r = (mulFin f x y 0 c).toVar)) := by
  have hE := G.hE
  have hEM := G.hEM
  have hM := G.hMz
  have hNm := f.eNormalMin_eq
  have hmn := f.eMin_eq
  obtain ⟨hx1, hx2, hx3⟩ := hx
  obtain ⟨hy1, hy2, hy3⟩ := hy
  unfold fMul
  simp only [Circ.bind_eq, Circ.pure_eq, Flt.toVar]
  refine Spec.det_bind (xor_spec _ _) ?_
  rw [← Nat.cast_mul, show (f.M + 1) * 2 - 1 = 2 * f.M + 1 by omega]
  obtain ⟨N0, hN0⟩ : ∃ N0, N0 = x.man * y.man := ⟨_, rfl⟩
  have hN0lt : N0 < 2 ^ (2 * f.M + 1 + 1) := by
    rw [hN0, show 2 * f.M + 1 + 1 = (f.M + 1) + (f.M + 1) by omega, pow_add]
    exact Nat.mul_lt_mul'' hx1 hy1
  rw [← hN0]
  obtain ⟨msb, hmsb⟩ : ∃ msb : Bool, msb = decide (2 ^ (2 * f.M + 1) ≤ N0) := ⟨_, rfl⟩
  have hN0p : N0 < p := G.lt_of_lt_pow hN0lt (by omega)
  refine Spec.hint_det (v0 := B msb) ?_ ?_ ?_
  · unfold nthBitHint; rw [ZMod.val_natCast_of_lt hN0p, nthBit_top hN0lt, ← hmsb]; rfl
  · intro hHH v r hs
    simp only [assertIsBoolean, assertBitLength, Circ.bind, Circ.Sat] at hs
    rw [hmsb]
    exact msb_sound G (C := 0) (by omega) hN0lt (by omega) hs.1 hs.2.1
  refine Spec.det_bind (assertIsBoolean_spec _) ?_
  refine Spec.det_bind (assertBitLength_spec ?_) ?_
  · have e1 : ((N0 : ℕ) : ZMod p) - B msb * tw (2 * f.M + 1) = ((N0 % 2 ^ (2 * f.M + 1) : ℕ) : ZMod p) := by
      rw [hmsb]
      by_cases h : 2 ^ (2 * f.M + 1) ≤ N0
      · have : N0 % 2 ^ (2 * f.M + 1) = N0 - 2 ^ (2 * f.M + 1) := by
          rw [Nat.mod_eq_sub_mod h, Nat.mod_eq_of_lt]; rw [pow_succ] at hN0lt; omega
        rw [this]; simp [h]
      · rw [Nat.mod_eq_of_lt (by omega)]; simp [h]
    rw [e1]
    exact checkRun_smallAbs_nat G.width (by omega) (G.pow_le (by omega)) (Nat.mod_lt _ (by positivity))
  refine Spec.det_bind (select_spec _ _ _) ?_
  obtain ⟨N, hN⟩ : ∃ N, N = if msb then N0 else N0 + N0 := ⟨_, rfl⟩
  obtain ⟨e, he⟩ : ∃ e, e = x.exp + y.exp + (if msb then 1 else 0) := ⟨_, rfl⟩
  have e1 : ((N0 : ℕ) : ZMod p) + (if msb = true then 0 else ((N0 : ℕ) : ZMod p)) = ((N : ℕ) : ZMod p) := by
    rw [hN]; cases msb <;> simp
  have e2 : ((x.exp : ℤ) : ZMod p) + ((y.exp : ℤ) : ZMod p) + B msb = ((e : ℤ) : ZMod p) := by
    rw [he, B_int]; push_cast; rfl
  rw [e1, e2]
  have hNlt : N < 2 ^ ((f.M + 1) * 2) := by
    rw [show (f.M + 1) * 2 = 2 * f.M + 1 + 1 by omega]
    rw [hN]
    cases msb
    · have : ¬ 2 ^ (2 * f.M + 1) ≤ N0 := by simpa using hmsb
      simp only [Bool.false_eq_true, if_false]; rw [pow_succ]; omega
    · simpa using hN0lt
  have hebd : x.exp + y.exp ≤ e ∧ e ≤ x.exp + y.exp + 1 := by
    rw [he]; cases msb <;> simp
  refine Spec.det_bind (subnormalShift_spec G (by push_cast; omega) (by omega) (by push_cast; omega)) ?_
  obtain ⟨σ, hσ⟩ : ∃ σ, σ = subShift f e (f.M + 2) := ⟨_, rfl⟩
  have hσle : σ ≤ f.M + 2 := hσ ▸ subShift_le _ _
  rw [← hσ]
  have hNd : mulN f x y = N := by unfold mulN; rw [← hN0, ← hmsb, ← hN]
  have hEd : mulE f x y = e := by unfold mulE; rw [← hN0, ← hmsb, ← he]
  have hSd : mulShift f x y = σ := by unfold mulShift; rw [hEd, ← hσ]
  have hr := hround (hNd ▸ hNlt)
  rw [hNd, hSd] at hr
  unfold RoundOut at hr
  rw [B_true, show f.M + 2 + (f.M + 1) * 2 - f.M - 1 = 2 * f.M + 3 by omega] at hr
  obtain ⟨m, hm⟩ : ∃ m, m = rnd (N * 2 ^ (f.M + 2 - σ)) (2 * f.M + 3) true * 2 ^ σ := ⟨_, rfl⟩
  rw [← hm] at hr
  have hmle : m ≤ 2 ^ (f.M + 1 + σ) := by
    rw [hm, pow_add]
    refine Nat.mul_le_mul_right _ (rnd_le ?_)
    have : N * 2 ^ (f.M + 2 - σ) ≤ N * 2 ^ (f.M + 2) :=
      Nat.mul_le_mul_left _ (Nat.pow_le_pow_right (by norm_num) (by omega))
    refine lt_of_le_of_lt this ?_
    rw [show 2 * f.M + 3 + (f.M + 1) = (f.M + 1) * 2 + (f.M + 2) by omega, pow_add _ _ (f.M + 2)]
    exact Nat.mul_lt_mul_of_pos_right hNlt (Nat.two_pow_pos _)
  have hmp : m < p := lt_of_le_of_lt hmle (G.pow_lt (by omega))
  have tail : ∀ m, m < p → Spec b H (Circ.bind (or' (B x.abn) (B y.abn)) fun abn =>
      Circ.bind (fixOverflow f ((m : ℕ) : ZMod p) (isZero ((m : ℕ) : ZMod p)) ((e : ℤ) : ZMod p) abn) fun t =>
      Circ.bind (select (isZero ((m : ℕ) : ZMod p)) 0 t.1) fun m' =>
        Circ.pure (⟨B (xor x.sign y.sign), t.2.1, m', t.2.2⟩ : FloatVar p))
      (mulFin f x y m true).toVar (fun r => ∃ c, r = (mulFin f x y m c).toVar) := by
    intro m hmp
    rw [isZero_nat G hmp]
    refine Spec.det_bind (or_spec _ _) ?_
    have hres : ∀ c, mulFin f x y m c = ⟨xor x.sign y.sign, (fixZ f m (decide (m = 0)) e (x.abn || y.abn) c).2.1,
        if m = 0 then 0 else (fixZ f m (decide (m = 0)) e (x.abn || y.abn) c).1,
        (fixZ f m (decide (m = 0)) e (x.abn || y.abn) c).2.2⟩ := by
      intro c; unfold mulFin; rw [hEd]
    have key : ∀ t : ℕ × ℤ × Bool, Det b H
        (Circ.bind (select (B (decide (m = 0))) 0 (fixOut t : ZMod p × ZMod p × ZMod p).1) fun m' =>
          Circ.pure (⟨B (xor x.sign y.sign), (fixOut t : ZMod p × ZMod p × ZMod p).2.1, m', (fixOut t : ZMod p × ZMod p × ZMod p).2.2⟩ : FloatVar p))
        (Flt.toVar ⟨xor x.sign y.sign, t.2.1, if m = 0 then 0 else t.1, t.2.2⟩) := by
      intro t
      refine Spec.det_bind (select_spec _ _ _) ?_
      have : (⟨B (xor x.sign y.sign), (fixOut t : ZMod p × ZMod p × ZMod p).2.1,
          if decide (m = 0) = true then 0 else (fixOut t : ZMod p × ZMod p × ZMod p).1, (fixOut t : ZMod p × ZMod p × ZMod p).2.2⟩ : FloatVar p) =
          (Flt.toVar ⟨xor x.sign y.sign, t.2.1, if m = 0 then 0 else t.1, t.2.2⟩) := by
        unfold Flt.toVar fixOut
        by_cases h : m = 0 <;> simp [h]
      rw [← this]; exact Spec.pure _
    refine (Spec.bind_fix G hmp (by omega) (by omega)
      (w := fun t => Flt.toVar ⟨xor x.sign y.sign, t.2.1, if m = 0 then 0 else t.1, t.2.2⟩) (fun c => key _)).congr ?_ ?_
    · rw [hres]
    · intro r; simp only [hres]
  have hz : ∀ c, mulZ f x y c = mulFin f x y m c := by
    intro c; rw [mulZ_eq, hNd, hSd, ← hm]
  simp only [hz]
  exact Spec.bind_forge hr (tail m hmp) (tail 0 (by omega))

theorem mulShift_lt (f : Fmt) (x y : Flt) (hE : 2 ≤ f.E) : mulShift f x y < f.pow2Size :=
  lt_of_le_of_lt (subShift_le _ _) (by unfold Fmt.pow2Size; omega)

theorem fMul_spec (G : Good p b f) {x y : Flt} (hx : x.Bdd f) (hy : y.Bdd f) (hH : H → b ∣ f.pow2Size) :
    Spec b H (fMul f (x.toVar : FloatVar p) y.toVar) (mulZ f x y true).toVar
      (fun r => ∃ c, r = (mulZ f x y c).toVar) := by
  have hE := G.hE
  have hEM := G.hEM
  exact (fMul_core G hx hy fun hN => round_spec_dvd (p := p) (f := f) G hN (by omega) (by omega) (subShift_le _ _)
    (mulShift_lt f x y (by omega)) (by omega) true hH).congr rfl (by simp)

/-- The exact outcomes of `Mul` at every table width (the last hypothesis bounds the width for large formats). -/
theorem fMul_spec_any (G : Good p b f) {x y : Flt} (hx : x.Bdd f) (hy : y.Bdd f)
    (hpw : 2 ^ (4 * f.M + f.E + 5 + 3 * (b - 1)) ≤ p) :
    Spec b H (fMul f (x.toVar : FloatVar p) y.toVar) (mulZ f x y true).toVar
      (fun r => (∃ c, r = (mulZ f x y c).toVar) ∨ (MulForge b f x y ∧ ∃ c, r = (mulFin f x y 0 c).toVar)) := by
  have hE := G.hE
  have hEM := G.hEM
  refine fMul_core G hx hy fun hN => round_spec_any (p := p) (f := f) G hN (by omega) (by omega) (subShift_le _ _)
    (mulShift_lt f x y (by omega)) (by omega) ?_ true
  refine le_trans (Nat.pow_le_pow_right (by norm_num) ?_) hpw
  unfold Fmt.pow2Size; omega

end ZkLoc
