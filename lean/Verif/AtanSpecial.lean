import Verif.AtanSpec
import Verif.Props.Arith

/-!
# Helper lemmas: the arc tangent of the special values

Infinities and NaN reach the polynomial with a zero significand and the flag of the special values: all sums are NaN, and `Atan` clears the flag.
-/

namespace ZkLoc

open Ieee (Datum)

variable {p : ℕ} [Fact p.Prime] {b : ℕ} {f : Fmt} {m : Prover}

/-- The record of NaN. -/
def nanF (f : Fmt) (s : Bool) : Flt := ⟨s, f.eMax, 0, true⟩

theorem nanF_bdd (G : Good p b f) (s : Bool) : (nanF f s).Bdd f := by
  have h : (nanF f s).Bdd f ↔ 0 < 2 ^ (f.M + 1) ∧ f.eMin ≤ f.eMax := ⟨fun h => ⟨h.man, h.lo⟩, fun h => ⟨h.1, h.2, le_rfl⟩⟩
  rw [h]
  refine ⟨by positivity, ?_⟩
  unfold Fmt.eMin Fmt.eNormalMin Fmt.eMax
  have : (0:ℤ) < 2 ^ (f.E - 1) := by positivity
  omega

theorem Ok.spec {α : Type} {c : Circ p α} {v : α} {S : α → Prop} (h : Spec b (b ∣ f.pow2Size) c v S) (hv : S v) (hm : m.Fits b f) : Ok m b c S := by
  cases m with
  | honest => exact ⟨v, h.run, hv⟩
  | any st => exact fun r hr => (h.sat (hm.resolve_left (by simp)) st r).1 hr

theorem ok_mul_nan (G : Good p b f) (hm : m.Fits b f) {q x : Flt} (hq : q.Bdd f) (hx : x.Bdd f) (h0 : q.man = 0 ∨ x.man = 0) (ha : x.abn = true) :
    Ok m b (fMul f (q.toVar : FloatVar p) x.toVar) (fun r => ∃ s, r = (nanF f s).toVar) := by
  refine (Ok.spec (fMul_spec G hq hx (fun h => h)) ⟨true, rfl⟩ hm).mono ?_
  rintro _ ⟨c, rfl⟩
  refine ⟨xor q.sign x.sign, ?_⟩
  have hz : q.man * x.man = 0 := by rcases h0 with h | h <;> simp [h]
  have hk : ¬ 2 ^ (2 * f.M + 1) ≤ 0 := by simp
  congr 1
  simp only [mulZ, hz, hk, decide_false, rnd_zero, fixZ, ha, nanF, Bool.or_true, Nat.zero_mul, if_true, Bool.false_eq_true, if_false, add_zero]

theorem ok_add_nan (G : Good p b f) (hm : m.Fits b f) {c : Flt} (hc : c.Valid f) (s : Bool) :
    Ok m b (fAdd f ((nanF f s).toVar : FloatVar p) c.toVar) (fun r => ∃ s, r = (nanF f s).toVar) := by
  refine (Ok.spec (fAdd_spec G (nanF_bdd G s) (hc.bdd G) (Or.inl rfl) hc.man_cases (fun _ => Or.inl rfl) (fun h => h)) ⟨true, true, rfl⟩ hm).mono ?_
  rintro _ ⟨c1, c2, rfl⟩
  refine ⟨(addZ f (nanF f s) c c1 c2).sign, ?_⟩
  congr 1
  unfold addZ
  rw [addTail_eq]
  unfold addFin
  simp [nanF, fixZ]

theorem ok_sub_nan (G : Good p b f) (hm : m.Fits b f) {c : Flt} (hc : c.Valid f) (hca : c.abn = false) (s : Bool) :
    Ok m b (fSub f (c.toVar : FloatVar p) (nanF f s).toVar) (fun r => ∃ s, r = (nanF f s).toVar) := by
  have e : fSub f (c.toVar : FloatVar p) (nanF f s).toVar = fAdd f c.toVar (nanF f (!s)).toVar := by
    unfold fSub
    congr 1
    unfold fNeg Flt.toVar nanF
    cases s <;> simp [B]
  rw [e]
  refine (Ok.spec (fAdd_spec G (hc.bdd G) (nanF_bdd G _) hc.man_cases (Or.inl rfl) (fun _ => Or.inr rfl) (fun h => h)) ⟨true, true, rfl⟩ hm).mono ?_
  rintro _ ⟨c1, c2, rfl⟩
  refine ⟨(addZ f c (nanF f (!s)) c1 c2).sign, ?_⟩
  congr 1
  unfold addZ
  rw [addTail_eq]
  unfold addFin
  simp [nanF, fixZ, hca]

/-- The polynomial at a special value whose first product vanishes. -/
theorem ok_evalKLoop_nan (G : Good p b f) (hm : m.Fits b f) {x : Flt} (hx : x.Bdd f) (ha : x.abn = true) (cs : List Flt) (hcs : ∀ c ∈ cs, c.Valid f) :
    ∀ q : Flt, q.Bdd f → q.man = 0 → (cs = [] → ∃ s, q = nanF f s) →
      Ok m b (evalKLoop f (x.toVar : FloatVar p) (cs.map Flt.toVar) [q.toVar]) (fun r => ∃ s, r = [(nanF f s).toVar]) := by
  induction cs with
  | nil =>
    intro q _ _ h
    obtain ⟨s, rfl⟩ := h rfl
    exact Ok.pure ⟨s, rfl⟩
  | cons c cs ih =>
    intro q hq h0 _
    simp only [List.map_cons, evalKLoop, evalKStep, Circ.bind_eq, Circ.pure_eq]
    refine Ok.bind (Q := fun r => ∃ s, r = [((nanF f s).toVar : FloatVar p)]) ?_ ?_
    · refine (ok_mul_nan G hm hq hx (Or.inl h0) ha).bind ?_
      rintro _ ⟨s, rfl⟩
      refine (ok_add_nan G hm (hcs c (by simp)) s).bind ?_
      rintro _ ⟨s', rfl⟩
      exact Ok.bind (Q := fun r => r = []) (Ok.pure rfl) (by rintro _ rfl; exact Ok.pure ⟨s', rfl⟩)
    · rintro _ ⟨s, rfl⟩
      exact ih (fun d hd => hcs d (by simp [hd])) _ (nanF_bdd G s) rfl (fun _ => ⟨s, rfl⟩)

/-- The constants are bit patterns of the format, and `π/2` is finite. -/
structure SpecialConsts (f : Fmt) (k : TrigConsts) : Prop where
  one : k.one < 2 ^ (1 + f.E + f.M)
  half : k.halfPi < 2 ^ (1 + f.E + f.M)
  halfFin : (fltOf f k.halfPi).abn = false
  coeffs : ∀ c ∈ k.atanCoeffs, c < 2 ^ (1 + f.E + f.M)
  some : k.atanCoeffs ≠ []

theorem atanRemez_special (G : Good p b f) (h64 : 1 + f.E + f.M ≤ 64) (hm : m.Fits b f) {k : TrigConsts} (K : SpecialConsts f k) {x : FloatVar p} {d : Datum}
    (ex : Encodes f x d) (hd : ∀ s a, d ≠ .fin s a) :
    Ok m b (atanRemez f k x) (fun r => r = ⟨x.sign, (f.eMax : ZMod p), 0, 0⟩) := by
  have hE2 : 2 ≤ f.E := by have := G.hE; omega
  have hE : 1 ≤ f.E := by omega
  obtain ⟨x, hx, rfl, rfl⟩ := encodes_iff.1 ex
  have ha : x.abn = true := by
    by_contra h
    rw [Bool.not_eq_true] at h
    exact hd _ _ (datum_fin_iff.2 ⟨h, rfl, rfl⟩)
  have v1 := fltOf_valid (f := f) hE2 K.one
  have vh := fltOf_valid (f := f) hE2 K.half
  have v0 := fltOf_valid (f := f) (v := 0) hE2 (by positivity)
  have hxs : ({ (x.toVar : FloatVar p) with sign := 0 } : FloatVar p) = ({ x with sign := false } : Flt).toVar := by
    simp [Flt.toVar, B]
  have hx0 : ({ x with sign := false } : Flt).Valid f := hx.withSign _
  unfold atanRemez
  rw [hxs]
  generalize hX : ({ x with sign := false } : Flt) = X at *
  have hXa : X.abn = true := by rw [← hX]; exact ha
  have hXs : X.sign = false := by rw [← hX]
  simp only [Circ.bind_eq, Circ.pure_eq]
  refine Ok.bind (Q := fun r : ZMod p × ZMod p => r = ((f.eMax : ZMod p), 0)) ?_ (by rintro _ rfl; exact Ok.pure rfl)
  unfold atanMag
  simp only [Circ.bind_eq, Circ.pure_eq]
  have e1 : (newConstant f k.one : FloatVar p) = (fltOf f k.one).toVar := newConstant_toVar hE h64 K.one
  have eh : (newConstant f k.halfPi : FloatVar p) = (fltOf f k.halfPi).toVar := newConstant_toVar hE h64 K.half
  have e0 : (newConstant f 0 : FloatVar p) = (fltOf f 0).toVar := newConstant_toVar hE h64 (by positivity)
  rw [e1, eh]
  have hgt : Ok m b (fIsGt f (X.toVar : FloatVar p) (fltOf f k.one).toVar) (fun r => ∃ g : Bool, r = B g) := by
    have h := C24_isGt (b := b) G (encodes_iff.2 ⟨X, hx0, rfl, rfl⟩ : Encodes f (X.toVar : FloatVar p) _) (encodes_iff.2 ⟨_, v1, rfl, rfl⟩)
    classical
    rw [wireOf_B] at h
    cases m with
    | honest => exact ⟨_, h.1, _, rfl⟩
    | any st => exact fun r hr => ⟨_, (h.2 st r).1 hr⟩
  refine hgt.bind ?_
  rintro _ ⟨g, rfl⟩
  have hdiv : Ok m b (fDiv f ((fltOf f k.one).toVar : FloatVar p) X.toVar) (fun r => ∃ q : Flt, q.Bdd f ∧ r = q.toVar) := by
    have i1 : Encodes f ((fltOf f k.one).toVar : FloatVar p) ((fltOf f k.one).datum f) := encodes_iff.2 ⟨_, v1, rfl, rfl⟩
    have i2 : Encodes f (X.toVar : FloatVar p) (X.datum f) := encodes_iff.2 ⟨X, hx0, rfl, rfl⟩
    have hgood : ∀ r d, Encodes f r d → ∃ q : Flt, q.Bdd f ∧ r = (q.toVar : FloatVar p) := by
      intro r d h
      obtain ⟨q, hq, -, rfl⟩ := encodes_iff.1 h
      exact ⟨q, hq.bdd G, rfl⟩
    cases m with
    | honest =>
      obtain ⟨r, d, h1, h2, -⟩ := C20_div_complete (b := b) G i1 i2
      exact ⟨r, h1, hgood r d h2⟩
    | any st =>
      intro r hr
      rcases C21_div_sound_partial G (hm.resolve_left (by simp)) i1 i2 hr with ⟨d, h, -⟩ | ⟨s, a, t, c, -, h, -⟩
      · exact hgood r d h
      · rw [(datum_fin_iff.1 h).1] at hXa; exact absurd hXa (by decide)
  refine hdiv.bind ?_
  rintro _ ⟨q, hq, rfl⟩
  refine (Ok.select _ _ _).bind ?_
  rintro _ rfl
  refine (Ok.select _ _ _).bind ?_
  rintro _ rfl
  have ex' : (⟨(X.toVar : FloatVar p).sign, if g then (q.toVar : FloatVar p).exponent else X.toVar.exponent,
      if g then (q.toVar : FloatVar p).mantissa else X.toVar.mantissa, (X.toVar : FloatVar p).isAbnormal⟩ : FloatVar p) =
      (⟨X.sign, if g then q.exp else X.exp, if g then q.man else X.man, X.abn⟩ : Flt).toVar := by
    cases g <;> simp [Flt.toVar]
  rw [ex']
  have bd : (⟨X.sign, if g then q.exp else X.exp, if g then q.man else X.man, X.abn⟩ : Flt).Bdd f := by
    cases g
    · exact hx0.bdd G
    · exact ⟨hq.man, hq.lo, hq.hi⟩
  have hpoly : Ok m b (evalK f (k.atanCoeffs.map (newConstant f)) ((⟨X.sign, if g then q.exp else X.exp, if g then q.man else X.man, X.abn⟩ : Flt).toVar : FloatVar p) 1)
      (fun r => ∃ s, r = (nanF f s).toVar) := by
    unfold evalK
    simp only [Circ.bind_eq, Circ.pure_eq, List.replicate_one]
    have em : k.atanCoeffs.map (newConstant f : ℕ → FloatVar p) = (k.atanCoeffs.map (fltOf f)).map Flt.toVar := by
      rw [List.map_map]
      exact List.map_congr_left fun c hc => newConstant_toVar hE h64 (K.coeffs c hc)
    rw [em, e0]
    refine (ok_evalKLoop_nan G hm bd hXa _ ?_ _ (v0.bdd G) ?_ ?_).bind ?_
    · intro c hc
      obtain ⟨n, hn, rfl⟩ := List.mem_map.1 hc
      exact fltOf_valid hE2 (K.coeffs n hn)
    · have h2 : ¬ 0 = 2 ^ f.E - 1 := by
        have := Nat.one_lt_two_pow (n := f.E) (by omega)
        omega
      simp [fltOf, h2]
    · intro h; exact absurd (List.map_eq_nil_iff.1 h) K.some
    · rintro _ ⟨s, rfl⟩
      exact Ok.pure ⟨s, rfl⟩
  refine hpoly.bind ?_
  rintro _ ⟨s, rfl⟩
  refine (ok_sub_nan G hm vh K.halfFin s).bind ?_
  rintro _ ⟨s', rfl⟩
  refine (Ok.select _ _ _).bind ?_
  rintro _ rfl
  refine (Ok.select _ _ _).bind ?_
  rintro _ rfl
  refine Ok.pure ?_
  simp [nanF, Flt.toVar]

/-- Such a record is the encoding of nothing. -/
theorem not_encodes_cleared (G : Good p b f) (s : ZMod p) (d : Datum) : ¬ Encodes f (⟨s, (f.eMax : ZMod p), 0, 0⟩ : FloatVar p) d := by
  intro h
  obtain ⟨x, hx, -, h⟩ := encodes_iff.1 h
  unfold Flt.toVar at h
  injection h with _ he _ ha
  have hxa : x.abn = false := by
    cases hb : x.abn
    · rfl
    · rw [hb] at ha; simp [B] at ha
  have hlt := hx.exp_fin G hxa
  have hE := G.hE
  have hEM := G.hEM
  have hMz := G.hMz
  have hzE := G.zE1
  have hmn := f.eMin_eq
  have hpE : (2:ℤ) ^ (f.E + 1) ≤ p := by exact_mod_cast G.pow_le (k := f.E + 1) (by omega)
  have h1 := hx.exp_ge G
  rw [intCast_inj (by rw [abs_lt]; constructor <;> omega)] at he
  omega

theorem specialConsts64 : SpecialConsts f64 consts64 := ⟨by decide, by decide, by decide, by decide, by decide⟩
theorem specialConsts32 : SpecialConsts f32 consts32 := ⟨by decide, by decide, by decide, by decide, by decide⟩

/-- With a non-negative abscissa, `Atan2` is the arc tangent of the quotient without its flag. -/
theorem atan2_tail {st : Bool} {k : TrigConsts} {y x a r : FloatVar p} (hx : x.sign = 0)
    (hr : (Circ.bind (fAdd f a (newConstant f k.pi)) fun addPi => Circ.bind (fSub f a (newConstant f k.pi)) fun subPi =>
      Circ.bind (select y.sign subPi.sign addPi.sign) fun s' => Circ.bind (select x.sign s' a.sign) fun s =>
      Circ.bind (select y.sign subPi.exponent addPi.exponent) fun e' => Circ.bind (select x.sign e' a.exponent) fun e =>
      Circ.bind (select y.sign subPi.mantissa addPi.mantissa) fun m' => Circ.bind (select x.sign m' a.mantissa) fun m =>
      Circ.pure (⟨s, e, m, 0⟩ : FloatVar p)).Sat b st r) : r = ⟨a.sign, a.exponent, a.mantissa, 0⟩ := by
  have hB : x.sign = B false := by rw [hx]; simp [B]
  rw [hB] at hr
  revert hr
  refine (show Ok (.any st) b _ (fun r => r = (⟨a.sign, a.exponent, a.mantissa, 0⟩ : FloatVar p)) from ?_) r
  have T : ∀ {α : Type} (c : Circ p α), Ok (.any st) b c (fun _ => True) := fun c _ _ => trivial
  refine (T _).bind fun _ _ => (T _).bind fun _ _ => (T _).bind fun _ _ => (Ok.select _ _ _).bind ?_
  rintro _ rfl
  refine (T _).bind fun _ _ => (Ok.select _ _ _).bind ?_
  rintro _ rfl
  refine (T _).bind fun _ _ => (Ok.select _ _ _).bind ?_
  rintro _ rfl
  exact Ok.pure rfl

theorem Encodes.sign_pos {x : FloatVar p} {a : ℝ} (h : Encodes f x (.fin false a)) : x.sign = 0 := by
  obtain ⟨x, -, h2, rfl⟩ := encodes_iff.1 h
  simp [Flt.toVar, ← (datum_fin_iff.1 h2).2.1, B]

end ZkLoc
