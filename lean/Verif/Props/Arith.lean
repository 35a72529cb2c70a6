import Verif.ArithBridge
import Verif.Examples

/-!
# Properties C14–C23: allocation and arithmetic of floats

`Good p b f` collects the size conditions (any large enough prime field, any table width from 1 to 17,
formats such as binary32 and binary64, `Verif/GoodInst.lean`). `Encodes f r d`: the wires `r` are the
canonical encoding of the IEEE datum `d`. Soundness needs a table width that divides the
size `M + E + 1` of the power-of-two lookup (C13).
-/

namespace ZkLoc

open Ieee (Datum)

variable {p : ℕ} [Fact p.Prime] {b : ℕ} {f : Fmt}

/-! ### C14: allocation -/

/-- **C14** The allocation constraints are satisfiable exactly for bit patterns, and then the wires
are the native decoding, for every prover and every table width. -/
theorem C14_newFloat_exact (G : Good p b f) (h64 : 1 + f.E + f.M ≤ 64) (v : ZMod p) (st : Bool) (r : FloatVar p) :
    (newFloat f v).Sat b st r ↔ v.val < 2 ^ (1 + f.E + f.M) ∧ r = (componentsOf v.val f.E f.M).toVar := by
  have hE := G.hE
  constructor
  · intro h
    obtain ⟨h1, h2⟩ := newFloat_sat G h
    exact ⟨h1, by rw [h2, componentsOf_eq (by omega) h64 h1, comps_toVar]⟩
  · rintro ⟨h1, rfl⟩
    have := newFloat_run (p := p) (b := b) G h64 h1
    rw [ZMod.natCast_val, ZMod.cast_id', id] at this
    rw [componentsOf_eq (by omega) h64 h1, comps_toVar]
    exact Circ.sat_of_run _ _ this

/-- **C14** The honest prover succeeds on every bit pattern. -/
theorem C14_newFloat_complete (G : Good p b f) (h64 : 1 + f.E + f.M ≤ 64) {v : ℕ} (hv : v < 2 ^ (1 + f.E + f.M)) :
    (newFloat f ((v : ℕ) : ZMod p)).run b = some (componentsOf v f.E f.M).toVar := by
  have hE := G.hE
  rw [newFloat_run G h64 hv, componentsOf_eq (by omega) h64 hv, comps_toVar]

/-- **C14** The wires encode the IEEE datum of the bit pattern. -/
theorem C14_newFloat_encodes (G : Good p b f) (h64 : 1 + f.E + f.M ≤ 64) {v : ZMod p} {st : Bool} {r : FloatVar p}
    (h : (newFloat f v).Sat b st r) : Encodes f r (Ieee.decodeBits ⟨f.E, f.M⟩ v.val) := by
  have hE := G.hE
  obtain ⟨h1, h2⟩ := newFloat_sat G h
  exact encodes_iff.2 ⟨_, fltOf_valid (by omega) h1, fltOf_datum (by omega) h1, h2⟩

/-- Concrete case: the pattern of `-2.25` over BN254 with table width 8. -/
example : (newFloat f32 (0xC0100000 : ZMod bn254)).run 8 = some (w32 0xC0100000) := by
  have := C14_newFloat_complete (p := bn254) (b := 8) (f := f32) good8 (by decide) (v := 0xC0100000) (by decide)
  exact_mod_cast this

/-- Concrete case: `2^32` is no binary32 pattern, no prover can allocate it. -/
example (st : Bool) (r : FloatVar bn254) : ¬ (newFloat f32 ((2 ^ 32 : ℕ) : ZMod bn254)).Sat 8 st r := by
  rw [C14_newFloat_exact good8 (by decide)]
  rintro ⟨h, _⟩
  rw [ZMod.val_natCast_of_lt (show (2 ^ 32 : ℕ) < bn254 by decide)] at h
  exact absurd h (by decide)

/-! ### C18, C19: multiplication -/

/-- **C18** The honest prover always succeeds and obtains the IEEE product. -/
theorem C18_mul_complete (G : Good p b f) {x y : FloatVar p} {dx dy : Datum} (ex : Encodes f x dx)
    (ey : Encodes f y dy) :
    ∃ r d, (fMul f x y).run b = some r ∧ Encodes f r d ∧ Ieee.Mul ⟨f.E, f.M⟩ dx dy d := by
  obtain ⟨x, hx, rfl, rfl⟩ := encodes_iff.1 ex
  obtain ⟨y, hy, rfl, rfl⟩ := encodes_iff.1 ey
  obtain ⟨h1, h2, _⟩ := mulZ_correct G hx hy
  exact ⟨_, _, (fMul_spec (H := False) G (hx.bdd G) (hy.bdd G) (by simp)).run, encodes_iff.2 ⟨_, h1, rfl, rfl⟩, h2⟩

/-- **C19** Every prover obtains the IEEE product, or an overflow left as a malformed record. -/
theorem C19_mul_sound_partial (G : Good p b f) (hb : b ∣ f.pow2Size) {x y r : FloatVar p} {dx dy : Datum}
    (ex : Encodes f x dx) (ey : Encodes f y dy) {st : Bool} (hr : (fMul f x y).Sat b st r) :
    (∃ d, Encodes f r d ∧ Ieee.Mul ⟨f.E, f.M⟩ dx dy d) ∨
    (∃ s a t c, dx = .fin s a ∧ dy = .fin t c ∧ Overflowed f (xor s t) (a * c) r) := by
  obtain ⟨x, hx, rfl, rfl⟩ := encodes_iff.1 ex
  obtain ⟨y, hy, rfl, rfl⟩ := encodes_iff.1 ey
  obtain ⟨h1, h2, h3⟩ := mulZ_correct G hx hy
  obtain ⟨c, rfl⟩ := ((fMul_spec (H := True) G (hx.bdd G) (hy.bdd G) (fun _ => hb)).sat trivial st r).1 hr
  have hgood : ∃ d, Encodes f ((mulZ f x y true).toVar : FloatVar p) d ∧ Ieee.Mul ⟨f.E, f.M⟩ (x.datum f) (y.datum f) d :=
    ⟨_, encodes_iff.2 ⟨_, h1, rfl, rfl⟩, h2⟩
  cases c with
  | true => exact Or.inl hgood
  | false =>
    rcases h3 with ⟨h3, _⟩ | ⟨ha, hb', h3⟩
    · rw [h3]; exact Or.inl hgood
    · refine Or.inr ⟨x.sign, x.mag f, y.sign, y.mag f, ?_, ?_, overflowed_of_pseudo h3⟩
      · simp [Flt.datum, ha, Flt.mag]
      · simp [Flt.datum, hb', Flt.mag]

/-- **C19** The outcomes a prover can reach are exactly the honest one and, for an exact product whose
rounding falls into the binade above the format's range, the malformed record. -/
theorem C19_mul_exact_partial (G : Good p b f) (hb : b ∣ f.pow2Size) {x y r : FloatVar p} {dx dy : Datum}
    (ex : Encodes f x dx) (ey : Encodes f y dy) {st : Bool} :
    (fMul f x y).Sat b st r ↔ (fMul f x y).run b = some r ∨
      (∃ s a t c, dx = .fin s a ∧ dy = .fin t c ∧ Overflowed f (xor s t) (a * c) r) := by
  obtain ⟨x, hx, rfl, rfl⟩ := encodes_iff.1 ex
  obtain ⟨y, hy, rfl, rfl⟩ := encodes_iff.1 ey
  obtain ⟨h1, h2, h3⟩ := mulZ_correct G hx hy
  have hs := fMul_spec (p := p) (b := b) (H := True) G (hx.bdd G) (hy.bdd G) (fun _ => hb)
  rw [hs.sat trivial, hs.run, Option.some.injEq]
  constructor
  · rintro ⟨c, rfl⟩
    cases c with
    | true => exact Or.inl rfl
    | false =>
      rcases h3 with ⟨h3, _⟩ | ⟨ha, hb', h3⟩
      · rw [h3]; exact Or.inl rfl
      · exact Or.inr ⟨x.sign, x.mag f, y.sign, y.mag f, datum_fin ha, datum_fin hb', overflowed_of_pseudo h3⟩
  · rintro (rfl | ⟨s, a, t, c, hdx, hdy, ho⟩)
    · exact ⟨true, rfl⟩
    · obtain ⟨ha, rfl, rfl⟩ := datum_fin_iff.1 hdx
      obtain ⟨hb', rfl, rfl⟩ := datum_fin_iff.1 hdy
      rcases h3 with ⟨_, h3⟩ | ⟨_, _, h3⟩
      · exact absurd (h3 ha hb') (overflowed_not_noTop ho)
      · exact ⟨false, overflowed_var h3 ho⟩

/-- Concrete case: `1.5 * -2.25 = -3.375`. -/
example : (fMul f32 (w32 0x3FC00000) (w32 0xC0100000)).run 8 = some (w32 0xC0580000) :=
  mul32 (by decide) (by decide) (by decide) (by decide +kernel)

/-- Concrete case: product of subnormal size, `2^-100 * 3 * 2^-49` rounds to the smallest subnormals. -/
example : (fMul f32 (w32 0x0D800000) (w32 0x27C00000)).run 8 = some (w32 0x00000003) :=
  mul32 (by decide) (by decide) (by decide) (by decide +kernel)

/-- **C19, the exception is real.** A prover can make `2^127 * 2` come out as wires that encode no
IEEE datum at all. -/
theorem C19_mul_overflow_forgeable : ∃ r, (fMul f32 (w32 0x7F000000) (w32 0x40000000)).Sat 8 true r ∧
    ∀ d, ¬ Encodes f32 r d :=
  ⟨_, mul32_sat (by decide) (by decide) false true, not_encodes_top (by decide +kernel) (by decide +kernel)⟩

/-! ### C20, C21: division -/

/-- **C20** The honest prover always succeeds and obtains the IEEE quotient. -/
theorem C20_div_complete (G : Good p b f) {x y : FloatVar p} {dx dy : Datum} (ex : Encodes f x dx)
    (ey : Encodes f y dy) :
    ∃ r d, (fDiv f x y).run b = some r ∧ Encodes f r d ∧ Ieee.Div ⟨f.E, f.M⟩ dx dy d := by
  obtain ⟨x, hx, rfl, rfl⟩ := encodes_iff.1 ex
  obtain ⟨y, hy, rfl, rfl⟩ := encodes_iff.1 ey
  obtain ⟨h1, h2, _⟩ := divZ_correct G hx hy
  exact ⟨_, _, (fDiv_spec (H := False) G (hx.bdd G) (hy.bdd G) hy.man_cases (by simp)).run,
    encodes_iff.2 ⟨_, h1, rfl, rfl⟩, h2⟩

/-- **C21** Every prover obtains the IEEE quotient, or an overflow left as a malformed record. -/
theorem C21_div_sound_partial (G : Good p b f) (hb : b ∣ f.pow2Size) {x y r : FloatVar p} {dx dy : Datum}
    (ex : Encodes f x dx) (ey : Encodes f y dy) {st : Bool} (hr : (fDiv f x y).Sat b st r) :
    (∃ d, Encodes f r d ∧ Ieee.Div ⟨f.E, f.M⟩ dx dy d) ∨
    (∃ s a t c, dx = .fin s a ∧ dy = .fin t c ∧ c ≠ 0 ∧ Overflowed f (xor s t) (a / c) r) := by
  obtain ⟨x, hx, rfl, rfl⟩ := encodes_iff.1 ex
  obtain ⟨y, hy, rfl, rfl⟩ := encodes_iff.1 ey
  obtain ⟨h1, h2, h3⟩ := divZ_correct G hx hy
  obtain ⟨c, rfl⟩ := ((fDiv_spec (H := True) G (hx.bdd G) (hy.bdd G) hy.man_cases (fun _ => hb)).sat trivial st r).1 hr
  have hgood : ∃ d, Encodes f ((divZ f x y true).toVar : FloatVar p) d ∧ Ieee.Div ⟨f.E, f.M⟩ (x.datum f) (y.datum f) d :=
    ⟨_, encodes_iff.2 ⟨_, h1, rfl, rfl⟩, h2⟩
  cases c with
  | true => exact Or.inl hgood
  | false =>
    rcases h3 with ⟨h3, _⟩ | ⟨ha, hb', hm, h3⟩
    · rw [h3]; exact Or.inl hgood
    · refine Or.inr ⟨x.sign, x.mag f, y.sign, y.mag f, ?_, ?_, ?_, overflowed_of_pseudo h3⟩
      · simp [Flt.datum, ha, Flt.mag]
      · simp [Flt.datum, hb', Flt.mag]
      · unfold Flt.mag
        have : (y.man : ℝ) ≠ 0 := by exact_mod_cast hm
        positivity

/-- **C21** The outcomes a prover can reach are exactly the honest one and, for an exact quotient whose
rounding falls into the binade above the format's range, the malformed record. -/
theorem C21_div_exact_partial (G : Good p b f) (hb : b ∣ f.pow2Size) {x y r : FloatVar p} {dx dy : Datum}
    (ex : Encodes f x dx) (ey : Encodes f y dy) {st : Bool} :
    (fDiv f x y).Sat b st r ↔ (fDiv f x y).run b = some r ∨
      (∃ s a t c, dx = .fin s a ∧ dy = .fin t c ∧ c ≠ 0 ∧ Overflowed f (xor s t) (a / c) r) := by
  obtain ⟨x, hx, rfl, rfl⟩ := encodes_iff.1 ex
  obtain ⟨y, hy, rfl, rfl⟩ := encodes_iff.1 ey
  obtain ⟨h1, h2, h3⟩ := divZ_correct G hx hy
  have hs := fDiv_spec (p := p) (b := b) (H := True) G (hx.bdd G) (hy.bdd G) hy.man_cases (fun _ => hb)
  have hmag : y.mag f ≠ 0 ↔ y.man ≠ 0 := by
    unfold Flt.mag
    have : (2:ℝ) ^ (y.exp - (f.M:ℤ)) ≠ 0 := by positivity
    simp [this]
  rw [hs.sat trivial, hs.run, Option.some.injEq]
  constructor
  · rintro ⟨c, rfl⟩
    cases c with
    | true => exact Or.inl rfl
    | false =>
      rcases h3 with ⟨h3, _⟩ | ⟨ha, hb', hm, h3⟩
      · rw [h3]; exact Or.inl rfl
      · exact Or.inr ⟨x.sign, x.mag f, y.sign, y.mag f, datum_fin ha, datum_fin hb', hmag.2 hm, overflowed_of_pseudo h3⟩
  · rintro (rfl | ⟨s, a, t, c, hdx, hdy, hc, ho⟩)
    · exact ⟨true, rfl⟩
    · obtain ⟨ha, rfl, rfl⟩ := datum_fin_iff.1 hdx
      obtain ⟨hb', rfl, rfl⟩ := datum_fin_iff.1 hdy
      rcases h3 with ⟨_, h3⟩ | ⟨_, _, _, h3⟩
      · exact absurd (h3 ha hb' (hmag.1 hc)) (overflowed_not_noTop ho)
      · exact ⟨false, overflowed_var h3 ho⟩

/-- Concrete case: `1 / 3`. -/
example : (fDiv f32 (w32 0x3F800000) (w32 0x40400000)).run 8 = some (w32 0x3EAAAAAB) :=
  div32 (by decide) (by decide) (by decide) (by decide +kernel)

/-- Concrete case: `-1 / 0 = -Inf`. -/
example : (fDiv f32 (w32 0xBF800000) (w32 0x00000000)).run 8 = some (w32 0xFF800000) :=
  div32 (by decide) (by decide) (by decide) (by decide +kernel)

/-- **C21, the exception is real.** `2^127 / 0.5` can be made to come out as wires that encode nothing. -/
theorem C21_div_overflow_forgeable : ∃ r, (fDiv f32 (w32 0x7F000000) (w32 0x3F000000)).Sat 8 true r ∧
    ∀ d, ¬ Encodes f32 r d :=
  ⟨_, div32_sat (by decide) (by decide) false true, not_encodes_top (by decide +kernel) (by decide +kernel)⟩

/-! ### C22, C23: square root -/

/-- **C22** The honest prover always succeeds and obtains the IEEE square root. -/
theorem C22_sqrt_complete (G : Good p b f) {x : FloatVar p} {dx : Datum} (ex : Encodes f x dx) :
    ∃ r d, (fSqrt f x).run b = some r ∧ Encodes f r d ∧ Ieee.Sqrt ⟨f.E, f.M⟩ dx d := by
  obtain ⟨x, hx, rfl, rfl⟩ := encodes_iff.1 ex
  obtain ⟨h1, h2⟩ := sqrtZ_correct G hx
  exact ⟨_, _, (fSqrt_spec (H := False) G (hx.bdd G) (by simp)).run, encodes_iff.2 ⟨_, h1, rfl, rfl⟩, h2⟩

/-- **C23** Every prover obtains the IEEE square root. -/
theorem C23_sqrt_sound_partial (G : Good p b f) (hb : b ∣ f.pow2Size) {x r : FloatVar p} {dx : Datum}
    (ex : Encodes f x dx) {st : Bool} (hr : (fSqrt f x).Sat b st r) :
    ∃ d, Encodes f r d ∧ Ieee.Sqrt ⟨f.E, f.M⟩ dx d := by
  obtain ⟨x, hx, rfl, rfl⟩ := encodes_iff.1 ex
  obtain ⟨h1, h2⟩ := sqrtZ_correct G hx
  obtain rfl := ((fSqrt_spec (H := True) G (hx.bdd G) (fun _ => hb)).sat trivial st r).1 hr
  exact ⟨_, encodes_iff.2 ⟨_, h1, rfl, rfl⟩, h2⟩

/-- **C23** There is no choice at all: every prover obtains the wires of the honest prover. -/
theorem C23_sqrt_deterministic_partial (G : Good p b f) (hb : b ∣ f.pow2Size) {x r : FloatVar p} {dx : Datum}
    (ex : Encodes f x dx) {st : Bool} : (fSqrt f x).Sat b st r ↔ (fSqrt f x).run b = some r := by
  obtain ⟨x, hx, rfl, rfl⟩ := encodes_iff.1 ex
  have h := fSqrt_spec (p := p) (b := b) (H := True) G (hx.bdd G) (fun _ => hb)
  rw [h.sat trivial, h.run, Option.some.injEq, eq_comm]

/-- Concrete case: `sqrt 2`, and `sqrt (-1) = NaN`. -/
example : (fSqrt f32 (w32 0x40000000)).run 8 = some (w32 0x3FB504F3) :=
  sqrt32 (by decide) (by decide) (by decide +kernel)
example : (fSqrt f32 (w32 0xBF800000)).run 8 = some (w32 0xFFC00000) :=
  sqrt32 (by decide) (by decide) (by decide +kernel)

/-! ### C15, C16: addition -/

/-- **C15** The honest prover always succeeds, and obtains the IEEE sum unless the operands
cancel exactly in the top binade. -/
theorem C15_add_complete (G : Good p b f) {x y : FloatVar p} {dx dy : Datum} (ex : Encodes f x dx)
    (ey : Encodes f y dy) : ∃ r, (fAdd f x y).run b = some r ∧
      (¬ TopCancel f dx dy → ∃ d, Encodes f r d ∧ Ieee.Add ⟨f.E, f.M⟩ dx dy d) := by
  obtain ⟨x, hx, rfl, rfl⟩ := encodes_iff.1 ex
  obtain ⟨y, hy, rfl, rfl⟩ := encodes_iff.1 ey
  refine ⟨_, (fAdd_spec (H := False) G (hx.bdd G) (hy.bdd G) hx.man_cases hy.man_cases (abn_of_eMax G hx hy) (by simp)).run,
    fun hnt => ?_⟩
  rcases add_outcomes G hx hy true true with ⟨h1, h2⟩ | ⟨h, _⟩ | ⟨_, h, _⟩ | ⟨h, _⟩
  · exact ⟨_, encodes_iff.2 ⟨_, h1, rfl, rfl⟩, h2⟩
  · cases h
  · exact absurd h hnt
  · cases h

/-- **C15, the exception.** For every exactly cancelling pair in the top binade the honest result is
`+Inf` (IEEE: zero). -/
theorem C15_add_top_cancel_gives_inf (G : Good p b f) {x y : FloatVar p} {dx dy : Datum} (ex : Encodes f x dx)
    (ey : Encodes f y dy) (h : TopCancel f dx dy) :
    ∃ r, (fAdd f x y).run b = some r ∧ Encodes f r (.inf false) ∧ ¬ Ieee.Add ⟨f.E, f.M⟩ dx dy (.inf false) := by
  obtain ⟨x, hx, rfl, rfl⟩ := encodes_iff.1 ex
  obtain ⟨y, hy, rfl, rfl⟩ := encodes_iff.1 ey
  obtain ⟨s, t, a, h1, h2, h3, h4⟩ := h
  have hxa : x.abn = false := by
    cases hx' : x.abn
    · rfl
    · unfold Flt.datum at h1; rw [hx'] at h1; simp at h1; split at h1 <;> cases h1
  have hya : y.abn = false := by
    cases hy' : y.abn
    · rfl
    · unfold Flt.datum at h2; rw [hy'] at h2; simp at h2; split at h2 <;> cases h2
  have e1 := h1
  have e2 := h2
  rw [datum_fin hxa] at h1
  rw [datum_fin hya] at h2
  injection h1 with h1s h1m
  injection h2 with h2s h2m
  have hsum : x.sval f + y.sval f = 0 := by
    rw [sval_eq_signed, sval_eq_signed, h1s, h2s, h1m, h2m]
    cases s <;> cases t <;> simp [Ieee.signed] at h3 ⊢
  refine ⟨_, (fAdd_spec (H := False) G (hx.bdd G) (hy.bdd G) hx.man_cases hy.man_cases (abn_of_eMax G hx hy) (by simp)).run, ?_, ?_⟩
  · have := (addZ_finite G hx hy hxa hya).2 hsum true true
    have hxe : x.exp = f.eMax - 1 := ((mag_top_iff G hx hxa).1 (by rw [h1m]; exact h4)).1
    have hye : y.exp = f.eMax - 1 := ((mag_top_iff G hy hya).1 (by rw [h2m]; exact h4)).1
    rw [if_pos ⟨by rw [hxe, hye]; simp, rfl⟩, if_neg (by rw [h1s, h2s]; exact h3)] at this
    rw [this]
    exact encodes_iff.2 ⟨_, Flt.Valid.inf _, by simp [Flt.datum], rfl⟩
  · rw [e1, e2]
    simp only [Ieee.Add]
    intro hh
    have := hh.1 (by cases s <;> cases t <;> simp [Ieee.signed] at h3 ⊢)
    cases this

theorem add_outcome_sound (G : Good p b f) {x y : Flt} (hx : x.Valid f) (hy : y.Valid f) (c1 c2 : Bool) {r : FloatVar p}
    (hr : r = (addZ f x y c1 c2).toVar) :
    (∃ d, Encodes f r d ∧ Ieee.Add ⟨f.E, f.M⟩ (x.datum f) (y.datum f) d) ∨
    (∃ s t a, x.datum f = .fin s a ∧ y.datum f = .fin t a ∧ s ≠ t ∧ Encodes f r (.fin true 0)) ∨
    (TopCancel f (x.datum f) (y.datum f) ∧ ∃ s, Encodes f r (.inf s)) ∨
    (∃ s a t c, x.datum f = .fin s a ∧ y.datum f = .fin t c ∧ Ieee.signed s a + Ieee.signed t c ≠ 0 ∧
      Overflowed f (decide (Ieee.signed s a + Ieee.signed t c < 0)) |Ieee.signed s a + Ieee.signed t c| r) := by
  subst hr
  rcases add_outcomes G hx hy c1 c2 with ⟨h1, h2⟩ | ⟨_, a, h1, h2, h3, h4⟩ | ⟨_, h1, h2⟩ | ⟨_, s, a, t, c, h1, h2, h3, h4⟩
  · exact Or.inl ⟨_, encodes_iff.2 ⟨_, h1, rfl, rfl⟩, h2⟩
  · refine Or.inr (Or.inl ⟨_, _, a, h1, h2, h3, ?_⟩)
    rw [h4]; exact encodes_iff.2 ⟨_, Flt.Valid.zero _, by simp [Flt.datum], rfl⟩
  · refine Or.inr (Or.inr (Or.inl ⟨h1, !c1, ?_⟩))
    rw [h2]; exact encodes_iff.2 ⟨_, Flt.Valid.inf _, by simp [Flt.datum], rfl⟩
  · exact Or.inr (Or.inr (Or.inr ⟨s, a, t, c, h1, h2, h3, overflowed_of_pseudo h4⟩))

/-- **C16** Every prover obtains the IEEE sum, up to: the sign of an exact-cancellation zero, the
infinity produced by a cancellation in the top binade, and an overflow left as a malformed record. -/
theorem C16_add_sound_partial (G : Good p b f) (hb : b ∣ f.pow2Size) {x y r : FloatVar p} {dx dy : Datum}
    (ex : Encodes f x dx) (ey : Encodes f y dy) {st : Bool} (hr : (fAdd f x y).Sat b st r) :
    (∃ d, Encodes f r d ∧ Ieee.Add ⟨f.E, f.M⟩ dx dy d) ∨
    (∃ s t a, dx = .fin s a ∧ dy = .fin t a ∧ s ≠ t ∧ Encodes f r (.fin true 0)) ∨
    (TopCancel f dx dy ∧ ∃ s, Encodes f r (.inf s)) ∨
    (∃ s a t c, dx = .fin s a ∧ dy = .fin t c ∧ Ieee.signed s a + Ieee.signed t c ≠ 0 ∧
      Overflowed f (decide (Ieee.signed s a + Ieee.signed t c < 0)) |Ieee.signed s a + Ieee.signed t c| r) := by
  obtain ⟨x, hx, rfl, rfl⟩ := encodes_iff.1 ex
  obtain ⟨y, hy, rfl, rfl⟩ := encodes_iff.1 ey
  obtain ⟨c1, c2, h⟩ := ((fAdd_spec (H := True) G (hx.bdd G) (hy.bdd G) hx.man_cases hy.man_cases (abn_of_eMax G hx hy)
    (fun _ => hb)).sat trivial st r).1 hr
  exact add_outcome_sound G hx hy c1 c2 h

/-- The outcomes for finite operands, apart from the circuit. -/
theorem add_outcome_exact (G : Good p b f) {x y : Flt} (hx : x.Valid f) (hy : y.Valid f) (ha : x.abn = false)
    (hb' : y.abn = false) {r : FloatVar p} :
    (∃ c1 c2, r = (addZ f x y c1 c2).toVar) ↔ (addZ f x y true true).toVar = r ∨
      (x.mag f = y.mag f ∧ x.sign ≠ y.sign ∧ ∃ u, Encodes f r (.fin u 0)) ∨
      (TopCancel f (.fin x.sign (x.mag f)) (.fin y.sign (y.mag f)) ∧ ∃ u, Encodes f r (.inf u)) ∨
      (Ieee.signed x.sign (x.mag f) + Ieee.signed y.sign (y.mag f) ≠ 0 ∧
        Overflowed f (decide (Ieee.signed x.sign (x.mag f) + Ieee.signed y.sign (y.mag f) < 0))
          |Ieee.signed x.sign (x.mag f) + Ieee.signed y.sign (y.mag f)| r) := by
  have hcancel : x.mag f = y.mag f → x.sign ≠ y.sign → ∀ c1 c2, addZ f x y c1 c2 =
      if max x.exp y.exp + 1 = f.eMax ∧ c2 = true then ⟨!c1, f.eMax, 2 ^ f.M, true⟩ else ⟨!c1, f.eMin, 0, false⟩ := by
    intro hm hst c1 c2
    have h0 : x.sval f + y.sval f = 0 := by
      rw [sval_eq_signed, sval_eq_signed, hm]
      cases hx' : x.sign <;> cases hy' : y.sign <;> simp [hx', hy', Ieee.signed] at hst ⊢
    have := (addZ_finite G hx hy ha hb').2 h0 c1 c2
    rw [if_neg hst] at this
    exact this
  have htopiff : TopCancel f (.fin x.sign (x.mag f)) (.fin y.sign (y.mag f)) ↔
      x.mag f = y.mag f ∧ x.sign ≠ y.sign ∧ max x.exp y.exp + 1 = f.eMax := by
    constructor
    · rintro ⟨s, t, a, h1, h2, h3, h4⟩
      injection h1 with h5 h6; injection h2 with h7 h8
      subst h5; subst h7; subst h6
      have hxe := (mag_top_iff G hx ha).1 h4
      have hye := (mag_top_iff G hy hb').1 (by rw [h8]; exact h4)
      exact ⟨h8.symm, h3, by rw [hxe.1, hye.1, max_self]; ring⟩
    · rintro ⟨h1, h2, h3⟩
      refine ⟨_, _, _, rfl, by rw [← h1], h2, ?_⟩
      have hMz := G.hMz
      have hmn := f.eMin_eq
      rcases max_choice x.exp y.exp with hm | hm <;> rw [hm] at h3
      · refine (mag_top_iff G hx ha).2 ⟨eq_sub_of_add_eq h3, fun h => ?_⟩
        have := hx.exp_of_zero ha h; omega
      · rw [h1]
        refine (mag_top_iff G hy hb').2 ⟨eq_sub_of_add_eq h3, fun h => ?_⟩
        have := hy.exp_of_zero hb' h; omega
  constructor
  · rintro ⟨c1, c2, rfl⟩
    by_cases hc : x.mag f = y.mag f ∧ x.sign ≠ y.sign
    · rw [hcancel hc.1 hc.2 c1 c2]
      by_cases htop : max x.exp y.exp + 1 = f.eMax ∧ c2 = true
      · rw [if_pos htop]
        exact Or.inr (Or.inr (Or.inl ⟨htopiff.2 ⟨hc.1, hc.2, htop.1⟩, !c1,
          encodes_iff.2 ⟨_, Flt.Valid.inf _, by simp [Flt.datum], rfl⟩⟩))
      · rw [if_neg htop]
        exact Or.inr (Or.inl ⟨hc.1, hc.2, !c1, encodes_iff.2 ⟨_, Flt.Valid.zero _, by simp [Flt.datum, Flt.mag], rfl⟩⟩)
    · have hc' : ¬ ∃ s t a, x.datum f = .fin s a ∧ y.datum f = .fin t a ∧ s ≠ t := by
        rintro ⟨s, t, a, h1, h2, h3⟩
        obtain ⟨_, rfl, rfl⟩ := datum_fin_iff.1 h1
        obtain ⟨_, rfl, h4⟩ := datum_fin_iff.1 h2
        exact hc ⟨h4, h3⟩
      rcases add_outcomes_noncancel G hx hy ha hb' hc' c1 c2 with h | ⟨s, a, t, c, h1, h2, h3, h4⟩
      · rw [h]; exact Or.inl rfl
      · obtain ⟨_, rfl, rfl⟩ := datum_fin_iff.1 h1
        obtain ⟨_, rfl, rfl⟩ := datum_fin_iff.1 h2
        exact Or.inr (Or.inr (Or.inr ⟨h3, overflowed_of_pseudo h4⟩))
  · rintro (rfl | ⟨hm, hst, u, hu⟩ | ⟨htop, u, hu⟩ | ⟨hne, ho⟩)
    · exact ⟨true, true, rfl⟩
    · refine ⟨!u, false, ?_⟩
      rw [hcancel hm hst, if_neg (by simp), Bool.not_not]
      obtain ⟨z, hz, hzd, rfl⟩ := encodes_iff.1 hu
      rw [valid_zero_eq hz hzd]
    · refine ⟨!u, true, ?_⟩
      obtain ⟨h1, h2, h3⟩ := htopiff.1 htop
      rw [hcancel h1 h2, if_pos ⟨h3, rfl⟩, Bool.not_not]
      obtain ⟨z, hz, hzd, rfl⟩ := encodes_iff.1 hu
      rw [valid_inf_eq hz hzd]
    · refine ⟨true, false, ?_⟩
      rw [← sval_eq_signed, ← sval_eq_signed] at hne ho
      obtain ⟨_, _, _, h4⟩ := (addZ_finite G hx hy ha hb').1 hne
      rcases h4 with ⟨_, h4⟩ | h4
      · exact absurd h4 (overflowed_not_noTop ho)
      · exact overflowed_var h4 ho

/-- **C16** Exact set of outcomes for finite operands: the honest one; a zero of either sign for an exact cancellation; in the top binade
moreover both infinities; and the malformed record for an overflow by one binade. -/
theorem C16_add_exact_partial (G : Good p b f) (hb : b ∣ f.pow2Size) {x y r : FloatVar p} {s t : Bool} {a c : ℝ}
    (ex : Encodes f x (.fin s a)) (ey : Encodes f y (.fin t c)) {st : Bool} :
    (fAdd f x y).Sat b st r ↔ (fAdd f x y).run b = some r ∨
      (a = c ∧ s ≠ t ∧ ∃ u, Encodes f r (.fin u 0)) ∨
      (TopCancel f (.fin s a) (.fin t c) ∧ ∃ u, Encodes f r (.inf u)) ∨
      (Ieee.signed s a + Ieee.signed t c ≠ 0 ∧
        Overflowed f (decide (Ieee.signed s a + Ieee.signed t c < 0)) |Ieee.signed s a + Ieee.signed t c| r) := by
  obtain ⟨x, hx, hdx, rfl⟩ := encodes_iff.1 ex
  obtain ⟨y, hy, hdy, rfl⟩ := encodes_iff.1 ey
  obtain ⟨ha, rfl, rfl⟩ := datum_fin_iff.1 hdx
  obtain ⟨hb', rfl, rfl⟩ := datum_fin_iff.1 hdy
  have hs := fAdd_spec (p := p) (b := b) (H := True) G (hx.bdd G) (hy.bdd G) hx.man_cases hy.man_cases (abn_of_eMax G hx hy)
    (fun _ => hb)
  rw [hs.sat trivial, hs.run, Option.some.injEq]
  exact add_outcome_exact G hx hy ha hb'

/-- Concrete case: `0.1 + 0.2`. -/
example : (fAdd f32 (w32 0x3DCCCCCD) (w32 0x3E4CCCCD)).run 8 = some (w32 0x3E99999A) :=
  add32 (by decide) (by decide) (by decide) (by decide +kernel)

/-- Concrete case: the largest number plus half an ulp overflows. -/
example : (fAdd f32 (w32 0x7F7FFFFF) (w32 0x73000000)).run 8 = some (w32 0x7F800000) :=
  add32 (by decide) (by decide) (by decide) (by decide +kernel)

/-- **C16, the exceptions are real.** `1 + (-1)` can be made to come out as `-0`. -/
theorem C16_add_zero_sign_forgeable : (fAdd f32 (w32 0x3F800000) (w32 0xBF800000)).Sat 8 true (w32 0x80000000) := by
  rw [w32_eq (v := 0x80000000) (by decide),
    show fltOf f32 0x80000000 = addZ f32 (fltOf f32 0x3F800000) (fltOf f32 0xBF800000) false true by decide +kernel]
  exact add32_sat (by decide) (by decide) false true true

/-- `2^127 + 2^127` can be made to come out as wires that encode nothing. -/
theorem C16_add_overflow_forgeable : ∃ r, (fAdd f32 (w32 0x7F000000) (w32 0x7F000000)).Sat 8 true r ∧
    ∀ d, ¬ Encodes f32 r d :=
  ⟨_, add32_sat (by decide) (by decide) false false true, not_encodes_top (by decide +kernel) (by decide +kernel)⟩

/-- **C15 as first stated is violated by the code**: `2^127 + (-2^127)` is `+Inf` for the honest prover. -/
theorem C15_add_violated : (fAdd f32 (w32 0x7F000000) (w32 0xFF000000)).run 8 = some (w32 0x7F800000) :=
  add32 (by decide) (by decide) (by decide) (by decide +kernel)

/-! ### C17: subtraction -/

/-- **C17** The honest prover always succeeds, and obtains the IEEE difference unless equal operands of
the top binade are subtracted. -/
theorem C17_sub_complete (G : Good p b f) {x y : FloatVar p} {dx dy : Datum} (ex : Encodes f x dx)
    (ey : Encodes f y dy) : ∃ r, (fSub f x y).run b = some r ∧
      (¬ TopCancel f dx dy.neg → ∃ d, Encodes f r d ∧ Ieee.Sub ⟨f.E, f.M⟩ dx dy d) := by
  obtain ⟨r, h1, h2⟩ := C15_add_complete G ex (encodes_neg ey)
  refine ⟨r, h1, fun h => ?_⟩
  obtain ⟨d, h3, h4⟩ := h2 h
  exact ⟨d, h3, sub_iff_add_neg.2 h4⟩

/-- **C17, the exception.** `x - x` of the top binade honestly yields `+Inf`. -/
theorem C17_sub_top_self_gives_inf (G : Good p b f) {x : FloatVar p} {s : Bool} {a : ℝ} (ex : Encodes f x (.fin s a))
    (ha : (2:ℝ) ^ ((2:ℤ) ^ (f.E - 1) - 1) ≤ a) :
    ∃ r, (fSub f x x).run b = some r ∧ Encodes f r (.inf false) ∧
      ¬ Ieee.Sub ⟨f.E, f.M⟩ (.fin s a) (.fin s a) (.inf false) := by
  obtain ⟨r, h1, h2, h3⟩ := C15_add_top_cancel_gives_inf G ex (encodes_neg ex) ⟨s, !s, a, rfl, rfl, by simp, ha⟩
  exact ⟨r, h1, h2, fun h => h3 (sub_iff_add_neg.1 h)⟩

/-- **C17** Every prover obtains the IEEE difference, up to the same exceptions as addition. -/
theorem C17_sub_sound_partial (G : Good p b f) (hb : b ∣ f.pow2Size) {x y r : FloatVar p} {dx dy : Datum}
    (ex : Encodes f x dx) (ey : Encodes f y dy) {st : Bool} (hr : (fSub f x y).Sat b st r) :
    (∃ d, Encodes f r d ∧ Ieee.Sub ⟨f.E, f.M⟩ dx dy d) ∨
    (∃ s a, dx = .fin s a ∧ dy = .fin s a ∧ Encodes f r (.fin true 0)) ∨
    (TopCancel f dx dy.neg ∧ ∃ s, Encodes f r (.inf s)) ∨
    (∃ s a t c, dx = .fin s a ∧ dy = .fin t c ∧ Ieee.signed s a - Ieee.signed t c ≠ 0 ∧
      Overflowed f (decide (Ieee.signed s a - Ieee.signed t c < 0)) |Ieee.signed s a - Ieee.signed t c| r) := by
  rcases C16_add_sound_partial G hb ex (encodes_neg ey) hr with ⟨d, h1, h2⟩ | ⟨s, t, a, h1, h2, h3, h4⟩ | h | ⟨s, a, t, c, h1, h2, h3⟩
  · exact Or.inl ⟨d, h1, sub_iff_add_neg.2 h2⟩
  · refine Or.inr (Or.inl ⟨s, a, h1, ?_, h4⟩)
    cases dy with
    | nan => simp [Ieee.Datum.neg] at h2
    | inf _ => simp [Ieee.Datum.neg] at h2
    | fin t' a' =>
      simp only [Ieee.Datum.neg] at h2
      injection h2 with h5 h6
      subst h6
      have : t' = s := by subst h5; cases s <;> cases t' <;> simp at h3 ⊢
      rw [this]
  · exact Or.inr (Or.inr (Or.inl h))
  · refine Or.inr (Or.inr (Or.inr ⟨s, a, !t, c, h1, ?_, ?_⟩))
    · cases dy with
      | nan => simp [Ieee.Datum.neg] at h2
      | inf _ => simp [Ieee.Datum.neg] at h2
      | fin t' a' =>
        simp only [Ieee.Datum.neg] at h2
        injection h2 with h5 h6
        subst h6; subst h5; simp
    · rw [signed_not, sub_neg_eq_add]; exact h3

/-- Concrete case: `1 - 0.1 = 0.9` (rounded). -/
example : (fSub f32 (w32 0x3F800000) (w32 0x3DCCCCCD)).run 8 = some (w32 0x3F666666) := by
  have h := add32 (x := 0x3F800000) (y := 0xBDCCCCCD) (z := 0x3F666666) (by decide) (by decide) (by decide) (by decide +kernel)
  have e : fNeg (w32 0x3DCCCCCD) = w32 0xBDCCCCCD := by
    rw [w32_eq (by decide), w32_eq (by decide), fNeg_toVar]; congr 1
  unfold fSub; rw [e]; exact h

end ZkLoc
