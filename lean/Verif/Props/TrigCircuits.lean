import Verif.TrigCircuitSpec
import Verif.Props.Atan
import Verif.Props.Wrapper
import Verif.Props.Forgery

/-!
# Property theorems C59: the circuits of the math package's tests

Acceptance as deployed: every back-end, the table width which the code selects for the whole circuit, arbitrary hints.
-/

namespace ZkLoc

open Ieee (Datum)

variable {p b : ℕ} [Fact p.Prime] {f : Fmt}

/-! ### Table widths -/

/-- **C59** The width chosen for the arc tangent circuit, which divides the lookup size 64. -/
theorem C59_width_atan64 (be : Backend) (X Z : ZMod bn254) (st : Bool) :
    Accepts be st 0 f64.pow2Size (atan64Circuit X Z) () ↔ (atan64Circuit X Z).Sat 8 st () := by
  obtain ⟨l, q, h⟩ := shape_func (p := bn254) (f := f64) (op := atanRemez64) shape_atan
  replace h : ∀ X Z, HasShape f64.pow2Size (atan64Circuit (p := bn254) X Z) l q := h
  rw [accepts_iff (h X Z), (h 0 0).widths, width_atan64]

/-- **C59** The width chosen for the sine circuit. -/
theorem C59_width_sin64 (be : Backend) (X Z : ZMod bn254) (st : Bool) :
    Accepts be st 0 f64.pow2Size (sin64Circuit X Z) () ↔ (sin64Circuit X Z).Sat 8 st () := by
  obtain ⟨l, q, h⟩ := shape_func (p := bn254) (f := f64) (op := sinTaylor64) shape_sinTaylor
  replace h : ∀ X Z, HasShape f64.pow2Size (sin64Circuit (p := bn254) X Z) l q := h
  rw [accepts_iff (h X Z), (h 0 0).widths, width_sin64]

/-- **C59** The width chosen for the single-precision arc tangent circuit with tolerance. -/
theorem C59_width_atan32Ulp (be : Backend) (X Z L U : ZMod bn254) (st : Bool) :
    Accepts be st 0 f32.pow2Size (atan32UlpCircuit X Z L U) () ↔ (atan32UlpCircuit X Z L U).Sat 8 st () := by
  obtain ⟨l, q, h⟩ := shape_ulp (p := bn254) (f := f32) (op := atanRemez32) shape_atan
  replace h : ∀ X Z L U, HasShape f32.pow2Size (atan32UlpCircuit (p := bn254) X Z L U) l q := h
  rw [accepts_iff (h X Z L U), (h 0 0 0 0).widths, width_atan32Ulp]

/-- **C59** The width chosen for the double-precision arc tangent circuit with tolerance. -/
theorem C59_width_atan64Ulp (be : Backend) (X Z L U : ZMod bn254) (st : Bool) :
    Accepts be st 0 f64.pow2Size (atan64UlpCircuit X Z L U) () ↔ (atan64UlpCircuit X Z L U).Sat 8 st () := by
  obtain ⟨l, q, h⟩ := shape_ulp (p := bn254) (f := f64) (op := atanRemez64) shape_atan
  replace h : ∀ X Z L U, HasShape f64.pow2Size (atan64UlpCircuit (p := bn254) X Z L U) l q := h
  rw [accepts_iff (h X Z L U), (h 0 0 0 0).widths, width_atan64Ulp]

/-- **C59** The width chosen for the sine circuit with tolerance. -/
theorem C59_width_sin64Ulp (be : Backend) (X Z L U : ZMod bn254) (st : Bool) :
    Accepts be st 0 f64.pow2Size (sin64UlpCircuit X Z L U) () ↔ (sin64UlpCircuit X Z L U).Sat 8 st () := by
  obtain ⟨l, q, h⟩ := shape_ulp (p := bn254) (f := f64) (op := sinTaylor64) shape_sinTaylor
  replace h : ∀ X Z L U, HasShape f64.pow2Size (sin64UlpCircuit (p := bn254) X Z L U) l q := h
  rw [accepts_iff (h X Z L U), (h 0 0 0 0).widths, width_sin64Ulp]

/-- **C59** The width chosen for the circuit of the polynomial of degree ten. -/
theorem C59_width_degTen (be : Backend) (X P : ZMod bn254) (st : Bool) :
    Accepts be st 0 f64.pow2Size (polyDegTenCircuit X P) () ↔ (polyDegTenCircuit X P).Sat 8 st () := by
  obtain ⟨l, q, h⟩ := shape_func (p := bn254) (f := f64) (op := polyDegTen) (shape_evalK _)
  replace h : ∀ X P, HasShape f64.pow2Size (polyDegTenCircuit (p := bn254) X P) l q := h
  rw [accepts_iff (h X P), (h 0 0).widths, width_degTen]

/-- **C59** The widths chosen for the circuit of the cubic polynomial: 6 or 7 depending on the back-end; neither divides 64. -/
theorem C59_width_poly (X P : ZMod bn254) (st : Bool) :
    (Accepts .r1cs st 0 f64.pow2Size (polyCircuit X P) () ↔ (polyCircuit X P).Sat 6 st ()) ∧
    (Accepts .scs st 0 f64.pow2Size (polyCircuit X P) () ↔ (polyCircuit X P).Sat 7 st ()) := by
  obtain ⟨l, q, h⟩ := shape_func (p := bn254) (f := f64) (op := polyCubic) (by obtain ⟨l, q, h⟩ := shape_horner (p := bn254) (f := f64) _; exact ⟨l, q, fun x => h x _⟩)
  replace h : ∀ X P, HasShape f64.pow2Size (polyCircuit (p := bn254) X P) l q := h
  rw [accepts_iff (h X P), accepts_iff (h X P), (h 0 0).widths, width_poly.1, width_poly.2]
  exact ⟨Iff.rfl, Iff.rfl⟩

/-! ### What acceptance means -/

/-- The double nearest to π used by the sine. -/
theorem piNum64 : Num f64 (newConstant f64 consts64.pi : FloatVar bn254) (884279719003555 / 2 ^ 48) :=
  num_exact (E := 11) (M := 52) (neg := false) (num := 884279719003555) (den := 2 ^ 48) (by norm_num) (by norm_num) (by decide)
    (by decide +kernel) (by norm_num [Ieee.signed])

/-- **C59** Whatever the hints and the back-end, `CircuitATanRemez64` accepts for a finite input `v` only outputs whose magnitude is that of the arc tangent, up to
`25 * 2^-53`. -/
theorem C59_atan64_sound (be : Backend) (st : Bool) {X Z : ZMod bn254} {s : Bool} {a : ℝ} (hX : datumOf f64 X = .fin s a)
    (h : Accepts be st 0 f64.pow2Size (atan64Circuit X Z) ()) :
    ∃ t c, datumOf f64 Z = .fin t c ∧ |c - (|Real.arctan (Ieee.signed s a)|)| ≤ 25 / 2 ^ 53 := by
  have G : Good bn254 8 f64 := goodField_bn254.2 8 ⟨by norm_num, by norm_num⟩
  rw [C59_width_atan64] at h
  obtain ⟨h1, h2, r, h3, h4, h5⟩ := (func_sat G (by decide)).1 h
  obtain ⟨w, h6, h7⟩ := C50_atan_accuracy64_sound G (by decide) ⟨s, a, hX ▸ wiresOf_encodes G (by decide) h1, rfl⟩ h3
  obtain ⟨t, h8⟩ := same_magnitude G (by decide) h6 h2 h4 h5
  exact ⟨t, _, h8, (abs_abs_sub_abs_le_abs_sub _ _).trans h7⟩

/-- **C59** For every finite input the honest prover is accepted with some output (which by `C59_atan64_sound` is the arc tangent up to the stated error). -/
theorem C59_atan64_complete (be : Backend) (st : Bool) {X : ZMod bn254} (hp : IsPattern f64 X) {s : Bool} {a : ℝ} (hX : datumOf f64 X = .fin s a) :
    ∃ Z, Accepts be st 0 f64.pow2Size (atan64Circuit X Z) () := by
  have G : Good bn254 8 f64 := goodField_bn254.2 8 ⟨by norm_num, by norm_num⟩
  obtain ⟨r, w, h1, h2, -⟩ := C50_atan_accuracy64 (b := 8) G ⟨s, a, hX ▸ wiresOf_encodes G (by decide) hp, rfl⟩
  obtain ⟨Z, h3, rfl⟩ := exists_pattern G (by decide) h2
  refine ⟨Z, (C59_width_atan64 be X Z st).2 (Circ.sat_of_run _ _ ((func_run G (by decide)).2 ⟨hp, h3, _, h1, rfl, rfl⟩))⟩

/-- **C59** Whatever the hints and the back-end, `SinCircuit` accepts for a finite input `v` of magnitude at most the largest double below π only outputs whose
magnitude is that of the sine, up to `72 * 2^-53`. -/
theorem C59_sin64_sound (be : Backend) (st : Bool) {X Z : ZMod bn254} {s : Bool} {a : ℝ} (hX : datumOf f64 X = .fin s a) (ha : a ≤ 884279719003555 / 2 ^ 48)
    (h : Accepts be st 0 f64.pow2Size (sin64Circuit X Z) ()) :
    ∃ t c, datumOf f64 Z = .fin t c ∧ |c - (|Real.sin (Ieee.signed s a)|)| ≤ 72 / 2 ^ 53 := by
  have G : Good bn254 8 f64 := goodField_bn254.2 8 ⟨by norm_num, by norm_num⟩
  rw [C59_width_sin64] at h
  obtain ⟨h1, h2, r, h3, h4, h5⟩ := (func_sat G (by decide)).1 h
  have hN : Num f64 (wiresOf f64 X) (Ieee.signed s a) := ⟨s, a, hX ▸ wiresOf_encodes G (by decide) h1, rfl⟩
  obtain ⟨w, h6, h7⟩ := C47_sin_accuracy_sound G (by decide) sinConsts64 hN piNum64
    (by rw [Num.abs_eq (hX ▸ wiresOf_encodes G (by decide) h1) rfl]; exact ha) h3
  obtain ⟨t, h8⟩ := same_magnitude G (by decide) h6 h2 h4 h5
  refine ⟨t, _, h8, (abs_abs_sub_abs_le_abs_sub _ _).trans (h7.trans ?_)⟩
  rw [ulpHalf64]; norm_num

/-- **C59** For every such input the honest prover is accepted with some output. -/
theorem C59_sin64_complete (be : Backend) (st : Bool) {X : ZMod bn254} (hp : IsPattern f64 X) {s : Bool} {a : ℝ} (hX : datumOf f64 X = .fin s a)
    (ha : a ≤ 884279719003555 / 2 ^ 48) : ∃ Z, Accepts be st 0 f64.pow2Size (sin64Circuit X Z) () := by
  have G : Good bn254 8 f64 := goodField_bn254.2 8 ⟨by norm_num, by norm_num⟩
  obtain ⟨r, w, h1, h2, -⟩ := C47_sin_accuracy (b := 8) G sinConsts64 ⟨s, a, hX ▸ wiresOf_encodes G (by decide) hp, rfl⟩ piNum64
    (by rw [Num.abs_eq (hX ▸ wiresOf_encodes G (by decide) hp) rfl]; exact ha)
  obtain ⟨Z, h3, rfl⟩ := exists_pattern G (by decide) h2
  exact ⟨Z, (C59_width_sin64 be X Z st).2 (Circ.sat_of_run _ _ ((func_run G (by decide)).2 ⟨hp, h3, _, h1, rfl, rfl⟩))⟩

/-- **C59** (violated) The sign of the claimed output is not compared: with an output pattern the circuit accepts the pattern with the sign bit set, for every
function, width and prover. -/
theorem C59_sign_ignored (G : Good p b f) (h64 : 1 + f.E + f.M ≤ 64) (op : FloatVar p → Circ p (FloatVar p)) (st : Bool) (X : ZMod p) {v : ℕ}
    (hv : v < 2 ^ (f.E + f.M)) :
    (funcCircuit f op X (v : ZMod p)).Sat b st () ↔ (funcCircuit f op X ((v + 2 ^ (f.E + f.M) : ℕ) : ZMod p)).Sat b st () := by
  have hE := G.hE
  have hEM := G.hEM
  have h2 : 2 ^ (1 + f.E + f.M) = 2 ^ (f.E + f.M) + 2 ^ (f.E + f.M) := by rw [add_assoc, Nat.pow_add 2 1]; omega
  have hlt : v + 2 ^ (f.E + f.M) < 2 ^ (1 + f.E + f.M) := by omega
  have e1 : ((v : ℕ) : ZMod p).val = v := ZMod.val_natCast_of_lt (G.lt_of_lt_pow (by omega : v < 2 ^ (1 + f.E + f.M)) (by omega))
  have e2 : ((v + 2 ^ (f.E + f.M) : ℕ) : ZMod p).val = v + 2 ^ (f.E + f.M) := ZMod.val_natCast_of_lt (G.lt_of_lt_pow hlt (by omega))
  have i1 : IsPattern f ((v : ℕ) : ZMod p) := by unfold IsPattern; omega
  have i2 : IsPattern f ((v + 2 ^ (f.E + f.M) : ℕ) : ZMod p) := by unfold IsPattern; omega
  rw [func_sat G h64, func_sat G h64]
  simp only [i1, i2, wiresOf_toVar G h64, e1, e2, fltOf_signBit hv]
  rfl

/-- **C59** (violated) As a consequence `CircuitATanRemez64` accepts `-0.46364…` as the arc tangent of `1/2`, under every back-end. -/
theorem C59_atan64_negative (be : Backend) (st : Bool) :
    Accepts be st 0 f64.pow2Size (atan64Circuit (0x3FE0000000000000 : ZMod bn254) 0xBFDDAC670561BB50) () := by
  rw [C59_width_atan64]
  exact Circ.sat_of_run _ _ (by decide +kernel)

/-- The sine of `1/2` as computed, with either sign; the input is a finite datum. -/
example (be : Backend) (st : Bool) : Accepts be st 0 f64.pow2Size (sin64Circuit (0x3FE0000000000000 : ZMod bn254) 0x3fdeaee8744b05f0) () ∧
    Accepts be st 0 f64.pow2Size (sin64Circuit (0x3FE0000000000000 : ZMod bn254) (0x3fdeaee8744b05f0 + 2 ^ 63)) () ∧
    ∃ a ≤ 884279719003555 / 2 ^ 48, datumOf f64 (0x3FE0000000000000 : ZMod bn254) = .fin false a := by
  rw [C59_width_sin64, C59_width_sin64]
  refine ⟨Circ.sat_of_run _ _ (by decide +kernel), Circ.sat_of_run _ _ (by decide +kernel), 1 / 2, by norm_num, ?_⟩
  unfold datumOf
  rw [show (0x3FE0000000000000 : ZMod bn254).val = 0x3FE0000000000000 from by decide +kernel]
  simp [Ieee.decodeBits, f64, Ieee.Format.bias, Nat.testBit]
  norm_num

/-! ### The circuits with a tolerance -/

/-- What the tolerance circuits prove about an operation whose results are within `ε` of a magnitude. -/
theorem ulp_sound (G : Good p b f) (h64 : 1 + f.E + f.M ≤ 64) {op : FloatVar p → Circ p (FloatVar p)} {X Z L U : ZMod p} {st : Bool} {y ε : ℝ}
    (hop : ∀ r, (op (wiresOf f X)).Sat b st r → ∃ w, Num f r w ∧ |w - y| ≤ ε) (h : (ulpCircuit f op X Z L U).Sat b st ())
    (nL : IsNormal f L.val) (nU : IsNormal f U.val) (eL : L.val / 2 ^ f.M % 2 ^ f.E = Z.val / 2 ^ f.M % 2 ^ f.E)
    (eU : U.val / 2 ^ f.M % 2 ^ f.E = Z.val / 2 ^ f.M % 2 ^ f.E) :
    ∃ s l t u, datumOf f L = .fin s l ∧ datumOf f U = .fin t u ∧ l - ε ≤ |y| ∧ |y| ≤ u + ε := by
  obtain ⟨-, hZ, hL, hU, r, h1, h2, h3, h4⟩ := (ulp_sat G h64).1 h
  obtain ⟨w, hw, hy⟩ := hop r h1
  obtain ⟨s, l, h5, h6, -⟩ := magnitude_cmp G h64 hw hZ hL nL eL h2
  obtain ⟨t, u, h7, -, h8⟩ := magnitude_cmp G h64 hw hZ hU nU eU h2
  have h9 := abs_le.1 ((abs_abs_sub_abs_le_abs_sub w y).trans hy)
  have := h6 h3
  have := h8 h4
  exact ⟨s, l, t, u, h5, h7, by linarith, by linarith⟩

/-- **C59** Single precision, any back-end, any hints: acceptance with bounds in the binade of the claimed output means that the magnitude of the arc tangent is
between the bounds, up to `10 * 2^-24`. -/
theorem C59_atan32Ulp_sound (be : Backend) (st : Bool) {X Z L U : ZMod bn254} {s : Bool} {a : ℝ} (hX : datumOf f32 X = .fin s a)
    (h : Accepts be st 0 f32.pow2Size (atan32UlpCircuit X Z L U) ()) (nL : IsNormal f32 L.val) (nU : IsNormal f32 U.val)
    (eL : L.val / 2 ^ 23 % 2 ^ 8 = Z.val / 2 ^ 23 % 2 ^ 8) (eU : U.val / 2 ^ 23 % 2 ^ 8 = Z.val / 2 ^ 23 % 2 ^ 8) :
    ∃ s' l t u, datumOf f32 L = .fin s' l ∧ datumOf f32 U = .fin t u ∧ l - 10 / 2 ^ 24 ≤ |Real.arctan (Ieee.signed s a)| ∧
      |Real.arctan (Ieee.signed s a)| ≤ u + 10 / 2 ^ 24 := by
  have G : Good bn254 8 f32 := goodField_bn254.1 8 ⟨by norm_num, by norm_num⟩
  rw [C59_width_atan32Ulp] at h
  have hp := ((ulp_sat G (by decide)).1 h).1
  exact ulp_sound G (by decide) (fun r hr => C50_atan_accuracy32_sound G (by decide) ⟨s, a, hX ▸ wiresOf_encodes G (by decide) hp, rfl⟩ hr) h nL nU eL eU

/-- **C59** Double precision: the same, up to `25 * 2^-53`. -/
theorem C59_atan64Ulp_sound (be : Backend) (st : Bool) {X Z L U : ZMod bn254} {s : Bool} {a : ℝ} (hX : datumOf f64 X = .fin s a)
    (h : Accepts be st 0 f64.pow2Size (atan64UlpCircuit X Z L U) ()) (nL : IsNormal f64 L.val) (nU : IsNormal f64 U.val)
    (eL : L.val / 2 ^ 52 % 2 ^ 11 = Z.val / 2 ^ 52 % 2 ^ 11) (eU : U.val / 2 ^ 52 % 2 ^ 11 = Z.val / 2 ^ 52 % 2 ^ 11) :
    ∃ s' l t u, datumOf f64 L = .fin s' l ∧ datumOf f64 U = .fin t u ∧ l - 25 / 2 ^ 53 ≤ |Real.arctan (Ieee.signed s a)| ∧
      |Real.arctan (Ieee.signed s a)| ≤ u + 25 / 2 ^ 53 := by
  have G : Good bn254 8 f64 := goodField_bn254.2 8 ⟨by norm_num, by norm_num⟩
  rw [C59_width_atan64Ulp] at h
  have hp := ((ulp_sat G (by decide)).1 h).1
  exact ulp_sound G (by decide) (fun r hr => C50_atan_accuracy64_sound G (by decide) ⟨s, a, hX ▸ wiresOf_encodes G (by decide) hp, rfl⟩ hr) h nL nU eL eU

/-- **C59** The sine, up to `72 * 2^-53`, for inputs of magnitude at most the largest double below π. -/
theorem C59_sin64Ulp_sound (be : Backend) (st : Bool) {X Z L U : ZMod bn254} {s : Bool} {a : ℝ} (hX : datumOf f64 X = .fin s a)
    (ha : a ≤ 884279719003555 / 2 ^ 48) (h : Accepts be st 0 f64.pow2Size (sin64UlpCircuit X Z L U) ()) (nL : IsNormal f64 L.val) (nU : IsNormal f64 U.val)
    (eL : L.val / 2 ^ 52 % 2 ^ 11 = Z.val / 2 ^ 52 % 2 ^ 11) (eU : U.val / 2 ^ 52 % 2 ^ 11 = Z.val / 2 ^ 52 % 2 ^ 11) :
    ∃ s' l t u, datumOf f64 L = .fin s' l ∧ datumOf f64 U = .fin t u ∧ l - 72 / 2 ^ 53 ≤ |Real.sin (Ieee.signed s a)| ∧
      |Real.sin (Ieee.signed s a)| ≤ u + 72 / 2 ^ 53 := by
  have G : Good bn254 8 f64 := goodField_bn254.2 8 ⟨by norm_num, by norm_num⟩
  rw [C59_width_sin64Ulp] at h
  have hp := ((ulp_sat G (by decide)).1 h).1
  have e : (72 : ℝ) / 2 ^ 53 = 72 * ulpHalf f64 := by rw [ulpHalf64]; norm_num
  rw [e]
  exact ulp_sound G (by decide) (fun r hr => C47_sin_accuracy_sound G (by decide) sinConsts64 ⟨s, a, hX ▸ wiresOf_encodes G (by decide) hp, rfl⟩ piNum64
    (by rw [Num.abs_eq (hX ▸ wiresOf_encodes G (by decide) hp) rfl]; exact ha) hr) h nL nU eL eU

/-- **C59** The tolerance circuit accepts whatever the exact circuit accepts, with any bounds around the output in its binade. -/
theorem C59_ulp_of_exact (G : Good p b f) (h64 : 1 + f.E + f.M ≤ 64) {op : FloatVar p → Circ p (FloatVar p)} {X Z L U : ZMod p} {st : Bool}
    (h : (funcCircuit f op X Z).Sat b st ()) (hL : IsPattern f L) (hU : IsPattern f U) (nL : IsNormal f L.val) (nZ : IsNormal f Z.val) (nU : IsNormal f U.val)
    (h1 : L.val % 2 ^ f.M ≤ Z.val % 2 ^ f.M) (h2 : Z.val % 2 ^ f.M ≤ U.val % 2 ^ f.M) : (ulpCircuit f op X Z L U).Sat b st () := by
  obtain ⟨hX, hZ, r, h3, h4, h5⟩ := (func_sat G h64).1 h
  refine (ulp_sat G h64).2 ⟨hX, hZ, hL, hU, r, h3, h4, ?_, ?_⟩ <;>
  · rw [h5]
    simp only [normal_man_val G h64 hL nL, normal_man_val G h64 hZ nZ, normal_man_val G h64 hU nU]
    omega

/-- **C59** (violated) Of the claimed output only the exponent field is used, and of the bounds only the fraction fields: their signs and exponents are free. -/
theorem C59_ulp_ignores (G : Good p b f) (h64 : 1 + f.E + f.M ≤ 64) (op : FloatVar p → Circ p (FloatVar p)) {X Z L U Z' L' U' : ZMod p} (st : Bool)
    (h : (ulpCircuit f op X Z L U).Sat b st ()) (nZ : IsNormal f Z.val) (nL : IsNormal f L.val) (nU : IsNormal f U.val)
    (hZ : IsPattern f Z') (hL : IsPattern f L') (hU : IsPattern f U') (nL' : IsNormal f L'.val) (nU' : IsNormal f U'.val)
    (e1 : Z'.val / 2 ^ f.M % 2 ^ f.E = Z.val / 2 ^ f.M % 2 ^ f.E) (e2 : L'.val % 2 ^ f.M = L.val % 2 ^ f.M) (e3 : U'.val % 2 ^ f.M = U.val % 2 ^ f.M) :
    (ulpCircuit f op X Z' L' U').Sat b st () := by
  obtain ⟨hX, hZ0, hL0, hU0, r, h3, h4, h5, h6⟩ := (ulp_sat G h64).1 h
  refine (ulp_sat G h64).2 ⟨hX, hZ, hL, hU, r, h3, ?_, ?_, ?_⟩
  · rw [h4, normal_exp G h64 hZ hZ0 nZ e1]
  · rwa [normal_man_val G h64 hL nL', e2, ← normal_man_val G h64 hL0 nL]
  · rwa [normal_man_val G h64 hU nU', e3, ← normal_man_val G h64 hU0 nU]

/-- **C59** (violated) If the bounds lie in different binades such that the fraction of the lower one is the larger, nothing is accepted, however accurate the
result: for instance the neighbours of a power of two. -/
theorem C59_ulp_binade_rejected (G : Good p b f) (h64 : 1 + f.E + f.M ≤ 64) (op : FloatVar p → Circ p (FloatVar p)) {X Z L U : ZMod p} (st : Bool)
    (nL : IsNormal f L.val) (nU : IsNormal f U.val) (h : U.val % 2 ^ f.M < L.val % 2 ^ f.M) : ¬ (ulpCircuit f op X Z L U).Sat b st () := by
  intro h'
  obtain ⟨hX, hZ, hL, hU, r, h3, h4, h5, h6⟩ := (ulp_sat G h64).1 h'
  rw [normal_man_val G h64 hL nL] at h5
  rw [normal_man_val G h64 hU nU] at h6
  omega

/-- The hypotheses are met: the arc tangent of `1/2` with bounds one unit apart is accepted; the bounds may be negative and in any binade. -/
example (be : Backend) (st : Bool) : Accepts be st 0 f64.pow2Size
    (atan64UlpCircuit (0x3FE0000000000000 : ZMod bn254) 0x3FDDAC670561BB4F 0x3FDDAC670561BB4E 0x3FDDAC670561BB50) () ∧
    Accepts be st 0 f64.pow2Size (atan64UlpCircuit (0x3FE0000000000000 : ZMod bn254) 0xBFD0000000000000 0xC00DAC670561BB4E 0x001DAC670561BB50) () ∧
    IsNormal f64 (0x3FDDAC670561BB4E : ZMod bn254).val ∧ IsNormal f64 (0xC00DAC670561BB4E : ZMod bn254).val := by
  rw [C59_width_atan64Ulp, C59_width_atan64Ulp]
  exact ⟨Circ.sat_of_run _ _ (by decide +kernel), Circ.sat_of_run _ _ (by decide +kernel), by unfold IsNormal; decide +kernel, by unfold IsNormal; decide +kernel⟩

/-- The neighbours of the single-precision `1/4`: fraction fields `0x7fffff` and `1`. -/
example (op : FloatVar bn254 → Circ bn254 (FloatVar bn254)) (X : ZMod bn254) (st : Bool) :
    ¬ (ulpCircuit f32 op X 0x3E800000 0x3E7FFFFF 0x3E800001).Sat 8 st () :=
  C59_ulp_binade_rejected (goodField_bn254.1 8 ⟨by norm_num, by norm_num⟩) (by decide) op st (by unfold IsNormal; decide +kernel) (by unfold IsNormal; decide +kernel)
    (by decide +kernel)

/-! ### The polynomial circuits -/

/-- **C59** (violated) `PolynomialEvalCircuit` under Groth16's constraint system accepts 5 as the value of `3 x³ + 2 x² + x + 5` at a point where the
honest prover is accepted with a value above `10^8`. -/
theorem C59_poly_forgeable_r1cs (st : Bool) :
    Accepts .r1cs st 0 f64.pow2Size (polyCircuit (0x4074527d1b46fd7d : ZMod bn254) 0x4014000000000000) () ∧
    (polyCircuit (0x4074527d1b46fd7d : ZMod bn254) 0x4014000000000000).run 6 = none ∧
    (polyCircuit (0x4074527d1b46fd7d : ZMod bn254) 0x4198a39f6f434e00).run 6 = some () := by
  refine ⟨(C59_width_poly _ _ st).1.2 (Circ.sat_of_forge (vs := cheat 97 (8 + 3 * 2 ^ 64)) (by decide +kernel)), by decide +kernel, ?_⟩
  decide +kernel

/-- **C59** (violated) The same under Plonk's constraint system, at `961`. -/
theorem C59_poly_forgeable_scs (st : Bool) :
    Accepts .scs st 0 f64.pow2Size (polyCircuit (0x408e080000000000 : ZMod bn254) 0x4014000000000000) () ∧
    (polyCircuit (0x408e080000000000 : ZMod bn254) 0x4014000000000000).run 7 = none ∧
    (polyCircuit (0x408e080000000000 : ZMod bn254) 0x41e3d9dc91600000).run 7 = some () := by
  refine ⟨(C59_width_poly _ _ st).2.2 (Circ.sat_of_forge (vs := cheat 97 (961 * 2 ^ 60)) (by decide +kernel)), by decide +kernel, ?_⟩
  decide +kernel

/-- The vector of `TestPolynomialEval` is accepted. -/
example (st : Bool) : Accepts .r1cs st 0 f64.pow2Size (polyCircuit (0xC0439E19C2746C32 : ZMod bn254) 0xC105BF38139DAE59) () :=
  (C59_width_poly _ _ st).1.2 (Circ.sat_of_run _ _ (by decide +kernel))

/-- The coefficients of the polynomial of degree ten. -/
def degTenCoeffs : List ℕ := [0x3ff0000000000000, 0x4022000000000000, 0x4020000000000000, 0x401c000000000000, 0x4018000000000000,
    0x4014000000000000, 0x4010000000000000, 0x4008000000000000, 0x4000000000000000, 0x3ff0000000000000, 0x3ff0000000000000]

/-- Every prover obtains the value computed by Horner's rule on integers. -/
theorem degTen_unique {X : ZMod bn254} (hX : IsPattern f64 X) {z : Flt} (h : chainZ f64 (fltOf f64 X.val) (degTenCoeffs.map (fltOf f64)) (fltOf f64 0) = some z)
    {st : Bool} {r : FloatVar bn254} (hr : (polyDegTen (wiresOf f64 X)).Sat 8 st r) : r = z.toVar := by
  have G : Good bn254 8 f64 := goodField_bn254.2 8 ⟨by norm_num, by norm_num⟩
  have hc : ∀ v ∈ degTenCoeffs, v < 2 ^ (1 + f64.E + f64.M) := by decide
  have e : degTenCoeffs.map (newConstant (p := bn254) f64) = (degTenCoeffs.map (fltOf f64)).map Flt.toVar := by
    rw [List.map_map]
    exact List.map_congr_left fun v hv => newConstant_toVar (by decide) (by decide) (hc v hv)
  unfold polyDegTen evalK at hr
  rw [show [0x3ff0000000000000, 0x4022000000000000, 0x4020000000000000, 0x401c000000000000, 0x4018000000000000,
    0x4014000000000000, 0x4010000000000000, 0x4008000000000000, 0x4000000000000000, 0x3ff0000000000000,
    0x3ff0000000000000] = degTenCoeffs from rfl, e, wiresOf_toVar G (by decide) hX, newConstant_toVar (by decide) (by decide) (by decide)] at hr
  simp only [Circ.bind_eq, Circ.sat_bind] at hr
  obtain ⟨parts, h1, h2⟩ := hr
  rw [chainZ_sound G (by decide) _ h h1] at h2
  simpa [sumParts, Circ.pure_eq, Circ.Sat, eq_comm] using h2

/-- **C59** (violated) No prover can satisfy `PolynomialEvalCircuitDegTen` with the vector of its own test, nor with the other vector listed there, under any back-end:
the value Horner's rule gives in double precision is another one. -/
theorem C59_degTen_vectors_rejected (be : Backend) (st : Bool) :
    ¬ Accepts be st 0 f64.pow2Size (polyDegTenCircuit (0x4052804B7BF6345E : ZMod bn254) 0x43D332C535AA3D95) () ∧
    ¬ Accepts be st 0 f64.pow2Size (polyDegTenCircuit (0xC05720C30BA0C839 : ZMod bn254) 0x4401FE9EF8ED27FA) () := by
  have G : Good bn254 8 f64 := goodField_bn254.2 8 ⟨by norm_num, by norm_num⟩
  rw [C59_width_degTen, C59_width_degTen]
  constructor
  · intro h
    obtain ⟨hX, -, r, h1, -, h2⟩ := (func_sat G (by decide)).1 h
    have := degTen_unique hX (z := ⟨false, 62, 5403847147797908, false⟩) (by decide +kernel) h1
    subst this
    revert h2
    decide +kernel
  · intro h
    obtain ⟨hX, -, r, h1, -, h2⟩ := (func_sat G (by decide)).1 h
    have := degTen_unique hX (z := ⟨false, 65, 5065033338660856, false⟩) (by decide +kernel) h1
    subst this
    revert h2
    decide +kernel

/-- Accepted are the values next to those, one unit and two units in the last place below. -/
example (be : Backend) (st : Bool) : Accepts be st 0 f64.pow2Size (polyDegTenCircuit (0x4052804B7BF6345E : ZMod bn254) 0x43d332c535aa3d94) () ∧
    Accepts be st 0 f64.pow2Size (polyDegTenCircuit (0xC05720C30BA0C839 : ZMod bn254) 0x4401fe9ef8ed27f8) () := by
  rw [C59_width_degTen, C59_width_degTen]
  exact ⟨Circ.sat_of_run _ _ (by decide +kernel), Circ.sat_of_run _ _ (by decide +kernel)⟩

end ZkLoc
