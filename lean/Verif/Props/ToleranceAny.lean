import Verif.UlpAny
import Verif.Props.Tolerance
import Verif.Props.AnyWidth

/-!
# Property C30 at every table width

At widths that do not divide the size of the lookup, the subtraction can be driven to a record with zero significand and the exponent of
the true difference. The comparison with the tolerance then sees the exponents only, so that differences up to twice the tolerance pass.
-/

namespace ZkLoc

open Ieee (Datum)

variable {p : ℕ} [Fact p.Prime] {b : ℕ} {f : Fmt}

/-- **C30** At every table width: whatever the honest prover can prove every prover can, and what is accepted beyond that are finite
numbers of the same sign whose rounded difference is at most twice the tolerance `τ`. -/
theorem C30_customULP_every_width (G : Good p b f) (h64 : f.E + f.M < 64) (hE : 5 ≤ f.E) (hp : 2 ^ (3 * f.M + 2 * f.E + 6 + 3 * b) ≤ p)
    {x y : FloatVar p} {dx dy : Datum} (ex : Encodes f x dx) (ey : Encodes f y dy) {ulp : ℕ} (hu : ulp < 2 ^ (1 + f.E + f.M)) {τ : ℝ}
    (hτ : Ieee.decodeBits ⟨f.E, f.M⟩ ulp = .fin false τ) (st : Bool) :
    ((fAssertIsEqualOrCustomULP f x y ulp).run b = some () → (fAssertIsEqualOrCustomULP f x y ulp).Sat b st ()) ∧
    ((fAssertIsEqualOrCustomULP f x y ulp).Sat b st () →
      (dx.SameSign dy ∧ (dx = dy ∨ Ieee.Within ⟨f.E, f.M⟩ (.fin false τ) dx dy)) ∨
      ∃ s a c r, dx = .fin s a ∧ dy = .fin s c ∧ Ieee.IsRNE ⟨f.E, f.M⟩ |a - c| r ∧ r ≤ 2 * τ) := by
  have hH := C30_customULP_honest (p := p) (b := b) G h64 ex ey hu
  rw [hτ] at hH
  rw [← hH]
  obtain ⟨x, hx, rfl, rfl⟩ := encodes_iff.1 ex
  obtain ⟨y, hy, rfl, rfl⟩ := encodes_iff.1 ey
  have hE2 : 2 ≤ f.E := le_trans (by norm_num) G.hE
  have ht := fltOf_valid hE2 hu
  have hany := customULP_any (p := p) G ⟨hE, hp⟩ hx hy ht (newConstant_eq hE2 h64 hu) st
  refine ⟨fun h => hany.2 (Or.inl h), fun h => (hany.1 h).imp id ?_⟩
  rintro ⟨hs, -, c1, c2, hne, hl⟩
  have htd : (fltOf f ulp).datum f = .fin false τ := by rw [fltOf_datum (by omega) hu]; exact hτ
  obtain ⟨hta, hts, htm⟩ := datum_fin_iff.1 htd
  obtain he | ⟨hxa, hya, h0, s, e, he, h5, h6, -, r, hr, hr1, hr2⟩ := add_forged_exp G hx hy.neg c1 c2
  · exact absurd he hne
  have hya' : y.abn = false := hya
  rw [he, lessZ_vanished hts.symm] at hl
  have hsxy : x.sign = y.sign := by
    rcases sameSign_iff.2 hs with h | h | h
    · simp [Flt.isNaN, hxa] at h
    · simp [Flt.isNaN, hya'] at h
    · exact h
  refine ⟨x.sign, x.mag f, y.mag f, r, datum_fin hxa, by rw [hsxy]; exact datum_fin hya', ?_, ?_⟩
  · have e1 : |x.sval f + y.neg.sval f| = |x.mag f - y.mag f| := by
      rw [← signed_mag, ← signed_mag]
      show |Ieee.signed x.sign (x.mag f) + Ieee.signed (!y.sign) (y.mag f)| = _
      rw [← hsxy]; exact signed_sub_same
    rw [e1] at hr
    exact hr
  · have hm : (fltOf f ulp).man ≠ 0 := by
      intro h
      have := ht.exp_of_zero hta h
      omega
    have h7 : (2:ℝ) ^ (fltOf f ulp).exp ≤ τ := by
      rw [htm]; exact pow_real_ge (ht.man_cases.resolve_left hm)
    have h8 : (2:ℝ) ^ e ≤ 2 ^ (fltOf f ulp).exp := zpow_le_zpow_right₀ (by norm_num) hl.2
    have h9 : (2:ℝ) ^ (e + 1) = 2 * 2 ^ e := by rw [zpow_add₀ (by norm_num)]; ring
    linarith

/-- **C30** The excess occurs: at width 9 (the one the location circuits get) the numbers 1966081 and 0 pass for equal with tolerance
1048576. -/
theorem C30_customULP_forgeable (st : Bool) :
    (fAssertIsEqualOrCustomULP f32 (w32 0x49F00008) (w32 0) 0x49800000).Sat 9 st () ∧
    Ieee.decodeBits ⟨8, 23⟩ 0x49F00008 = .fin false 1966081 ∧ Ieee.decodeBits ⟨8, 23⟩ 0 = .fin false 0 ∧
    Ieee.decodeBits ⟨8, 23⟩ 0x49800000 = .fin false 1048576 := by
  refine ⟨?_, ?_, ?_, ?_⟩
  · have G : Good bn254 9 f32 := goodField_bn254.1 9 ⟨by norm_num, by norm_num⟩
    have hE : 2 ≤ f32.E := by decide
    have hx := fltOf_valid (f := f32) hE (v := 0x49F00008) (by decide)
    have hy := fltOf_valid (f := f32) hE (v := 0) (by decide)
    have ht := fltOf_valid (f := f32) hE (v := 0x49800000) (by decide)
    have e1 : w32 0x49F00008 = (fltOf f32 0x49F00008).toVar := newConstant_eq hE (by decide) (by decide)
    have e2 : w32 0 = (fltOf f32 0).toVar := newConstant_eq hE (by decide) (by decide)
    rw [e1, e2]
    refine (customULP_any G ⟨by decide, by decide +kernel⟩ hx hy ht (newConstant_eq hE (by decide) (by decide)) st).2 (Or.inr ⟨?_, ?_, true, true, ?_, ?_⟩)
    · rw [← sameSign_iff]; right; right; decide +kernel
    · exact ⟨15, by decide, by decide, by decide, by decide +kernel⟩
    · decide +kernel
    · decide +kernel
  · unfold Ieee.decodeBits; norm_num [Ieee.Format.bias]; decide
  · unfold Ieee.decodeBits; norm_num [Ieee.Format.bias]
  · unfold Ieee.decodeBits; norm_num [Ieee.Format.bias]; decide

/-- `C30_customULP_every_width` at width 9 in single precision: the tolerance 2^20 accepts the numbers 1966081 and 0, whose difference lies between it and twice it, and rejects 2^22 and 0. -/
example (st : Bool) : ¬ (fAssertIsEqualOrCustomULP f32 (w32 0x4A800000) (w32 0) 0x49800000).Sat 9 st () := by
  have e1 : Ieee.decodeBits ⟨8, 23⟩ 0x4A800000 = .fin false 4194304 := by unfold Ieee.decodeBits; norm_num [Ieee.Format.bias]; decide
  have e0 : Ieee.decodeBits ⟨8, 23⟩ 0 = .fin false 0 := by unfold Ieee.decodeBits; norm_num [Ieee.Format.bias]
  have eτ : Ieee.decodeBits ⟨8, 23⟩ 0x49800000 = .fin false 1048576 := by unfold Ieee.decodeBits; norm_num [Ieee.Format.bias]; decide
  have h1 := w32_encodes (v := 0x4A800000) (by norm_num)
  have h0 := w32_encodes (v := 0) (by norm_num)
  have G : Good bn254 9 f32 := good_bn254_f32 ⟨by norm_num, by norm_num⟩
  intro hs
  have hrun : ¬ (fAssertIsEqualOrCustomULP f32 (w32 0x4A800000) (w32 0) 0x49800000).run 9 = some () := by decide +kernel
  rcases (C30_customULP_every_width G (by decide) (by decide) (by decide +kernel) h1 h0 (by norm_num [f32]) eτ st).2 hs with h | ⟨s, a, c, r, ha, hc, hr, hle⟩
  · rw [← eτ] at h
    exact hrun ((C30_customULP_honest G (by decide) h1 h0 (by norm_num [f32])).2 h)
  · rw [e1] at ha
    rw [e0] at hc
    obtain ⟨-, rfl⟩ := Datum.fin.injEq _ _ _ _ ▸ ha
    obtain ⟨-, rfl⟩ := Datum.fin.injEq _ _ _ _ ▸ hc
    rw [show |(4194304 : ℝ) - 0| = 4194304 by norm_num] at hr
    have h2 := hr.nearest 4194304 ⟨4194304, 0, by norm_num [f32], by norm_num [Ieee.Format.qmin, Ieee.Format.emin, Ieee.Format.bias, f32], by norm_num⟩
    rw [sub_self, abs_zero] at h2
    have h3 := abs_eq_zero.1 (le_antisymm h2 (abs_nonneg _))
    linarith

end ZkLoc
