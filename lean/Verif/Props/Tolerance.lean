import Verif.UlpSpec
import Verif.Examples

/-!
# Property C30: equality up to a given tolerance
-/

namespace ZkLoc

open Ieee (Datum)

variable {p : ℕ} [Fact p.Prime] {b : ℕ} {f : Fmt}

theorem newConstant_eq {p : ℕ} (hE : 2 ≤ f.E) (h64 : f.E + f.M < 64) {v : ℕ} (hv : v < 2 ^ (1 + f.E + f.M)) :
    (newConstant f v : FloatVar p) = (fltOf f v).toVar := by
  unfold newConstant
  rw [componentsOf_eq (by omega) (by omega) hv, comps_toVar]

theorem customULP_iff (G : Good p b f) {x y : Flt} (hx : x.Valid f) (hy : y.Valid f) {F : Ieee.Format} {t : Datum} :
    ((x.datum f).SameSign (y.datum f) ∧ (Ieee.Within F t (x.datum f) (y.datum f) ∨ x.SameBody y)) ↔
    ((x.datum f).SameSign (y.datum f) ∧ (x.datum f = y.datum f ∨ Ieee.Within F t (x.datum f) (y.datum f))) := by
  have h := same_iff G hx hy
  rw [sameSign_iff (f := f)] at h
  constructor
  · rintro ⟨h1, h2 | h2⟩
    · exact ⟨h1, Or.inr h2⟩
    · exact ⟨h1, Or.inl (h.1 ⟨h1, h2⟩)⟩
  · rintro ⟨h1, h2 | h2⟩
    · exact ⟨h1, Or.inr (h.2 h2).2⟩
    · exact ⟨h1, Or.inl h2⟩

/-- **C30** The honest prover satisfies `AssertIsEqualOrCustomULP` with tolerance constant `ulp` (a bit
pattern) exactly when the signs agree (or an operand is NaN) and the data are equal or their rounded
difference is at most the tolerance, an absolute quantity. Every width. -/
theorem C30_customULP_honest (G : Good p b f) (h64 : f.E + f.M < 64) {x y : FloatVar p} {dx dy : Datum} (ex : Encodes f x dx) (ey : Encodes f y dy)
    {ulp : ℕ} (hu : ulp < 2 ^ (1 + f.E + f.M)) :
    (fAssertIsEqualOrCustomULP f x y ulp).run b = some () ↔
      dx.SameSign dy ∧ (dx = dy ∨ Ieee.Within ⟨f.E, f.M⟩ (Ieee.decodeBits ⟨f.E, f.M⟩ ulp) dx dy) := by
  obtain ⟨x, hx, rfl, rfl⟩ := encodes_iff.1 ex
  obtain ⟨y, hy, rfl, rfl⟩ := encodes_iff.1 ey
  have hE : 2 ≤ f.E := le_trans (by norm_num) G.hE
  have ht := fltOf_valid hE hu
  have h := fAssertIsEqualOrCustomULP_dec (b := b) (H := False) G (by simp) hx hy ht (newConstant_eq hE h64 hu)
  rw [h.run, customULP_iff G hx hy, fltOf_datum (by omega) hu]
  rfl

/-- **C30** Every prover is accepted on exactly the same pairs, if the table width divides `M + E + 1` (the
restriction comes from the subtraction). -/
theorem C30_customULP_exact_partial (G : Good p b f) (h64 : f.E + f.M < 64) (hb : b ∣ f.pow2Size) {x y : FloatVar p} {dx dy : Datum}
    (ex : Encodes f x dx) (ey : Encodes f y dy) {ulp : ℕ} (hu : ulp < 2 ^ (1 + f.E + f.M)) (st : Bool) :
    (fAssertIsEqualOrCustomULP f x y ulp).Sat b st () ↔
      dx.SameSign dy ∧ (dx = dy ∨ Ieee.Within ⟨f.E, f.M⟩ (Ieee.decodeBits ⟨f.E, f.M⟩ ulp) dx dy) := by
  obtain ⟨x, hx, rfl, rfl⟩ := encodes_iff.1 ex
  obtain ⟨y, hy, rfl, rfl⟩ := encodes_iff.1 ey
  have hE : 2 ≤ f.E := le_trans (by norm_num) G.hE
  have ht := fltOf_valid hE hu
  have h := fAssertIsEqualOrCustomULP_dec (b := b) (H := True) G (fun _ => hb) hx hy ht (newConstant_eq hE h64 hu)
  rw [h.sat trivial, customULP_iff G hx hy, fltOf_datum (by omega) hu]
  rfl

/-- **C30, "ULP" is a misnomer.** With tolerance `1.0` (one unit, if it were in units in the last place), the
circuit accepts `1.0` and `2.0`, which are `2^23` units apart; and with tolerance `3.0` it rejects the
neighbours `2^30` and `2^30 + 128`. -/
theorem C30_tolerance_is_absolute :
    (fAssertIsEqualOrCustomULP f32 (w32 0x3F800000) (w32 0x40000000) 0x3F800000).run 8 = some () ∧
    ¬ (fAssertIsEqualOrCustomULP f32 (w32 0x4E800000) (w32 0x4E800001) 0x40400000).Sat 8 true () := by
  have one : Ieee.decodeBits ⟨8, 23⟩ 0x3F800000 = .fin false 1 := by
    unfold Ieee.decodeBits; norm_num [Ieee.Format.bias]; decide
  have two : Ieee.decodeBits ⟨8, 23⟩ 0x40000000 = .fin false 2 := by
    unfold Ieee.decodeBits; norm_num [Ieee.Format.bias]; decide
  have three : Ieee.decodeBits ⟨8, 23⟩ 0x40400000 = .fin false 3 := by
    unfold Ieee.decodeBits; norm_num [Ieee.Format.bias]; decide
  have a : Ieee.decodeBits ⟨8, 23⟩ 0x4E800000 = .fin false (2 ^ 30) := by
    unfold Ieee.decodeBits; norm_num [Ieee.Format.bias]; decide
  have c : Ieee.decodeBits ⟨8, 23⟩ 0x4E800001 = .fin false (2 ^ 30 + 128) := by
    unfold Ieee.decodeBits; norm_num [Ieee.Format.bias]; decide
  have rep : ∀ n : ℕ, n < 2 ^ 24 → Ieee.Representable ⟨8, 23⟩ n := fun n hn =>
    ⟨n, 0, hn, by norm_num [Ieee.Format.qmin, Ieee.Format.emin, Ieee.Format.bias], by simp⟩
  constructor
  · rw [C30_customULP_honest (f := f32) good8 (by decide) (w32_encodes (by norm_num)) (w32_encodes (by norm_num)) (by decide)]
    show _ ∧ (_ ∨ Ieee.Within ⟨8, 23⟩ (Ieee.decodeBits ⟨8, 23⟩ _) _ _)
    rw [one, two]
    refine ⟨rfl, Or.inr ⟨.fin true 1, ⟨by norm_num [Ieee.signed], fun _ => ⟨1, ?_, ?_, ?_⟩⟩, 1, 1, ?_, ?_, le_rfl⟩⟩
    · have : |Ieee.signed false 1 - Ieee.signed false 2| = 1 := by norm_num [Ieee.signed]
      rw [this]
      have := (rep 1 (by norm_num)).isRNE
      simpa using this
    · intro _; norm_num [Ieee.signed]
    · intro h; norm_num [Ieee.Format.bias] at h
    · simp [Ieee.Datum.abs, Ieee.Datum.value, Ieee.signed]
    · simp [Ieee.Datum.value, Ieee.signed]
  · rw [C30_customULP_exact_partial (f := f32) good8 (by decide) (by decide) (w32_encodes (by norm_num)) (w32_encodes (by norm_num)) (by decide)]
    show ¬ (_ ∧ (_ ∨ Ieee.Within ⟨8, 23⟩ (Ieee.decodeBits ⟨8, 23⟩ _) _ _))
    rw [three, a, c]
    rintro ⟨_, h | ⟨d, h, u, v, hu, hv, huv⟩⟩
    · injection h with _ h; norm_num at h
    · have h0 : Ieee.signed false (2 ^ 30) - Ieee.signed false (2 ^ 30 + 128) = -128 := by norm_num [Ieee.signed]
      simp only [Ieee.Sub] at h
      rw [h0] at h
      obtain ⟨r, h1, h2, h3⟩ := h.2 (by norm_num)
      have h4 : r = 128 := by
        have := (rep 128 (by norm_num)).isRNE
        have h5 : |(-128:ℝ)| = ((128:ℕ) : ℝ) := by norm_num
        rw [h5] at h1
        have := h1.unique this
        simpa using this
      rw [h4] at h2
      have hd := h2 (by norm_num [Ieee.Format.bias])
      rw [hd] at hu
      simp [Ieee.Datum.abs, Ieee.Datum.value, Ieee.signed] at hu hv
      rw [← hu, ← hv] at huv
      have : (128:ℝ) ≤ 3 := by exact_mod_cast huv
      norm_num at this

/-- `C30_customULP_honest`, `C30_customULP_exact_partial`: 4 and 4.5 are within 1 of each other and not within 0.25; 4 and -4 have different signs. -/
example : (fAssertIsEqualOrCustomULP f32 (w32 0x40800000) (w32 0x40900000) 0x3F800000).Sat 8 true () ∧
    Ieee.Within ⟨8, 23⟩ (Ieee.decodeBits ⟨8, 23⟩ 0x3F800000) (Ieee.decodeBits ⟨8, 23⟩ 0x40800000) (Ieee.decodeBits ⟨8, 23⟩ 0x40900000) ∧
    ¬ (fAssertIsEqualOrCustomULP f32 (w32 0x40800000) (w32 0x40900000) 0x3E800000).Sat 8 true () ∧
    ¬ (fAssertIsEqualOrCustomULP f32 (w32 0x40800000) (w32 0xC0800000) 0x42800000).Sat 8 true () := by
  have key : ∀ x y u, x < 2 ^ 32 → y < 2 ^ 32 → u < 2 ^ 32 → ((fAssertIsEqualOrCustomULP f32 (w32 x) (w32 y) u).Sat 8 true () ↔
      (fAssertIsEqualOrCustomULP f32 (w32 x) (w32 y) u).run 8 = some ()) := fun x y u hx hy hu =>
    (C30_customULP_exact_partial good8 (by decide) (by decide) (w32_encodes hx) (w32_encodes hy) hu true).trans
      (C30_customULP_honest good8 (by decide) (w32_encodes hx) (w32_encodes hy) hu).symm
  have r : (fAssertIsEqualOrCustomULP f32 (w32 0x40800000) (w32 0x40900000) 0x3F800000).run 8 = some () := by decide +kernel
  refine ⟨(key _ _ _ (by norm_num) (by norm_num) (by norm_num)).2 r, ?_, fun h => ?_, fun h => ?_⟩
  · refine (((C30_customULP_honest good8 (by decide) (w32_encodes (by norm_num)) (w32_encodes (by norm_num)) (by norm_num [f32])).1 r).2).resolve_left ?_
    have e1 : Ieee.decodeBits ⟨8, 23⟩ 0x40800000 = .fin false 4 := by unfold Ieee.decodeBits; norm_num [Ieee.Format.bias]; decide
    have e2 : Ieee.decodeBits ⟨8, 23⟩ 0x40900000 = .fin false (9 / 2) := by unfold Ieee.decodeBits; norm_num [Ieee.Format.bias]; decide
    change ¬ Ieee.decodeBits ⟨8, 23⟩ 0x40800000 = Ieee.decodeBits ⟨8, 23⟩ 0x40900000
    rw [e1, e2]
    norm_num
  · have := (key _ _ _ (by norm_num) (by norm_num) (by norm_num)).1 h; revert this; decide +kernel
  · have := (key _ _ _ (by norm_num) (by norm_num) (by norm_num)).1 h; revert this; decide +kernel

end ZkLoc
