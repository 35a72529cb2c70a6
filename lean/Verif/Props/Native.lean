import Verif.Bridge

/-!
# C01–C04: native encoding and decoding (`ComponentsOf`, `ValueOf`)

Formats with at most 64 bits in all (the code works on `uint64`), at least two exponent bits and one
fraction bit.
-/

namespace ZkLoc

/-- All exponent bits set and a non-zero fraction. -/
def IsNaNBits (E M v : ℕ) : Prop := v / 2 ^ M % 2 ^ E = 2 ^ E - 1 ∧ v % 2 ^ M ≠ 0

instance (E M v : ℕ) : Decidable (IsNaNBits E M v) := by unfold IsNaNBits; infer_instance

theorem nan_iff {f : Fmt} {v : ℕ} : ((fltOf f v).abn = true ∧ (fltOf f v).man = 0) ↔ IsNaNBits f.E f.M v := by
  unfold fltOf IsNaNBits
  simp only
  have hpos : 2 ^ f.M ≠ 0 := by positivity
  split
  · rename_i h
    by_cases hm : v % 2 ^ f.M = 0 <;> simp [h, hm]
  · rename_i h
    split <;> simp [h]

/-- **C01** Decoding always yields a canonical record. -/
theorem C01_decode_canonical {E M v : ℕ} (hE : 2 ≤ E) (h64 : 1 + E + M ≤ 64) (hv : v < 2 ^ (1 + E + M)) :
    Canonical E M (componentsOf v E M) := by
  have := componentsOf_eq (f := ⟨E, M⟩) (by simpa using (by omega : 1 ≤ E)) h64 hv
  simp only at this
  rw [this]
  exact valid_comps_canonical (f := ⟨E, M⟩) (fltOf_valid hE hv)

/-- **C01** Every canonical record is the decoding of some bit pattern. -/
theorem C01_decode_onto {E M : ℕ} (hE : 2 ≤ E) (hM : 1 ≤ M) (h64 : 1 + E + M ≤ 64) {c : Components}
    (hc : Canonical E M c) : ∃ v < 2 ^ (1 + E + M), componentsOf v E M = c := by
  obtain ⟨x, hx, rfl⟩ := canonical_exists_valid (f := ⟨E, M⟩) hc
  refine ⟨bitsOf ⟨E, M⟩ x, bitsOf_lt hE hM hx, ?_⟩
  have := componentsOf_eq (f := ⟨E, M⟩) (by simpa using (by omega : 1 ≤ E)) h64 (bitsOf_lt hE hM hx)
  simp only at this
  rw [this, fltOf_bitsOf hE hM hx]

/-- **C02** Encoding after decoding: the same bit pattern, NaN payloads normalised to 1; no panic. -/
theorem C02_encode_decode {E M v : ℕ} (hE : 2 ≤ E) (hM : 1 ≤ M) (h64 : 1 + E + M ≤ 64) (hv : v < 2 ^ (1 + E + M)) :
    valueOf (componentsOf v E M) E M =
      some (if IsNaNBits E M v then v / 2 ^ (E + M) * 2 ^ (E + M) + (2 ^ E - 1) * 2 ^ M + 1 else v) := by
  have h1 := componentsOf_eq (f := ⟨E, M⟩) (by simpa using (by omega : 1 ≤ E)) h64 hv
  have h2 := valueOf_eq (f := ⟨E, M⟩) hE hM h64 (fltOf_valid (f := ⟨E, M⟩) hE hv)
  simp only at h1 h2
  rw [h1, h2]
  congr 1
  by_cases hn : IsNaNBits E M v
  · rw [if_pos hn]
    have hm0 : ¬ v % 2 ^ M = 0 := hn.2
    have he0 : v / 2 ^ M % 2 ^ E = 2 ^ E - 1 := hn.1
    have hs : (decide (v / 2 ^ (E + M) % 2 = 1)).toNat = v / 2 ^ (E + M) := by
      have : v / 2 ^ (E + M) < 2 := by
        rw [Nat.div_lt_iff_lt_mul (by positivity), ← pow_succ', show E + M + 1 = 1 + E + M by ring]; exact hv
      generalize v / 2 ^ (E + M) = q at this ⊢
      have h3 : q = 0 ∨ q = 1 := by omega
      rcases h3 with h | h <;> rw [h] <;> rfl
    unfold bitsOf fltOf
    simp [he0, hm0, hs, add_assoc]
  · rw [if_neg hn]
    exact bitsOf_fltOf (f := ⟨E, M⟩) hE hM hv (fun h => hn (nan_iff.1 h))

/-- **C03** Encoding succeeds on every canonical record and decoding the result returns the record. -/
theorem C03_decode_encode {E M : ℕ} (hE : 2 ≤ E) (hM : 1 ≤ M) (h64 : 1 + E + M ≤ 64) {c : Components}
    (hc : Canonical E M c) :
    ∃ v, valueOf c E M = some v ∧ v < 2 ^ (1 + E + M) ∧ componentsOf v E M = c := by
  obtain ⟨x, hx, rfl⟩ := canonical_exists_valid (f := ⟨E, M⟩) hc
  have h2 := valueOf_eq (f := ⟨E, M⟩) hE hM h64 hx
  simp only at h2
  refine ⟨bitsOf ⟨E, M⟩ x, h2, bitsOf_lt hE hM hx, ?_⟩
  have := componentsOf_eq (f := ⟨E, M⟩) (by simpa using (by omega : 1 ≤ E)) h64 (bitsOf_lt hE hM hx)
  simp only at this
  rw [this, fltOf_bitsOf hE hM hx]

/-- **C03** Canonical records with the same encoding are equal. -/
theorem C03_encode_injective {E M : ℕ} (hE : 2 ≤ E) (hM : 1 ≤ M) (h64 : 1 + E + M ≤ 64) {c d : Components}
    (hc : Canonical E M c) (hd : Canonical E M d) (h : valueOf c E M = valueOf d E M) : c = d := by
  obtain ⟨v, h1, _, h2⟩ := C03_decode_encode hE hM h64 hc
  obtain ⟨w, h3, _, h4⟩ := C03_decode_encode hE hM h64 hd
  rw [h1, h3, Option.some.injEq] at h
  rw [← h2, ← h4, h]

/-- **C04** Decoding preserves the IEEE-754 value. -/
theorem C04_decode_value {E M v : ℕ} (hE : 2 ≤ E) (h64 : 1 + E + M ≤ 64) (hv : v < 2 ^ (1 + E + M)) :
    denotes M (componentsOf v E M) = Ieee.decodeBits ⟨E, M⟩ v := by
  have h1 := componentsOf_eq (f := ⟨E, M⟩) (by simpa using (by omega : 1 ≤ E)) h64 hv
  have h2 := fltOf_datum (f := ⟨E, M⟩) (by simpa using (by omega : 1 ≤ E)) hv
  simp only at h1
  rw [h1]
  rw [show (Fmt.ieee ⟨E, M⟩) = ⟨E, M⟩ from rfl] at h2
  rw [← h2]
  unfold denotes Flt.datum Flt.comps
  cases (fltOf ⟨E, M⟩ v).abn <;> cases (fltOf ⟨E, M⟩ v).sign <;> simp

/-- **C04** Encoding preserves the IEEE-754 value of a canonical record. -/
theorem C04_encode_value {E M : ℕ} (hE : 2 ≤ E) (hM : 1 ≤ M) (h64 : 1 + E + M ≤ 64) {c : Components}
    (hc : Canonical E M c) : ∃ v, valueOf c E M = some v ∧ Ieee.decodeBits ⟨E, M⟩ v = denotes M c := by
  obtain ⟨v, h1, h2, h3⟩ := C03_decode_encode hE hM h64 hc
  exact ⟨v, h1, by rw [← C04_decode_value hE h64 h2, h3]⟩

/-! ### Concrete cases (binary32) -/

-- 1.5, the smallest subnormal, a NaN with a payload, -infinity
example : componentsOf 0x3FC00000 8 23 = ⟨0, 0, 0xC00000, 0⟩ := by decide
example : componentsOf 0x00000001 8 23 = ⟨0, -149, 0x800000, 0⟩ := by decide
example : componentsOf 0xFFC01234 8 23 = ⟨1, 128, 0, 1⟩ := by decide
example : componentsOf 0xFF800000 8 23 = ⟨1, 128, 0x800000, 1⟩ := by decide
example : valueOf ⟨0, -149, 0x800000, 0⟩ 8 23 = some 1 := by decide
example : valueOf ⟨1, 128, 0, 1⟩ 8 23 = some 0xFF800001 := by decide
example : IsNaNBits 8 23 0xFFC01234 ∧ ¬ IsNaNBits 8 23 0xFF800000 := by decide
-- a non-canonical record (subnormal with a low bit set) makes the encoder panic
example : valueOf ⟨0, -149, 0x800001, 0⟩ 8 23 = none := by decide
-- the canonical record of the smallest subnormal meets the hypothesis of C03
example : Canonical 8 23 ⟨0, -149, 0x800000, 0⟩ := by
  refine ⟨Or.inl rfl, Or.inr (Or.inr ⟨rfl, by norm_num, by norm_num, by norm_num, by norm_num, fun k hk => ?_⟩)⟩
  norm_num at hk
  have : k ≤ 23 := by omega
  exact dvd_trans (pow_dvd_pow 2 this) (by norm_num)
-- and the hypotheses of C01, C02, C04 hold for binary32 and binary64
example : (2 ≤ 8 ∧ 1 ≤ 23 ∧ 1 + 8 + 23 ≤ 64) ∧ (2 ≤ 11 ∧ 1 ≤ 52 ∧ 1 + 11 + 52 ≤ 64) := by decide
example : Canonical 8 23 (componentsOf 0x3FC00000 8 23) := C01_decode_canonical (by norm_num) (by norm_num) (by norm_num)
example : ∃ v, valueOf (componentsOf 0x7FC00000 8 23) 8 23 = some v ∧ v = 0x7F800001 := ⟨_, rfl, rfl⟩

end ZkLoc
