import Verif.GadgetSpec
import Verif.Field

/-!
# Properties C05, C06, C07: what the range checks of /repo/gadget/rangecheck.go accept

`CheckSat b v bits mode` says that *some* assignment of the limb wires satisfies everything `commit`
emits for the entry `(v, bits, mode)`; `checkRun` that the limbs computed by `DecomposeHint` do.
The statements below do not mention limbs. `L` is specified as the least number of limbs of width `b`
covering `bits` bits.
-/

namespace ZkLoc

/-- The least number of `b`-bit limbs covering `bits` bits. -/
def IsLimbCount (b bits L : ℕ) : Prop := IsLeast {L | bits ≤ L * b} L

theorem IsLimbCount.eq {b bits L : ℕ} (hb : 0 < b) (hn : 0 < bits) (h : IsLimbCount b bits L) :
    L = decompSize bits b := by
  apply le_antisymm
  · exact h.2 (le_decompSize_mul bits hb)
  · by_contra hlt
    have h1 : (L + 1) * b ≤ decompSize bits b * b := Nat.mul_le_mul_right _ (by omega)
    have h2 := decompSize_mul_lt hb hn
    have h3 : bits ≤ L * b := h.1
    rw [Nat.succ_mul] at h1
    omega

theorem isLimbCount_decompSize {b bits : ℕ} (hb : 0 < b) (hn : 0 < bits) :
    IsLimbCount b bits (decompSize bits b) := by
  refine ⟨le_decompSize_mul bits hb, fun L hL => ?_⟩
  by_contra hlt
  have h1 : (L + 1) * b ≤ decompSize bits b * b := Nat.mul_le_mul_right _ (by omega)
  have h2 := decompSize_mul_lt hb hn
  have h3 : bits ≤ L * b := hL
  rw [Nat.succ_mul] at h1
  omega

variable {p : ℕ} [Fact p.Prime]

/-- **C05.** A Loose check is satisfiable exactly when the value is below `2^(L*b)`. -/
theorem C05_loose_accepts_iff {b bits L : ℕ} (hb : 0 < b) (hn : 0 < bits) (hL : IsLimbCount b bits L)
    (v : ZMod p) : CheckSat b v bits .loose ↔ v.val < 2 ^ (L * b) := by
  rw [hL.eq hb hn]; exact checkSat_loose_iff hb hn v

/-- **C05, completeness.** The honest limbs are accepted for every value below `2^bits`. -/
theorem C05_loose_complete {b bits : ℕ} (hb : 0 < b) (hn : 0 < bits) {v : ZMod p} (hv : v.val < 2 ^ bits) :
    checkRun b v bits .loose = true := checkRun_loose hb hn hv

/-- **C05, exactness.** In a field with more than `2^bits` elements the Loose check is exact if and only
if the table width divides the bit length. -/
theorem C05_loose_exact_iff {b bits : ℕ} (hb : 0 < b) (hn : 0 < bits) (hp : 2 ^ bits < p) :
    (∀ v : ZMod p, CheckSat b v bits .loose ↔ v.val < 2 ^ bits) ↔ b ∣ bits := by
  have hs := slack_add bits hb
  constructor
  · intro h
    by_contra hdvd
    have hlt : bits < decompSize bits b * b := by
      rcases Nat.lt_or_ge bits (decompSize bits b * b) with h | h
      · exact h
      · exfalso; apply hdvd
        have : bits = decompSize bits b * b := by omega
        rw [this]; exact Dvd.intro_left _ rfl
    have h1 := (h ((2 ^ bits : ℕ) : ZMod p)).1 (by
      rw [checkSat_loose_iff hb hn, ZMod.val_natCast_of_lt hp]
      exact Nat.pow_lt_pow_right (by norm_num) hlt)
    rw [ZMod.val_natCast_of_lt hp] at h1
    omega
  · intro hdvd v
    rw [checkSat_loose_iff hb hn, decompSize_of_dvd hb hdvd]

/-- The hypotheses of C05 are met, and both cases occur: BN254, 23 bits, table widths 8 and 23... -/
example : IsLimbCount 8 23 3 := isLimbCount_decompSize (b := 8) (bits := 23) (by norm_num) (by norm_num)
/-- ... a 24-bit value passes the 23-bit Loose check with width 8. -/
example : CheckSat 8 ((2 ^ 23 : ℕ) : ZMod bn254) 23 .loose := by
  rw [C05_loose_accepts_iff (L := 3) (by norm_num) (by norm_num)
    (isLimbCount_decompSize (b := 8) (bits := 23) (by norm_num) (by norm_num)),
    ZMod.val_natCast_of_lt (by norm_num [bn254])]
  norm_num

/-- **C06.** The check for values of unknown range is exact, for every table width. -/
theorem C06_unknown_exact {b bits : ℕ} (hb : 0 < b) (hn : 0 < bits) (hp : 2 ^ (2 * b) ≤ p) (v : ZMod p) :
    CheckSat b v bits .unknown ↔ v.val < 2 ^ bits := checkSat_unknown_iff hb hn hp v

/-- **C06, completeness** for the honest limbs. -/
theorem C06_unknown_complete {b bits : ℕ} (hb : 0 < b) (hn : 0 < bits) {v : ZMod p} (hv : v.val < 2 ^ bits) :
    checkRun b v bits .unknown = true := checkRun_unknown hb hn hv

example : (2 : ℕ) ^ (2 * 17) ≤ bn254 := by norm_num [bn254]
example : ¬ CheckSat 8 ((2 ^ 23 : ℕ) : ZMod bn254) 23 .unknown := by
  rw [C06_unknown_exact (by norm_num) (by norm_num) (by norm_num [bn254]),
    ZMod.val_natCast_of_lt (by norm_num [bn254])]
  norm_num

/-- **C07.** Exact characterisation of the check for small absolute values: the value times `2^(L*b-bits)`
(in the field) is below `2^(L*b)`. -/
theorem C07_smallAbs_accepts_iff {b bits L : ℕ} (hb : 0 < b) (hn : 0 < bits) (hL : IsLimbCount b bits L)
    (v : ZMod p) : CheckSat b v bits .smallAbs ↔ (v * 2 ^ (L * b - bits)).val < 2 ^ (L * b) := by
  rw [hL.eq hb hn]; exact checkSat_smallAbs_iff hb hn v

/-- **C07.** On integers of small absolute value (`|z| ≤ 2^C`, `2^(C+b+1) ≤ p`) the check is exact. -/
theorem C07_smallAbs_exact_on_small {b bits C : ℕ} (hb : 0 < b) (hn : 0 < bits) (hC : bits ≤ C)
    (hp : 2 ^ (C + b + 1) ≤ p) {z : ℤ} (hz : |z| ≤ 2 ^ C) :
    CheckSat b ((z : ℤ) : ZMod p) bits .smallAbs ↔ 0 ≤ z ∧ z < 2 ^ bits :=
  checkSat_smallAbs_int hb hn hz hC hp

/-- **C07, completeness** for the honest limbs. -/
theorem C07_smallAbs_complete {b bits : ℕ} (hb : 0 < b) (hn : 0 < bits) (hp : 2 ^ (bits + b) ≤ p) {v : ZMod p}
    (hv : v.val < 2 ^ bits) : checkRun b v bits .smallAbs = true := by
  refine checkRun_smallAbs hb hn (le_trans (Nat.pow_le_pow_right (by norm_num) ?_) hp) hv
  exact (decompSize_mul_lt hb hn).le

/-- **C07, the exception.** Whenever the width does not divide the bit length the check also accepts the
field element `1/2`, which is not below `2^bits`: outside the small range the check proves nothing about size. -/
theorem C07_smallAbs_accepts_fraction {b bits : ℕ} (hb : 0 < b) (hn : 0 < bits) (hdvd : ¬ b ∣ bits)
    (hp : 2 ^ (bits + b + 1) ≤ p) :
    CheckSat b ((2 : ZMod p)⁻¹) bits .smallAbs ∧ ¬ ((2 : ZMod p)⁻¹).val < 2 ^ bits := by
  have hs := slack_add bits hb
  have hsl := slack_lt hb hn
  have h0 : slack b bits ≠ 0 := by
    intro h0; apply hdvd
    rw [h0, Nat.add_zero] at hs
    rw [hs]; exact Dvd.intro_left _ rfl
  have hp2 : 2 < p := by
    refine lt_of_lt_of_le ?_ hp
    calc 2 < 2 ^ 2 := by norm_num
      _ ≤ _ := Nat.pow_le_pow_right (by norm_num) (by omega)
  have h2 : (2 : ZMod p) ≠ 0 := by
    intro h
    have : ((2 : ℕ) : ZMod p) = ((0 : ℕ) : ZMod p) := by push_cast; exact h
    rw [natCast_inj hp2 (by omega)] at this
    omega
  constructor
  · rw [checkSat_smallAbs_iff hb hn]
    obtain ⟨s, hs'⟩ := Nat.exists_eq_succ_of_ne_zero h0
    rw [hs', Nat.succ_eq_add_one, pow_succ', ← mul_assoc, inv_mul_cancel₀ h2, one_mul]
    have : (2 : ZMod p) ^ s = ((2 ^ s : ℕ) : ZMod p) := by push_cast; rfl
    rw [this]
    refine lt_of_le_of_lt (val_natCast_le _) (Nat.pow_lt_pow_right (by norm_num) ?_)
    omega
  · intro hlt
    have h1 : (((2 : ZMod p)⁻¹.val * 2 : ℕ) : ZMod p) = ((1 : ℕ) : ZMod p) := by
      push_cast; rw [ZMod.natCast_val, ZMod.cast_id', id]; exact inv_mul_cancel₀ h2
    rw [natCast_inj (by
      refine lt_of_lt_of_le ?_ hp
      calc _ < 2 ^ bits * 2 := by omega
        _ = 2 ^ (bits + 1) := by ring
        _ ≤ _ := Nat.pow_le_pow_right (by norm_num) (by omega)) (by omega)] at h1
    omega

/-- The hypotheses are met for BN254, 23 bits, width 8. -/
example : CheckSat 8 ((2 : ZMod bn254)⁻¹) 23 .smallAbs :=
  (C07_smallAbs_accepts_fraction (by norm_num) (by norm_num) (by norm_num) (by norm_num [bn254])).1
example : ¬ CheckSat 8 (((-3 : ℤ)) : ZMod bn254) 23 .smallAbs := by
  rw [C07_smallAbs_exact_on_small (C := 23) (by norm_num) (by norm_num) (by norm_num) (by norm_num [bn254]) (by norm_num)]
  norm_num

end ZkLoc
