import Verif.Props.RangeCheck

/-!
# Properties C11, C12, C13: the integer gadgets of /repo/gadget/gadget.go

Integers are represented on wires by their residues. `B c` is the wire 0/1 of a boolean.
`Width b` is `1 ≤ b ≤ 17`.
-/

namespace ZkLoc

variable {p : ℕ} [Fact p.Prime] {b : ℕ}

/-- **C11.** The honest prover succeeds with `(|z|, z ≥ 0)`. -/
theorem C11_abs_complete (hb : Width b) {z : ℤ} {len : ℕ} (hlen : 0 < len) (hz : |z| < 2 ^ len)
    (hp : 2 ^ (len + 18) ≤ p) :
    (gAbs ((z : ℤ) : ZMod p) len).run b = some (((|z| : ℤ) : ZMod p), if 0 ≤ z then 1 else 0) := by
  have h := (gAbs_spec (H := True) hb hlen hz hp).run
  rw [h]; by_cases h0 : 0 ≤ z <;> simp [h0]

/-- **C11.** For a nonzero integer every prover obtains `(|z|, z > 0)`. -/
theorem C11_abs_sound (hb : Width b) {z : ℤ} {len : ℕ} (hlen : 0 < len) (hz : |z| < 2 ^ len)
    (hp : 2 ^ (len + 18) ≤ p) (h0 : z ≠ 0) (st : Bool) (r : ZMod p × ZMod p) :
    (gAbs ((z : ℤ) : ZMod p) len).Sat b st r ↔ r = (((|z| : ℤ) : ZMod p), if 0 < z then 1 else 0) := by
  rw [(gAbs_spec (H := True) hb hlen hz hp).sat trivial]
  constructor
  · rintro ⟨c, h1, h2, rfl⟩
    rcases lt_or_gt_of_ne h0 with h | h
    · have h' : ¬ 0 < z := by omega
      rw [h2 h]; simp [h']
    · rw [h1 h]; simp [h]
  · rintro rfl
    refine ⟨decide (0 < z), by intro h; simp [h], by intro h; simp; omega, ?_⟩
    by_cases h : 0 < z <;> simp [h]

/-- **C11, the exception.** At `0` the sign wire is the prover's choice, and nothing else is. -/
theorem C11_abs_zero (hb : Width b) {len : ℕ} (hlen : 0 < len) (hp : 2 ^ (len + 18) ≤ p) (st : Bool)
    (r : ZMod p × ZMod p) : (gAbs (0 : ZMod p) len).Sat b st r ↔ r = (0, 0) ∨ r = (0, 1) := by
  have h := (gAbs_spec (H := True) (z := 0) hb hlen (by simp) hp).sat trivial st r
  rw [Int.cast_zero] at h
  rw [h]
  constructor
  · rintro ⟨c, _, _, rfl⟩; cases c <;> simp
  · rintro (rfl | rfl)
    · exact ⟨false, by simp, by simp, by simp⟩
    · exact ⟨true, by simp, by simp, by simp⟩

/-- **C11.** An integer that does not fit the checked length is rejected for every prover
(`2^(L*b) ≤ |z|`, where `L` limbs are checked). -/
theorem C11_abs_rejects (hb : Width b) {z : ℤ} {len L : ℕ} (hlen : 0 < len) (hL : IsLimbCount b len L)
    (hz : (2:ℤ) ^ (L * b) ≤ |z|) (hp : |z| + 2 ^ (L * b) ≤ p) (st : Bool) (r : ZMod p × ZMod p) :
    ¬ (gAbs ((z : ℤ) : ZMod p) len).Sat b st r := by
  have key : ∀ w : ℤ, |w| = |z| → ¬ CheckSat b ((w : ℤ) : ZMod p) len .loose := by
    intro w hw h
    rw [C05_loose_accepts_iff hb.pos hlen hL] at h
    have hpos : (0:ℤ) < 2 ^ (L * b) := by positivity
    have h' : (((w : ZMod p)).val : ℤ) < 2 ^ (L * b) := by exact_mod_cast h
    rcases lt_or_ge w 0 with hn | hn
    · rw [abs_of_neg hn] at hw
      rw [val_intCast_neg hn (by omega)] at h'
      omega
    · rw [abs_of_nonneg hn] at hw
      rw [val_intCast_nonneg hn (by omega)] at h'
      omega
  simp only [gAbs, newHint, Circ.bind_eq, Circ.bind, assertIsBoolean, select, softBool,
    assertBitLength, Circ.Sat, Circ.pure_eq]
  rintro ⟨c, _, h1, _, h3, _⟩
  obtain ⟨c, rfl⟩ := (isBool_iff c).1 h1
  rw [sel_B] at h3
  cases c
  · exact key (-z) (abs_neg z) (by push_cast; simpa using h3)
  · exact key z rfl (by simpa using h3)

/-- **C11** for `IsPositive`. -/
theorem C11_isPositive_complete (hb : Width b) {z : ℤ} {len : ℕ} (hlen : 0 < len) (hz : |z| < 2 ^ len)
    (hp : 2 ^ (len + 18) ≤ p) :
    (gIsPositive ((z : ℤ) : ZMod p) len).run b = some (if 0 ≤ z then 1 else 0) := by
  have h := (gIsPositive_spec (H := True) hb hlen hz hp).run
  rw [h]; by_cases h0 : 0 ≤ z <;> simp [h0]

/-- **C11** for `IsPositive`: sound except at 0. -/
theorem C11_isPositive_sound (hb : Width b) {z : ℤ} {len : ℕ} (hlen : 0 < len) (hz : |z| < 2 ^ len)
    (hp : 2 ^ (len + 18) ≤ p) (st : Bool) (r : ZMod p) :
    (gIsPositive ((z : ℤ) : ZMod p) len).Sat b st r ↔
      (r = 1 ∧ 0 ≤ z) ∨ (r = 0 ∧ z ≤ 0) := by
  rw [(gIsPositive_spec (H := True) hb hlen hz hp).sat trivial]
  constructor
  · rintro ⟨c, h1, h2, rfl⟩
    cases c
    · right; exact ⟨rfl, by by_contra h; simpa using h1 (by omega)⟩
    · left; exact ⟨rfl, by by_contra h; simpa using h2 (by omega)⟩
  · rintro (⟨rfl, h⟩ | ⟨rfl, h⟩)
    · exact ⟨true, by simp, by omega, by simp⟩
    · exact ⟨false, by omega, by simp, by simp⟩

example : (gAbs (((-5 : ℤ)) : ZMod bn254) 9).run 8 = some (5, 0) := by
  rw [C11_abs_complete (b := 8) ⟨by norm_num, by norm_num⟩ (by norm_num) (by norm_num) (by norm_num [bn254])]
  norm_num
/-- Both answers at zero really occur. -/
example : (gAbs (0 : ZMod bn254) 9).Sat 8 true (0, 0) ∧ (gAbs (0 : ZMod bn254) 9).Sat 8 true (0, 1) := by
  constructor <;> rw [C11_abs_zero ⟨by norm_num, by norm_num⟩ (by norm_num) (by norm_num [bn254])] <;> simp
example (st : Bool) (r : ZMod bn254 × ZMod bn254) : ¬ (gAbs (((-70000 : ℤ)) : ZMod bn254) 9).Sat 8 st r :=
  C11_abs_rejects (b := 8) ⟨by norm_num, by norm_num⟩ (by norm_num)
    (isLimbCount_decompSize (b := 8) (bits := 9) (by norm_num) (by norm_num)) (by norm_num [decompSize])
    (by norm_num [decompSize, bn254]) st r

/-- **C12.** `Max`: the honest prover succeeds and every prover gets the maximum. -/
theorem C12_max (hb : Width b) {x y : ℤ} {len : ℕ} (hlen : 0 < len) (hz : |x - y| < 2 ^ len)
    (hp : 2 ^ (len + 18) ≤ p) :
    (gMax ((x : ℤ) : ZMod p) ((y : ℤ) : ZMod p) len).run b = some ((max x y : ℤ) : ZMod p) ∧
    ∀ st r, (gMax ((x : ℤ) : ZMod p) ((y : ℤ) : ZMod p) len).Sat b st r ↔ r = ((max x y : ℤ) : ZMod p) :=
  ⟨(gMax_spec (H := True) hb hlen hz hp).run, (gMax_spec (H := True) hb hlen hz hp).sat trivial⟩

/-- **C12.** `Min`: the honest prover succeeds and every prover gets the minimum. -/
theorem C12_min (hb : Width b) {x y : ℤ} {len : ℕ} (hlen : 0 < len) (hz : |x - y| < 2 ^ len)
    (hp : 2 ^ (len + 18) ≤ p) :
    (gMin ((x : ℤ) : ZMod p) ((y : ℤ) : ZMod p) len).run b = some ((min x y : ℤ) : ZMod p) ∧
    ∀ st r, (gMin ((x : ℤ) : ZMod p) ((y : ℤ) : ZMod p) len).Sat b st r ↔ r = ((min x y : ℤ) : ZMod p) :=
  ⟨(gMin_spec (H := True) hb hlen hz hp).run, (gMin_spec (H := True) hb hlen hz hp).sat trivial⟩

example (st : Bool) (r : ZMod bn254) :
    (gMax (((-7 : ℤ)) : ZMod bn254) ((3 : ℤ) : ZMod bn254) 8).Sat 5 st r ↔ r = ((3 : ℤ) : ZMod bn254) :=
  (C12_max (b := 5) ⟨by norm_num, by norm_num⟩ (by norm_num) (by norm_num) (by norm_num [bn254])).2 st r

/-- **C13, completeness.** For an exponent inside the table the honest prover obtains `2^k`, for every
table width. -/
theorem C13_pow2_complete (hb : Width b) {size : ℕ} (hp : 2 ^ (size + 17) ≤ p) {k : ℕ} (hk : k < size)
    (hs : size ≤ 2 ^ 20) : (queryPowerOf2 size ((k : ℕ) : ZMod p)).run b = some (2 ^ k) :=
  run_queryPowerOf2 hb hp hk hs

/-- **C13, soundness (partial).** If the table width divides the lookup size every prover obtains `2^k`.
Missing for the full claim: other table widths, for which it is false (next theorems). -/
theorem C13_pow2_sound_of_dvd (hb : Width b) {size : ℕ} (hs : 5 ≤ size) (hs2 : size ≤ 2 ^ 20)
    (hp : 2 ^ (2 * size + 18) ≤ p) (hdvd : b ∣ size) {k : ℕ} (hk : k < size) (st : Bool) (r : ZMod p) :
    (queryPowerOf2 size ((k : ℕ) : ZMod p)).Sat b st r ↔ r = 2 ^ k :=
  (queryPowerOf2_spec (H := True) hb hs hs2 hp (fun _ => hdvd) hk).sat trivial st r

/-- **C13.** Exact set of accepted answers, every table width: `2^(k+t) + t*2^size` for every `t` below
`2^(L*b - size)` with `k + t < size`. -/
theorem C13_pow2_accepted_set (hb : Width b) {size L : ℕ} (hs : 5 ≤ size) (hp : 2 ^ (2 * size + 18) ≤ p)
    (hL : IsLimbCount b size L) {k : ℕ} (hk : k < 2 ^ size) (st : Bool) (r : ZMod p) :
    (queryPowerOf2 size ((k : ℕ) : ZMod p)).Sat b st r ↔
      ∃ t, t < 2 ^ (L * b - size) ∧ k + t < size ∧ r = ((2 ^ (k + t) + t * 2 ^ size : ℕ) : ZMod p) := by
  rw [hL.eq hb.pos (by omega)]; exact sat_queryPowerOf2_nat hb hs hp hk st r

/-- **C13.** Exponents outside the table are rejected for every prover and every width. -/
theorem C13_pow2_rejects (hb : Width b) {size : ℕ} (hs : 5 ≤ size) (hp : 2 ^ (2 * size + 18) ≤ p)
    {k : ℕ} (hk : k < 2 ^ size) (hk2 : size ≤ k) (st : Bool) (r : ZMod p) :
    ¬ (queryPowerOf2 size ((k : ℕ) : ZMod p)).Sat b st r := sat_queryPowerOf2_out hb hs hp hk hk2 st r

/-- **C13, the full claim is false:** if the width does not divide the size, a wrong answer is accepted
for every exponent below `size - 1`. -/
theorem C13_pow2_unsound (hb : Width b) {size : ℕ} (hs : 5 ≤ size) (hp : 2 ^ (2 * size + 18) ≤ p)
    (hdvd : ¬ b ∣ size) {k : ℕ} (hk : k + 1 < size) :
    ∃ r : ZMod p, r ≠ 2 ^ k ∧ ∀ st, (queryPowerOf2 size ((k : ℕ) : ZMod p)).Sat b st r := by
  have hsl := slack_add size hb.pos
  have h0 : slack b size ≠ 0 := by
    intro h0; apply hdvd
    rw [h0, Nat.add_zero] at hsl
    rw [hsl]; exact Dvd.intro_left _ rfl
  have hlt : 2 ^ (k + 1) < 2 ^ size := Nat.pow_lt_pow_right (by norm_num) hk
  have hk' : 2 ^ k < 2 ^ (k + 1) := Nat.pow_lt_pow_right (by norm_num) (by omega)
  have hpp : 2 ^ size + 2 ^ size ≤ p := by
    refine le_trans ?_ hp
    rw [← two_mul, ← pow_succ']; exact Nat.pow_le_pow_right (by norm_num) (by omega)
  refine ⟨((2 ^ (k + 1) + 1 * 2 ^ size : ℕ) : ZMod p), ?_, fun st => ?_⟩
  · have : (2 : ZMod p) ^ k = ((2 ^ k : ℕ) : ZMod p) := by push_cast; rfl
    rw [this]
    intro h
    rw [natCast_inj (by omega) (by omega)] at h
    omega
  · rw [sat_queryPowerOf2_nat hb hs hp (lt_trans (by omega) Nat.lt_two_pow_self)]
    refine ⟨1, ?_, hk, rfl⟩
    exact Nat.one_lt_two_pow h0

/-- BN254, f32 table (32 entries): width 8 divides 32, width 12 does not. -/
example (st : Bool) (r : ZMod bn254) : (queryPowerOf2 32 ((5 : ℕ) : ZMod bn254)).Sat 8 st r ↔ r = 2 ^ 5 :=
  C13_pow2_sound_of_dvd (b := 8) ⟨by norm_num, by norm_num⟩ (by norm_num) (by norm_num) (by norm_num [bn254]) (by norm_num) (by norm_num) st r
example : ∃ r : ZMod bn254, r ≠ 2 ^ 5 ∧ ∀ st, (queryPowerOf2 32 ((5 : ℕ) : ZMod bn254)).Sat 12 st r :=
  C13_pow2_unsound (b := 12) ⟨by norm_num, by norm_num⟩ (by norm_num) (by norm_num [bn254]) (by norm_num) (by norm_num)

end ZkLoc
