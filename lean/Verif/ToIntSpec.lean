import Verif.IntVal

/-!
# ToInt: circuit level and value level
-/

namespace ZkLoc

variable {p : ℕ} [Fact p.Prime] {b : ℕ} {f : Fmt} {H : Prop}

/-- Exponent used by `ToInt`. -/
def toIntExp (f : Fmt) (x : Flt) : ℤ := if x.exp = f.eMin then 0 else x.exp

/-- The field element computed by `ToInt` from the looked-up power `T`. -/
noncomputable def toIntVal (f : Fmt) (x : Flt) (T : ZMod p) : ZMod p :=
  let v := ((x.man : ℕ) : ZMod p) * T * (tw f.M)⁻¹
  if x.sign then -v else v

/-- `ToInt` reduces to its table lookup. -/
theorem fToInt_iff (G : Good p b f) {x : Flt} (hx : x.Bdd f) (st : Bool) (r : ZMod p) :
    (fToInt f (x.toVar : FloatVar p)).Sat b st r ↔
      ∃ T, (queryPowerOf2 f.pow2Size ((toIntExp f x : ℤ) : ZMod p)).Sat b st T ∧ r = toIntVal f x T := by
  have hMz := G.hMz
  have hmn := f.eMin_eq
  have hzE := G.zE
  have h2M : (tw f.M : ZMod p) ≠ 0 := pow_ne_zero _ (two_ne_zero G)
  have hpE : (2:ℤ) ^ (f.E + 1) ≤ p := by
    have := G.pow_le (k := f.E + 1) (by have := G.hEM; omega)
    exact_mod_cast this
  have heq : gIsEq ((x.exp : ℤ) : ZMod p) ((f.eMin : ℤ) : ZMod p) = B (decide (x.exp = f.eMin)) := by
    apply gIsEq_int
    have h1 := hx.lo
    have h2 := hx.hi
    rw [G.zE1] at hpE
    rw [abs_lt]; constructor <;> omega
  have e1 : (if decide (x.exp = f.eMin) = true then (0 : ZMod p) else ((x.exp : ℤ) : ZMod p)) = ((toIntExp f x : ℤ) : ZMod p) := by
    unfold toIntExp; by_cases h : x.exp = f.eMin <;> simp [h]
  unfold fToInt
  simp only [Circ.bind_eq, Flt.toVar, heq, Circ.sat_bind]
  constructor
  · rintro ⟨e, h1, T, h2, i, h3, h4⟩
    rw [(select_spec (H := True) _ _ _).sat trivial, e1] at h1
    rw [(inverse_spec (H := True) h2M).sat trivial] at h3
    rw [(select_spec (H := True) _ _ _).sat trivial] at h4
    subst h1; subst h3
    exact ⟨T, h2, h4⟩
  · rintro ⟨T, h2, h4⟩
    refine ⟨_, ((select_spec (H := True) _ _ _).sat trivial _ _).2 rfl, T, ?_, _, ((inverse_spec (H := True) h2M).sat trivial _ _).2 rfl, ?_⟩
    · rw [e1]; exact h2
    · rw [(select_spec (H := True) _ _ _).sat trivial]; exact h4

theorem fToInt_run (G : Good p b f) {x : Flt} (hx : x.Bdd f) {k : ℕ} (hk : toIntExp f x = k) (hk2 : k < f.pow2Size) :
    (fToInt f (x.toVar : FloatVar p)).run b = some (toIntVal f x (2 ^ k)) := by
  have hMz := G.hMz
  have hmn := f.eMin_eq
  have hEM := G.hEM
  have hM2 := G.hM2
  have hps : f.pow2Size = f.M + f.E + 1 := rfl
  have h2M : (tw f.M : ZMod p) ≠ 0 := pow_ne_zero _ (two_ne_zero G)
  have hpE : (2:ℤ) ^ (f.E + 1) ≤ p := by
    have := G.pow_le (k := f.E + 1) (by have := G.hEM; omega)
    exact_mod_cast this
  have heq : gIsEq ((x.exp : ℤ) : ZMod p) ((f.eMin : ℤ) : ZMod p) = B (decide (x.exp = f.eMin)) := by
    apply gIsEq_int
    have h1 := hx.lo
    have h2 := hx.hi
    rw [G.zE1] at hpE
    rw [abs_lt]; constructor <;> omega
  have e1 : (if decide (x.exp = f.eMin) = true then (0 : ZMod p) else ((x.exp : ℤ) : ZMod p)) = ((k : ℕ) : ZMod p) := by
    rw [← Int.cast_natCast (R := ZMod p) k, ← hk]
    unfold toIntExp; by_cases h : x.exp = f.eMin <;> simp [h]
  unfold fToInt
  simp only [Circ.bind_eq, Flt.toVar, heq]
  rw [Circ.run_bind, (select_spec (b := b) (H := True) _ _ _).run, e1, Option.bind_some, Circ.run_bind,
    run_queryPowerOf2 G.width (G.pow_le (by omega)) hk2 (by norm_num; omega), Option.bind_some, Circ.run_bind,
    (inverse_spec (b := b) (H := True) h2M).run, Option.bind_some, (select_spec (b := b) (H := True) _ _ _).run]
  rfl

/-- A negative argument of the power-of-two lookup is rejected when the width divides the table size. -/
theorem sat_queryPowerOf2_neg (hb : Width b) {size : ℕ} (hs : 5 ≤ size) (hp : 2 ^ (2 * size + 18) ≤ p) (hd : b ∣ size)
    {j : ℕ} (hj : 0 < j) (hj2 : j < 2 ^ size) (st : Bool) (r : ZMod p) :
    ¬ (queryPowerOf2 size (-((j : ℕ) : ZMod p))).Sat b st r := by
  rw [sat_queryPowerOf2 hb (by omega)]
  rintro ⟨h1, i, hi, h2⟩
  rw [decompSize_of_dvd hb.pos hd] at h1
  have h3 : r = (((i + j) * 2 ^ size + 2 ^ i : ℕ) : ZMod p) := by
    have : r = ((i * 2 ^ size + 2 ^ i : ℕ) : ZMod p) + (j : ZMod p) * 2 ^ size := by rw [← h2]; ring
    rw [this]; push_cast; ring
  have hS : size < 2 ^ size := Nat.lt_two_pow_self
  have hSS : 2 ^ (2 * size + 18) = 2 ^ size * 2 ^ size * 2 ^ 18 := by rw [pow_add, two_mul, pow_add]
  have h2i : 2 ^ i ≤ 2 ^ size := Nat.pow_le_pow_right (by norm_num) hi.le
  have hlt : (i + j) * 2 ^ size + 2 ^ i < p := by
    refine lt_of_lt_of_le ?_ hp
    rw [hSS]
    generalize 2 ^ size = S at *
    have a1 : (i + j) * S ≤ (2 * S) * S := Nat.mul_le_mul_right _ (by omega)
    have a2 : 1 * S ≤ S * S := Nat.mul_le_mul_right _ (by omega)
    have a3 : 2 * S * S = 2 * (S * S) := by ring
    have a4 : 0 < S * S := Nat.mul_pos (by omega) (by omega)
    omega
  rw [h3, ZMod.val_natCast_of_lt hlt] at h1
  have : 1 * 2 ^ size ≤ (i + j) * 2 ^ size := Nat.mul_le_mul_right _ (by omega)
  have : 0 < 2 ^ i := by positivity
  omega

/-- Value level: with the right power, `ToInt` returns the represented number. -/
theorem toIntVal_spec (G : Good p b f) {x : Flt} (hx : x.Valid f) {k : ℕ} (ha : x.abn = false)
    (hk : toIntExp f x = k) {n j : ℕ} (hn : x.mag f * 2 ^ j = n) :
    toIntVal f x ((2:ZMod p) ^ k) * 2 ^ j = if x.sign then -((n : ℕ) : ZMod p) else ((n : ℕ) : ZMod p) := by
  have h2 := two_ne_zero G
  have h2M : (tw f.M : ZMod p) ≠ 0 := pow_ne_zero _ h2
  have hMz := G.hMz
  have hmn := f.eMin_eq
  -- `man * 2^k * 2^j = n * 2^M` in the naturals
  have key : x.man * 2 ^ k * 2 ^ j = n * 2 ^ f.M := by
    have hr : ((x.man * 2 ^ k * 2 ^ j : ℕ) : ℝ) = ((n * 2 ^ f.M : ℕ) : ℝ) := by
      push_cast
      rw [← hn]
      unfold Flt.mag
      by_cases h0 : x.man = 0
      · simp [h0]
      · have hne : x.exp ≠ f.eMin := by
          intro he
          cases hx with
          | nan | zero => simp at h0
          | inf => simp at ha
          | fin s e m _ _ h3 _ _ => simp only at he; omega
        have he : x.exp = k := by unfold toIntExp at hk; rwa [if_neg hne] at hk
        rw [he, zpow_sub₀ (by norm_num), zpow_natCast, zpow_natCast]
        field_simp
    exact_mod_cast hr
  have key' : ((x.man : ℕ) : ZMod p) * 2 ^ k * 2 ^ j = ((n : ℕ) : ZMod p) * 2 ^ f.M := by
    have := congrArg (fun z : ℕ => (z : ZMod p)) key
    push_cast at this; exact this
  have hv : ((x.man : ℕ) : ZMod p) * 2 ^ k * (tw f.M)⁻¹ * 2 ^ j = ((n : ℕ) : ZMod p) := by
    rw [mul_right_comm, key', tw, mul_assoc, mul_inv_cancel₀ (pow_ne_zero _ h2), mul_one]
  unfold toIntVal
  cases x.sign
  · simpa using hv
  · simp only [if_true]; rw [neg_mul, hv]

end ZkLoc
