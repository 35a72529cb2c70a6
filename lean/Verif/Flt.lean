import Verif.GadgetSpec

/-!
# Helper layer: integer-level floats and parameter conditions
-/

namespace ZkLoc

/-- Conditions on the field, the table width and the format under which the gadgets are analysed.
Satisfied by binary32 and binary64 over the BN254 and BLS12-381 scalar fields for every table width the
automatic choice can return. -/
structure Good (p b : ℕ) (f : Fmt) : Prop where
  width : Width b
  hE : 4 ≤ f.E
  hEM : f.E ≤ f.M
  hM : 2 * f.M + 4 ≤ 2 ^ (f.E - 1)
  hM2 : f.M ≤ 1000
  hME : 26 ≤ f.M + f.E
  hp : 2 ^ (4 * f.M + 42) ≤ p

namespace Good
variable {p b : ℕ} {f : Fmt}

theorem pow_le (G : Good p b f) {k : ℕ} (hk : k ≤ 4 * f.M + 42) : 2 ^ k ≤ p :=
  le_trans (Nat.pow_le_pow_right (by norm_num) hk) G.hp

theorem pow_lt (G : Good p b f) {k : ℕ} (hk : k ≤ 4 * f.M + 41) : 2 ^ k < p :=
  lt_of_lt_of_le (Nat.pow_lt_pow_right (by norm_num) (by omega)) G.hp

theorem lt_of_lt_pow (G : Good p b f) {n k : ℕ} (h : n < 2 ^ k) (hk : k ≤ 4 * f.M + 42) : n < p :=
  lt_of_lt_of_le h (G.pow_le hk)

theorem bpos (G : Good p b f) : 0 < b := G.width.pos

theorem hE2 (G : Good p b f) : 2 ^ f.E = 2 * 2 ^ (f.E - 1) := by
  have := G.hE
  rw [← pow_succ']; congr 1; omega

end Good

/-- An integer-level float: the value of the four wires of a `FloatVar`. -/
@[ext] structure Flt where
  sign : Bool
  exp : ℤ
  man : ℕ
  abn : Bool
deriving DecidableEq, Repr

namespace Flt

/-- The wires of an integer-level float. -/
def toVar {p : ℕ} (x : Flt) : FloatVar p :=
  ⟨B x.sign, ((x.exp : ℤ) : ZMod p), ((x.man : ℕ) : ZMod p), B x.abn⟩

/-- The four kinds of well-formed floats (the invariant documented at /repo/float/float.go:28-48). -/
inductive Valid (f : Fmt) : Flt → Prop
  | nan (s : Bool) : Valid f ⟨s, f.eMax, 0, true⟩
  | inf (s : Bool) : Valid f ⟨s, f.eMax, 2 ^ f.M, true⟩
  | zero (s : Bool) : Valid f ⟨s, f.eMin, 0, false⟩
  | fin (s : Bool) (e : ℤ) (m : ℕ) (h1 : 2 ^ f.M ≤ m) (h2 : m < 2 ^ (f.M + 1))
      (h3 : f.eMin + 1 ≤ e) (h4 : e ≤ f.eMax - 1)
      (h5 : e < f.eNormalMin → 2 ^ (f.eNormalMin - e).toNat ∣ m) : Valid f ⟨s, e, m, false⟩

variable {f : Fmt} {x : Flt}

theorem Valid.man_lt (h : Valid f x) : x.man < 2 ^ (f.M + 1) := by
  cases h with
  | nan | zero => exact Nat.pos_of_ne_zero (by positivity)
  | inf => exact Nat.pow_lt_pow_right (by norm_num) (by omega)
  | fin => assumption

end Flt

/-! ### Facts about the exponent range, in a form suitable for `omega` -/

namespace Fmt
variable (f : Fmt)

theorem eNormalMin_eq : f.eNormalMin = 2 - f.eMax := rfl
theorem eMin_eq : f.eMin = 1 - f.eMax - f.M := by unfold eMin eNormalMin; ring
theorem eMax_eq : f.eMax = 2 ^ (f.E - 1) := rfl
theorem eMax_pos : 0 < f.eMax := by unfold eMax; positivity

end Fmt

namespace Good
variable {p b : ℕ} {f : Fmt}

theorem hMz (G : Good p b f) : 2 * (f.M : ℤ) + 4 ≤ f.eMax := by
  have := G.hM
  unfold Fmt.eMax; exact_mod_cast this

theorem zE (G : Good p b f) : (2 : ℤ) ^ f.E = 2 * f.eMax := by
  have := G.hE2
  unfold Fmt.eMax; exact_mod_cast this

theorem zE1 (G : Good p b f) : (2 : ℤ) ^ (f.E + 1) = 4 * f.eMax := by
  rw [pow_succ, G.zE]; ring

end Good

namespace Flt
variable {p b : ℕ} {f : Fmt} {x : Flt}

theorem Valid.exp_ge (G : Good p b f) (h : Valid f x) : f.eMin ≤ x.exp := by
  have h1 := G.hMz
  have h2 := f.eMin_eq
  cases h <;> dsimp only <;> omega

theorem Valid.exp_le (G : Good p b f) (h : Valid f x) : x.exp ≤ f.eMax := by
  have h1 := G.hMz
  have h2 := f.eMin_eq
  cases h <;> dsimp only <;> omega

/-- Magnitude part: zero, or with leading bit set. -/
theorem Valid.man_cases (h : Valid f x) : x.man = 0 ∨ 2 ^ f.M ≤ x.man := by
  cases h <;> simp_all

end Flt

end ZkLoc
