import Verif.CmpVal

/-!
# Equality assertions on floats: circuit level
-/

namespace ZkLoc

variable {p : ℕ} {b : ℕ} {f : Fmt} {H : Prop}

/-- Specification of an assertion: the honest prover succeeds iff `P`; if `H` holds, some prover
succeeds iff `P`. -/
structure Dec (b : ℕ) (H : Prop) (c : Circ p Unit) (P : Prop) : Prop where
  run : c.run b = some () ↔ P
  sat : H → ∀ st, c.Sat b st () ↔ P

namespace Dec

theorem congr {c : Circ p Unit} {P Q : Prop} (h : Dec b H c P) (hPQ : P ↔ Q) : Dec b H c Q :=
  ⟨h.run.trans hPQ, fun hH st => (h.sat hH st).trans hPQ⟩

theorem assertEq {x y : ZMod p} {P : Prop} (h : x = y ↔ P) : Dec b H (assertIsEqual x y) P := by
  refine ⟨?_, fun _ st => ?_⟩
  · simp [assertIsEqual, Circ.run, h]
  · simp [assertIsEqual, Circ.Sat, h]

theorem seq {c : Circ p Unit} {d : Unit → Circ p Unit} {P Q : Prop} (h1 : Dec b H c P) (h2 : Dec b H (d ()) Q) :
    Dec b H (Circ.bind c d) (P ∧ Q) := by
  refine ⟨?_, fun hH st => ?_⟩
  · rw [Circ.run_bind, ← h1.run, ← h2.run]
    cases hc : c.run b with
    | none => simp
    | some u => cases u; simp
  · rw [Circ.sat_bind, ← h1.sat hH st, ← h2.sat hH st]
    constructor
    · rintro ⟨⟨⟩, h1, h2⟩; exact ⟨h1, h2⟩
    · rintro ⟨h1, h2⟩; exact ⟨(), h1, h2⟩

theorem det_bind {α : Type} {c : Circ p α} {v : α} {d : α → Circ p Unit} {P : Prop} (h1 : Det b H c v) (h2 : Dec b H (d v) P) :
    Dec b H (Circ.bind c d) P := by
  refine ⟨?_, fun hH st => ?_⟩
  · rw [Circ.run_bind, h1.run]; exact h2.run
  · rw [Circ.sat_bind, ← h2.sat hH st]
    constructor
    · rintro ⟨a, h3, h4⟩
      rw [(h1.sat hH st a).1 h3] at h4; exact h4
    · intro h; exact ⟨v, (h1.sat hH st v).2 rfl, h⟩

end Dec

variable [Fact p.Prime]

theorem assertSameSign_dec (G : Good p b f) {x y : Flt} (hx : x.man < 2 ^ (f.M + 1)) (hy : y.man < 2 ^ (f.M + 1)) :
    Dec b H (assertSameSign (x.toVar : FloatVar p) y.toVar) (x.isNaN = true ∨ y.isNaN = true ∨ x.sign = y.sign) := by
  unfold assertSameSign
  simp only [Circ.bind_eq]
  refine Dec.det_bind (eitherNaN_spec G hx hy) ?_
  refine Dec.det_bind (select_spec _ _ _) ?_
  refine Dec.det_bind (select_spec _ _ _) ?_
  refine Dec.assertEq ?_
  cases hxn : x.isNaN <;> cases hyn : y.isNaN <;> simp [Flt.toVar]
  exact B_inj

theorem exp_eq_iff (G : Good p b f) {x y : Flt} (hx : x.Bdd f) (hy : y.Bdd f) (k : ℤ) (hk : |k| ≤ 1) :
    ((x.exp : ℤ) : ZMod p) = ((y.exp + k : ℤ) : ZMod p) ↔ x.exp = y.exp + k := by
  have hEM := G.hEM
  have hM := G.hMz
  have hmn := f.eMin_eq
  obtain ⟨hx1, hx2, hx3⟩ := hx
  obtain ⟨hy1, hy2, hy3⟩ := hy
  have hE1 := G.zE1
  have hpz : (2:ℤ) ^ (f.E + 1) ≤ 2 ^ (f.M + 1) := pow_le_pow_right₀ (by norm_num) (by omega)
  have hpz2 : (2:ℤ) ^ (f.M + 1) < p := by exact_mod_cast G.pow_lt (k := f.M + 1) (by omega)
  refine intCast_inj ?_
  rw [abs_le] at hk
  rw [abs_lt]; constructor <;> omega

theorem exp_diff_zero (G : Good p b f) {x y : Flt} (hx : x.Bdd f) (hy : y.Bdd f) :
    ((x.exp : ℤ) : ZMod p) - ((y.exp : ℤ) : ZMod p) = 0 ↔ x.exp = y.exp := by
  rw [sub_eq_zero]
  have := exp_eq_iff G hx hy 0 (by simp)
  simpa using this

/-- Records equal apart from the sign. -/
def Flt.SameBody (x y : Flt) : Prop := x.exp = y.exp ∧ x.man = y.man ∧ x.abn = y.abn

instance (x y : Flt) : Decidable (x.SameBody y) := inferInstanceAs (Decidable (_ ∧ _))

theorem fAssertIsEqual_dec (G : Good p b f) {x y : Flt} (hx : x.Bdd f) (hy : y.Bdd f) :
    Dec b H (fAssertIsEqual (x.toVar : FloatVar p) y.toVar)
      ((x.isNaN = true ∨ y.isNaN = true ∨ x.sign = y.sign) ∧ x.SameBody y) := by
  have hxp := G.lt_of_lt_pow hx.1 (by omega)
  have hyp := G.lt_of_lt_pow hy.1 (by omega)
  unfold fAssertIsEqual
  simp only [Circ.bind_eq]
  refine Dec.seq (assertSameSign_dec G hx.1 hy.1) ?_
  refine Dec.seq (Dec.assertEq (exp_diff_zero G hx hy)) ?_
  refine Dec.seq (Dec.assertEq (natCast_inj hxp hyp)) ?_
  exact Dec.assertEq B_inj

theorem sameData_spec (G : Good p b f) {x y : Flt} (hx : x.Bdd f) (hy : y.Bdd f) :
    Det b H (sameData (x.toVar : FloatVar p) y.toVar) (B (decide (x.SameBody y))) := by
  have hxp := G.lt_of_lt_pow hx.1 (by omega)
  have hyp := G.lt_of_lt_pow hy.1 (by omega)
  unfold sameData
  simp only [Circ.bind_eq, Flt.toVar]
  have e1 : gIsEq (((x.exp : ℤ) : ZMod p) - ((y.exp : ℤ) : ZMod p)) 0 = B (decide (x.exp = y.exp)) := by
    rw [gIsEq_eq]; congr 1; exact decide_eq_decide.2 (exp_diff_zero G hx hy)
  rw [e1, gIsEq_nat hxp hyp, gIsEq_B]
  refine Spec.det_bind (and_spec _ _) ?_
  refine (and_spec _ _).congr ?_ ?_
  all_goals
    have : (decide (x.exp = y.exp) && (decide (x.man = y.man) && x.abn == y.abn)) = decide (x.SameBody y) := by
      rw [Bool.eq_iff_iff, decide_eq_true_iff]
      simp [Flt.SameBody]
    rw [this]
  intro r; rfl

/-- The neighbour conditions of `AssertIsEqualOrULP`. -/
def ulpStep (f : Fmt) (x y : Flt) : Prop :=
  (x.exp = y.exp ∧ (x.man = y.man + 1 ∨ y.man = x.man + 1)) ∨
  (x.exp = y.exp + 1 ∧ x.man = 2 ^ f.M ∧ y.man = 2 ^ (f.M + 1) - 1) ∨
  (y.exp = x.exp + 1 ∧ y.man = 2 ^ f.M ∧ x.man = 2 ^ (f.M + 1) - 1)

instance (x y : Flt) : Decidable (ulpStep f x y) := inferInstanceAs (Decidable (_ ∨ _))

theorem B_eq_one {c : Bool} : (B c : ZMod p) = 1 ↔ c = true := by
  have := B_inj (p := p) (a := c) (c := true)
  simpa [B] using this

theorem fAssertIsEqualOrULP_dec (G : Good p b f) {x y : Flt} (hx : x.Bdd f) (hy : y.Bdd f) :
    Dec b H (fAssertIsEqualOrULP f (x.toVar : FloatVar p) y.toVar)
      ((x.isNaN = true ∨ y.isNaN = true ∨ x.sign = y.sign) ∧ (ulpStep f x y ∨ x.SameBody y)) := by
  have hxp := G.lt_of_lt_pow hx.1 (by omega)
  have hyp := G.lt_of_lt_pow hy.1 (by omega)
  have h1p : ∀ z : Flt, z.Bdd f → z.man + 1 < p := fun z hz => by
    have h := hz.1
    have : z.man + 1 < 2 ^ (f.M + 2) := by
      have e : 2 ^ (f.M + 2) = 2 * 2 ^ (f.M + 1) := by rw [← pow_succ']
      have : 1 < 2 ^ (f.M + 1) := Nat.one_lt_two_pow (by omega)
      omega
    exact G.lt_of_lt_pow this (by omega)
  have hM1 : 1 ≤ 2 ^ (f.M + 1) := Nat.one_le_two_pow
  have hM2 : 2 ^ f.M < p := G.pow_lt (by omega)
  have hM3 : 2 ^ (f.M + 1) - 1 < p := lt_of_le_of_lt (Nat.sub_le _ _) (G.pow_lt (by omega))
  unfold fAssertIsEqualOrULP
  simp only [Circ.bind_eq]
  refine Dec.seq (assertSameSign_dec G hx.1 hy.1) ?_
  have m1 : ∀ {u v : Flt}, u.Bdd f → v.Bdd f → gIsEq (u.toVar : FloatVar p).mantissa ((v.toVar : FloatVar p).mantissa + 1) =
      B (decide (u.man = v.man + 1)) := by
    intro u v hu hv
    have : (v.toVar : FloatVar p).mantissa + 1 = ((v.man + 1 : ℕ) : ZMod p) := by simp [Flt.toVar]
    rw [this]; exact gIsEq_nat (G.lt_of_lt_pow hu.1 (by omega)) (h1p v hv)
  have m2 : ∀ {u : Flt}, u.Bdd f → gIsEq (u.toVar : FloatVar p).mantissa (tw f.M) = B (decide (u.man = 2 ^ f.M)) := by
    intro u hu
    have : (tw f.M : ZMod p) = ((2 ^ f.M : ℕ) : ZMod p) := by simp [tw]
    rw [this]; exact gIsEq_nat (G.lt_of_lt_pow hu.1 (by omega)) hM2
  have m3 : ∀ {u : Flt}, u.Bdd f → gIsEq (u.toVar : FloatVar p).mantissa (tw (f.M + 1) - 1) = B (decide (u.man = 2 ^ (f.M + 1) - 1)) := by
    intro u hu
    have : (tw (f.M + 1) - 1 : ZMod p) = ((2 ^ (f.M + 1) - 1 : ℕ) : ZMod p) := by
      rw [Nat.cast_sub hM1]; simp [tw]
    rw [this]; exact gIsEq_nat (G.lt_of_lt_pow hu.1 (by omega)) hM3
  have e1 : ∀ {u v : Flt}, u.Bdd f → v.Bdd f → gIsEq (u.toVar : FloatVar p).exponent ((v.toVar : FloatVar p).exponent + 1) =
      B (decide (u.exp = v.exp + 1)) := by
    intro u v hu hv
    rw [gIsEq_eq]; congr 1
    have := exp_eq_iff G hu hv 1 (by simp)
    rw [decide_eq_decide]
    rw [← this]; simp [Flt.toVar]
  have e0 : gIsEq (x.toVar : FloatVar p).exponent (y.toVar : FloatVar p).exponent = B (decide (x.exp = y.exp)) := by
    rw [gIsEq_eq]; congr 1
    have := exp_eq_iff G hx hy 0 (by simp)
    rw [decide_eq_decide]; simpa [Flt.toVar] using this
  rw [m1 hx hy, m1 hy hx, m2 hx, m2 hy, m3 hx, m3 hy, e1 hx hy, e1 hy hx, e0]
  refine Dec.det_bind (or_spec _ _) ?_
  refine Dec.det_bind (and_spec _ _) ?_
  refine Dec.det_bind (and_spec _ _) ?_
  refine Dec.det_bind (and_spec _ _) ?_
  refine Dec.det_bind (and_spec _ _) ?_
  refine Dec.det_bind (and_spec _ _) ?_
  refine Dec.det_bind (or_spec _ _) ?_
  refine Dec.det_bind (or_spec _ _) ?_
  refine Dec.det_bind (sameData_spec G hx hy) ?_
  rw [gIsEq_eq]
  refine Dec.det_bind (or_spec _ _) ?_
  refine Dec.assertEq ?_
  rw [B_eq_one, Bool.or_eq_true, decide_eq_true_iff, decide_eq_true_iff, B_eq_one]
  unfold ulpStep
  simp only [Bool.or_eq_true, Bool.and_eq_true, decide_eq_true_iff]

end ZkLoc
