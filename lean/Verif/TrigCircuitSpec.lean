import Verif.TrigShape
import Verif.CircuitSpec
import Verif.AtanSpec
import Verif.SinSpec
import Verif.WrapSpec

/-!
# Helper lemmas for the circuits of /repo/math/math_test.go
-/

namespace ZkLoc

open Ieee (Datum)

variable {p b : ℕ} [Fact p.Prime] {f : Fmt}

theorem sat_assertIsEqual {a c : ZMod p} {st : Bool} : (assertIsEqual a c).Sat b st () ↔ a = c := by
  simp [assertIsEqual, Circ.Sat]

theorem run_assertIsEqual {a c : ZMod p} : (assertIsEqual a c).run b = some () ↔ a = c := by
  simp [assertIsEqual, Circ.run]

theorem func_sat (G : Good p b f) (h64 : 1 + f.E + f.M ≤ 64) {op : FloatVar p → Circ p (FloatVar p)} {X Z : ZMod p} {st : Bool} :
    (funcCircuit f op X Z).Sat b st () ↔ IsPattern f X ∧ IsPattern f Z ∧
      ∃ r, (op (wiresOf f X)).Sat b st r ∧ r.exponent = (wiresOf f Z).exponent ∧ r.mantissa = (wiresOf f Z).mantissa := by
  unfold funcCircuit
  simp only [Circ.bind_eq, Circ.sat_bind, newFloat_sat_iff G h64]
  constructor
  · rintro ⟨_, ⟨h1, rfl⟩, _, ⟨h2, rfl⟩, r, h3, ⟨⟩, h4, h5⟩
    exact ⟨h1, h2, r, h3, sat_assertIsEqual.1 h4, sat_assertIsEqual.1 h5⟩
  · rintro ⟨h1, h2, r, h3, h4, h5⟩
    exact ⟨_, ⟨h1, rfl⟩, _, ⟨h2, rfl⟩, r, h3, (), sat_assertIsEqual.2 h4, sat_assertIsEqual.2 h5⟩

theorem func_run (G : Good p b f) (h64 : 1 + f.E + f.M ≤ 64) {op : FloatVar p → Circ p (FloatVar p)} {X Z : ZMod p} :
    (funcCircuit f op X Z).run b = some () ↔ IsPattern f X ∧ IsPattern f Z ∧
      ∃ r, (op (wiresOf f X)).run b = some r ∧ r.exponent = (wiresOf f Z).exponent ∧ r.mantissa = (wiresOf f Z).mantissa := by
  unfold funcCircuit
  simp only [Circ.bind_eq, Circ.run_bind, Option.bind_eq_some_iff, newFloat_run_iff G h64]
  constructor
  · rintro ⟨_, ⟨h1, rfl⟩, _, ⟨h2, rfl⟩, r, h3, ⟨⟩, h4, h5⟩
    exact ⟨h1, h2, r, h3, run_assertIsEqual.1 h4, run_assertIsEqual.1 h5⟩
  · rintro ⟨h1, h2, r, h3, h4, h5⟩
    exact ⟨_, ⟨h1, rfl⟩, _, ⟨h2, rfl⟩, r, h3, (), run_assertIsEqual.2 h4, run_assertIsEqual.2 h5⟩

theorem sat_assertLeVar {a c : ZMod p} {st : Bool} : (assertLeVar a c).Sat b st () ↔ a.val ≤ c.val := by
  simp [assertLeVar, Circ.Sat]

theorem run_assertLeVar {a c : ZMod p} : (assertLeVar a c).run b = some () ↔ a.val ≤ c.val := by
  simp [assertLeVar, Circ.run]

theorem ulp_sat (G : Good p b f) (h64 : 1 + f.E + f.M ≤ 64) {op : FloatVar p → Circ p (FloatVar p)} {X Z L U : ZMod p} {st : Bool} :
    (ulpCircuit f op X Z L U).Sat b st () ↔ IsPattern f X ∧ IsPattern f Z ∧ IsPattern f L ∧ IsPattern f U ∧
      ∃ r, (op (wiresOf f X)).Sat b st r ∧ r.exponent = (wiresOf f Z).exponent ∧
        (wiresOf f L).mantissa.val ≤ r.mantissa.val ∧ r.mantissa.val ≤ (wiresOf f U).mantissa.val := by
  unfold ulpCircuit
  simp only [Circ.bind_eq, Circ.sat_bind, newFloat_sat_iff G h64]
  constructor
  · rintro ⟨_, ⟨h1, rfl⟩, _, ⟨h2, rfl⟩, _, ⟨h3, rfl⟩, _, ⟨h4, rfl⟩, r, h5, ⟨⟩, h6, ⟨⟩, h7, h8⟩
    exact ⟨h1, h2, h3, h4, r, h5, sat_assertIsEqual.1 h6, sat_assertLeVar.1 h7, sat_assertLeVar.1 h8⟩
  · rintro ⟨h1, h2, h3, h4, r, h5, h6, h7, h8⟩
    exact ⟨_, ⟨h1, rfl⟩, _, ⟨h2, rfl⟩, _, ⟨h3, rfl⟩, _, ⟨h4, rfl⟩, r, h5, (), sat_assertIsEqual.2 h6, (), sat_assertLeVar.2 h7, sat_assertLeVar.2 h8⟩

theorem ulp_run (G : Good p b f) (h64 : 1 + f.E + f.M ≤ 64) {op : FloatVar p → Circ p (FloatVar p)} {X Z L U : ZMod p} :
    (ulpCircuit f op X Z L U).run b = some () ↔ IsPattern f X ∧ IsPattern f Z ∧ IsPattern f L ∧ IsPattern f U ∧
      ∃ r, (op (wiresOf f X)).run b = some r ∧ r.exponent = (wiresOf f Z).exponent ∧
        (wiresOf f L).mantissa.val ≤ r.mantissa.val ∧ r.mantissa.val ≤ (wiresOf f U).mantissa.val := by
  unfold ulpCircuit
  simp only [Circ.bind_eq, Circ.run_bind, Option.bind_eq_some_iff, newFloat_run_iff G h64]
  constructor
  · rintro ⟨_, ⟨h1, rfl⟩, _, ⟨h2, rfl⟩, _, ⟨h3, rfl⟩, _, ⟨h4, rfl⟩, r, h5, ⟨⟩, h6, ⟨⟩, h7, h8⟩
    exact ⟨h1, h2, h3, h4, r, h5, run_assertIsEqual.1 h6, run_assertLeVar.1 h7, run_assertLeVar.1 h8⟩
  · rintro ⟨h1, h2, h3, h4, r, h5, h6, h7, h8⟩
    exact ⟨_, ⟨h1, rfl⟩, _, ⟨h2, rfl⟩, _, ⟨h3, rfl⟩, _, ⟨h4, rfl⟩, r, h5, (), run_assertIsEqual.2 h6, (), run_assertLeVar.2 h7, run_assertLeVar.2 h8⟩

omit [Fact p.Prime] in
theorem wiresOf_toVar (G : Good p b f) (h64 : 1 + f.E + f.M ≤ 64) {v : ZMod p} (h : IsPattern f v) :
    wiresOf f v = (fltOf f v.val).toVar := by
  have := G.hE
  unfold wiresOf
  rw [componentsOf_eq (by omega) h64 h, comps_toVar]

theorem exp_inj (G : Good p b f) {x y : Flt} (hx : x.Bdd f) (hy : y.Bdd f) (h : ((x.exp : ℤ) : ZMod p) = ((y.exp : ℤ) : ZMod p)) :
    x.exp = y.exp := by
  have hE := G.hE
  have hEM := G.hEM
  have hMz := G.hMz
  have hzE := G.zE1
  have hmn := f.eMin_eq
  have hpE : (2:ℤ) ^ (f.E + 1) ≤ p := by exact_mod_cast G.pow_le (k := f.E + 1) (by omega)
  obtain ⟨_, h1, h3⟩ := hx
  obtain ⟨_, h2, h4⟩ := hy
  rwa [intCast_inj (by rw [abs_lt]; constructor <;> omega)] at h

theorem man_inj (G : Good p b f) {x y : Flt} (hx : x.Bdd f) (hy : y.Bdd f) (h : ((x.man : ℕ) : ZMod p) = ((y.man : ℕ) : ZMod p)) :
    x.man = y.man := by
  have hpM := G.pow_le (k := f.M + 1) (by omega)
  have h5 := hx.man
  have h6 := hy.man
  rwa [natCast_inj (by omega) (by omega)] at h

theorem man_val (G : Good p b f) {x : Flt} (hx : x.Bdd f) : (((x.man : ℕ) : ZMod p)).val = x.man := by
  have hpM := G.pow_le (k := f.M + 1) (by omega)
  exact ZMod.val_natCast_of_lt (by have := hx.man; omega)

/-- A valid float with the exponent of a number is a number. -/
theorem abn_of_exp (G : Good p b f) {x y : Flt} (hx : x.Valid f) (hy : y.Valid f) (hya : y.abn = false) (h : x.exp = y.exp) : x.abn = false := by
  have := hy.exp_fin G hya
  cases hx with
  | nan | inf => simp only at h; omega
  | zero | fin => rfl

/-- Magnitude comparison only: a claimed output that passes has the magnitude of the computed one. -/
theorem same_magnitude (G : Good p b f) (h64 : 1 + f.E + f.M ≤ 64) {r : FloatVar p} {w : ℝ} (hr : Num f r w) {Z : ZMod p} (hZ : IsPattern f Z)
    (he : r.exponent = (wiresOf f Z).exponent) (hm : r.mantissa = (wiresOf f Z).mantissa) : ∃ s, datumOf f Z = .fin s |w| := by
  have hE := G.hE
  obtain ⟨s, a, h1, h2⟩ := hr
  rw [Num.abs_eq h1 h2]
  obtain ⟨y, hy, hd, rfl⟩ := encodes_iff.1 h1
  obtain ⟨ha, _, rfl⟩ := datum_fin_iff.1 hd
  rw [wiresOf_toVar G h64 hZ] at he hm
  have hz := fltOf_valid (f := f) (by omega) hZ
  have e1 := exp_inj G (hy.bdd G) (hz.bdd G) he
  have e2 := man_inj G (hy.bdd G) (hz.bdd G) hm
  have e3 := abn_of_exp G hz hy ha e1.symm
  refine ⟨(fltOf f Z.val).sign, ?_⟩
  unfold datumOf
  rw [show (⟨f.E, f.M⟩ : Ieee.Format) = f.ieee from rfl, ← fltOf_datum (by omega) hZ]
  exact datum_fin_iff.2 ⟨e3, rfl, by unfold Flt.mag; rw [e1, e2]⟩

/-- Every finite wire record is the record of some bit pattern. -/
theorem exists_pattern (G : Good p b f) (h64 : 1 + f.E + f.M ≤ 64) {r : FloatVar p} {w : ℝ} (hr : Num f r w) :
    ∃ Z : ZMod p, IsPattern f Z ∧ r = wiresOf f Z := by
  have hE := G.hE
  have hEM := G.hEM
  obtain ⟨s, a, h1, -⟩ := hr
  obtain ⟨y, hy, hd, rfl⟩ := encodes_iff.1 h1
  have hlt := bitsOf_lt (f := f) (by omega) (by omega) hy
  have hp : bitsOf f y < p := G.lt_of_lt_pow hlt (by omega)
  have hv : ((bitsOf f y : ℕ) : ZMod p).val = bitsOf f y := ZMod.val_natCast_of_lt hp
  have hZ : IsPattern f ((bitsOf f y : ℕ) : ZMod p) := by unfold IsPattern; rwa [hv]
  refine ⟨_, hZ, ?_⟩
  rw [wiresOf_toVar G h64 hZ, hv, fltOf_bitsOf (by omega) (by omega) hy]

/-- The sign bit only changes the sign wire. -/
theorem fltOf_signBit {v : ℕ} (hv : v < 2 ^ (f.E + f.M)) : fltOf f (v + 2 ^ (f.E + f.M)) = { fltOf f v with sign := true } := by
  have h1 : (v + 2 ^ (f.E + f.M)) / 2 ^ (f.E + f.M) % 2 = 1 := by
    rw [Nat.add_div_right _ (by positivity), Nat.div_eq_of_lt hv]
  have h2 : (v + 2 ^ (f.E + f.M)) / 2 ^ f.M % 2 ^ f.E = v / 2 ^ f.M % 2 ^ f.E := by
    rw [pow_add, Nat.mul_comm, Nat.add_mul_div_left _ _ (by positivity), Nat.add_mod_right]
  have h3 : (v + 2 ^ (f.E + f.M)) % 2 ^ f.M = v % 2 ^ f.M := by
    rw [pow_add, Nat.mul_comm, Nat.add_mul_mod_self_left]
  unfold fltOf
  simp only [h1, h2, h3]
  split_ifs <;> simp

/-- Normal numbers with the same exponent field have the same exponent wire. -/
theorem fltOf_exp {v w : ℕ} (h : v / 2 ^ f.M % 2 ^ f.E = w / 2 ^ f.M % 2 ^ f.E) (h0 : w / 2 ^ f.M % 2 ^ f.E ≠ 0) : (fltOf f v).exp = (fltOf f w).exp := by
  unfold fltOf
  simp only [h]
  split_ifs <;> simp_all

/-- The exponent field of a pattern is that of a normal number. -/
def IsNormal (f : Fmt) (v : ℕ) : Prop := v / 2 ^ f.M % 2 ^ f.E ≠ 0 ∧ v / 2 ^ f.M % 2 ^ f.E ≠ 2 ^ f.E - 1

theorem fltOf_normal_man {v : ℕ} (h : IsNormal f v) : (fltOf f v).man = 2 ^ f.M + v % 2 ^ f.M := by
  unfold fltOf
  simp [h.1, h.2, add_comm]

theorem fltOf_normal_abn {v : ℕ} (h : IsNormal f v) : (fltOf f v).abn = false := by
  unfold fltOf
  simp [h.1, h.2]

theorem normal_man_val (G : Good p b f) (h64 : 1 + f.E + f.M ≤ 64) {Z : ZMod p} (hZ : IsPattern f Z) (h : IsNormal f Z.val) :
    (wiresOf f Z).mantissa.val = 2 ^ f.M + Z.val % 2 ^ f.M := by
  have hE := G.hE
  rw [wiresOf_toVar G h64 hZ, ← fltOf_normal_man h]
  exact man_val G ((fltOf_valid (f := f) (by omega) hZ).bdd G)

theorem normal_exp (G : Good p b f) (h64 : 1 + f.E + f.M ≤ 64) {Z W : ZMod p} (hZ : IsPattern f Z) (hW : IsPattern f W) (h : IsNormal f W.val)
    (he : Z.val / 2 ^ f.M % 2 ^ f.E = W.val / 2 ^ f.M % 2 ^ f.E) : (wiresOf f Z).exponent = (wiresOf f W).exponent := by
  rw [wiresOf_toVar G h64 hZ, wiresOf_toVar G h64 hW]
  unfold Flt.toVar
  simp only [fltOf_exp he h.1]

/-- A finite result and a normal pattern with the same exponent wire: the magnitudes compare as the mantissa wires do. -/
theorem magnitude_cmp (G : Good p b f) (h64 : 1 + f.E + f.M ≤ 64) {r : FloatVar p} {w : ℝ} (hr : Num f r w) {Z L : ZMod p} (hZ : IsPattern f Z)
    (hL : IsPattern f L) (hn : IsNormal f L.val) (hf : L.val / 2 ^ f.M % 2 ^ f.E = Z.val / 2 ^ f.M % 2 ^ f.E) (he : r.exponent = (wiresOf f Z).exponent) :
    ∃ s a, datumOf f L = .fin s a ∧ ((wiresOf f L).mantissa.val ≤ r.mantissa.val → a ≤ |w|) ∧ (r.mantissa.val ≤ (wiresOf f L).mantissa.val → |w| ≤ a) := by
  have hE := G.hE
  obtain ⟨s, a, h1, h2⟩ := hr
  rw [Num.abs_eq h1 h2]
  obtain ⟨y, hy, hd, rfl⟩ := encodes_iff.1 h1
  obtain ⟨ha, _, rfl⟩ := datum_fin_iff.1 hd
  rw [normal_exp G h64 hZ hL hn hf.symm] at he
  rw [wiresOf_toVar G h64 hL] at he ⊢
  have hz := fltOf_valid (f := f) (by omega) hL
  have e1 := exp_inj G (hy.bdd G) (hz.bdd G) he
  have m1 : (y.toVar : FloatVar p).mantissa.val = y.man := man_val G (hy.bdd G)
  have m2 : ((fltOf f L.val).toVar : FloatVar p).mantissa.val = (fltOf f L.val).man := man_val G (hz.bdd G)
  refine ⟨(fltOf f L.val).sign, (fltOf f L.val).mag f, ?_, ?_, ?_⟩
  · unfold datumOf
    rw [show (⟨f.E, f.M⟩ : Ieee.Format) = f.ieee from rfl, ← fltOf_datum (by omega) hL]
    exact datum_fin_iff.2 ⟨fltOf_normal_abn hn, rfl, rfl⟩
  · intro h
    rw [m1, m2] at h
    unfold Flt.mag; rw [e1]
    exact mul_le_mul_of_nonneg_right (by exact_mod_cast h) (by positivity)
  · intro h
    rw [m1, m2] at h
    unfold Flt.mag; rw [e1]
    exact mul_le_mul_of_nonneg_right (by exact_mod_cast h) (by positivity)

end ZkLoc

namespace ZkLoc

variable {p b : ℕ} [Fact p.Prime]

/-- One step of Horner's rule on integers, if its preconditions hold and no prover has a choice. -/
def stepZ (f : Fmt) (x c q : Flt) : Option Flt :=
  let m := mulZ f q x true
  let r := addZ f m c true true
  let bdd (y : Flt) : Bool := decide (y.man < 2 ^ (f.M + 1)) && decide (f.eMin ≤ y.exp) && decide (y.exp ≤ f.eMax)
  let std (y : Flt) : Bool := (decide (y.man = 0) || decide (2 ^ f.M ≤ y.man)) && decide (y.exp ≠ f.eMax)
  if bdd q && bdd x && bdd m && bdd c && std m && std c && decide (mulZ f q x false = m) &&
    decide (addZ f m c true false = r) && decide (addZ f m c false true = r) && decide (addZ f m c false false = r)
  then some r else none

/-- Horner's rule on integers. -/
def chainZ (f : Fmt) (x : Flt) : List Flt → Flt → Option Flt
  | [], q => some q
  | c :: cs, q => (stepZ f x c q).bind (chainZ f x cs)

theorem stepZ_sound {f : Fmt} (G : Good p b f) (hb : b ∣ f.pow2Size) {x c q z : Flt} (h : stepZ f x c q = some z) {st : Bool} {r : FloatVar p}
    (hr : ((fMul f q.toVar x.toVar).bind fun m => fAdd f m c.toVar).Sat b st r) : r = z.toVar := by
  unfold stepZ at h
  simp only at h
  split_ifs at h with hc
  simp only [Bool.and_eq_true, Bool.or_eq_true, decide_eq_true_eq] at hc
  obtain ⟨⟨⟨⟨⟨⟨⟨⟨⟨h1, h2⟩, h3⟩, h4⟩, h5⟩, h6⟩, h7⟩, h8⟩, h9⟩, h10⟩ := hc
  cases h
  obtain ⟨m, hm, hr⟩ := (Circ.sat_bind _ _ _).1 hr
  obtain ⟨c1, rfl⟩ := ((fMul_spec (H := True) G ⟨h1.1.1, h1.1.2, h1.2⟩ ⟨h2.1.1, h2.1.2, h2.2⟩ fun _ => hb).sat trivial st m).1 hm
  have e1 : mulZ f q x c1 = mulZ f q x true := by cases c1 <;> simp [h7]
  rw [e1] at hr
  obtain ⟨c1, c2, rfl⟩ := ((fAdd_spec (H := True) G ⟨h3.1.1, h3.1.2, h3.2⟩ ⟨h4.1.1, h4.1.2, h4.2⟩ h5.1 h6.1
    (fun h => absurd h (by simp [h5.2, h6.2])) fun _ => hb).sat trivial st r).1 hr
  cases c1 <;> cases c2 <;> simp [h8, h9, h10]

theorem chainZ_sound {f : Fmt} (G : Good p b f) (hb : b ∣ f.pow2Size) {x : Flt} {st : Bool} : ∀ (cs : List Flt) {q z : Flt}, chainZ f x cs q = some z →
    ∀ {r : List (FloatVar p)}, (evalKLoop f x.toVar (cs.map Flt.toVar) [q.toVar]).Sat b st r → r = [z.toVar]
  | [], q, z, h, r, hr => by
    cases h
    simpa [evalKLoop, Circ.pure_eq, Circ.Sat, eq_comm] using hr
  | c :: cs, q, z, h, r, hr => by
    obtain ⟨y, h1, h2⟩ := Option.bind_eq_some_iff.1 h
    simp only [List.map_cons, evalKLoop, evalKStep, Circ.bind_eq, Circ.pure_eq, Circ.sat_bind] at hr
    obtain ⟨_, ⟨m, hm, s, hs, _, hn, hl⟩, hr⟩ := hr
    have hs' := stepZ_sound G hb h1 ((Circ.sat_bind _ _ _).2 ⟨m, hm, hs⟩)
    have e1 : ∀ {l l' : List (FloatVar p)}, (Circ.pure l : Circ p _).Sat b st l' → l' = l := by
      intro l l' h; simpa [Circ.Sat, eq_comm] using h
    rw [e1 hl, e1 hn, hs'] at hr
    exact chainZ_sound G hb cs h2 hr

end ZkLoc
