import Verif.Circuits
import Verif.Props.Arith
import Verif.Props.Integer
import Verif.Props.Compare

/-!
# Reduction of the test circuits to their operation
-/

namespace ZkLoc

open Ieee (Datum)

variable {p b : ℕ} [Fact p.Prime] {f : Fmt}

/-- The input wire holds a bit pattern of the format. -/
def IsPattern (f : Fmt) (v : ZMod p) : Prop := v.val < 2 ^ (1 + f.E + f.M)

/-- The IEEE datum of the bit pattern on an input wire. -/
noncomputable def datumOf (f : Fmt) (v : ZMod p) : Datum := Ieee.decodeBits ⟨f.E, f.M⟩ v.val

/-- The wires `NewFloat` allocates for a bit pattern. -/
def wiresOf (f : Fmt) (v : ZMod p) : FloatVar p := (componentsOf v.val f.E f.M).toVar

theorem newFloat_sat_iff (G : Good p b f) (h64 : 1 + f.E + f.M ≤ 64) {v : ZMod p} {st : Bool} {r : FloatVar p} :
    (newFloat f v).Sat b st r ↔ IsPattern f v ∧ r = wiresOf f v := C14_newFloat_exact G h64 v st r

theorem newFloat_run_iff (G : Good p b f) (h64 : 1 + f.E + f.M ≤ 64) {v : ZMod p} {r : FloatVar p} :
    (newFloat f v).run b = some r ↔ IsPattern f v ∧ r = wiresOf f v := by
  constructor
  · intro h
    exact (newFloat_sat_iff (st := true) G h64).1 (Circ.sat_of_run _ _ h)
  · rintro ⟨h, rfl⟩
    have := C14_newFloat_complete (p := p) (b := b) G h64 h
    rwa [ZMod.natCast_val, ZMod.cast_id', id] at this

theorem wiresOf_encodes (G : Good p b f) (h64 : 1 + f.E + f.M ≤ 64) {v : ZMod p} (h : IsPattern f v) :
    Encodes f (wiresOf f v) (datumOf f v) :=
  C14_newFloat_encodes (st := true) G h64 ((newFloat_sat_iff G h64).2 ⟨h, rfl⟩)

theorem unary_sat (G : Good p b f) (h64 : 1 + f.E + f.M ≤ 64) {op : FloatVar p → Circ p (FloatVar p)} {X Y : ZMod p} {st : Bool} :
    (unaryCircuit f op X Y).Sat b st () ↔ IsPattern f X ∧ IsPattern f Y ∧
      ∃ r, (op (wiresOf f X)).Sat b st r ∧ (fAssertIsEqual r (wiresOf f Y)).Sat b st () := by
  unfold unaryCircuit
  simp only [Circ.bind_eq, Circ.sat_bind, newFloat_sat_iff G h64]
  constructor
  · rintro ⟨_, ⟨h1, rfl⟩, _, ⟨h2, rfl⟩, h⟩; exact ⟨h1, h2, h⟩
  · rintro ⟨h1, h2, h⟩; exact ⟨_, ⟨h1, rfl⟩, _, ⟨h2, rfl⟩, h⟩

theorem binary_sat (G : Good p b f) (h64 : 1 + f.E + f.M ≤ 64) {op : FloatVar p → FloatVar p → Circ p (FloatVar p)}
    {X Y Z : ZMod p} {st : Bool} :
    (binaryCircuit f op X Y Z).Sat b st () ↔ IsPattern f X ∧ IsPattern f Y ∧ IsPattern f Z ∧
      ∃ r, (op (wiresOf f X) (wiresOf f Y)).Sat b st r ∧ (fAssertIsEqual r (wiresOf f Z)).Sat b st () := by
  unfold binaryCircuit
  simp only [Circ.bind_eq, Circ.sat_bind, newFloat_sat_iff G h64]
  constructor
  · rintro ⟨_, ⟨h1, rfl⟩, _, ⟨h2, rfl⟩, _, ⟨h3, rfl⟩, h⟩; exact ⟨h1, h2, h3, h⟩
  · rintro ⟨h1, h2, h3, h⟩; exact ⟨_, ⟨h1, rfl⟩, _, ⟨h2, rfl⟩, _, ⟨h3, rfl⟩, h⟩

theorem unary_run (G : Good p b f) (h64 : 1 + f.E + f.M ≤ 64) {op : FloatVar p → Circ p (FloatVar p)} {X Y : ZMod p} :
    (unaryCircuit f op X Y).run b = some () ↔ IsPattern f X ∧ IsPattern f Y ∧
      ∃ r, (op (wiresOf f X)).run b = some r ∧ (fAssertIsEqual r (wiresOf f Y)).run b = some () := by
  unfold unaryCircuit
  simp only [Circ.bind_eq, Circ.run_bind, Option.bind_eq_some_iff, newFloat_run_iff G h64]
  constructor
  · rintro ⟨_, ⟨h1, rfl⟩, _, ⟨h2, rfl⟩, h⟩; exact ⟨h1, h2, h⟩
  · rintro ⟨h1, h2, h⟩; exact ⟨_, ⟨h1, rfl⟩, _, ⟨h2, rfl⟩, h⟩

theorem binary_run (G : Good p b f) (h64 : 1 + f.E + f.M ≤ 64) {op : FloatVar p → FloatVar p → Circ p (FloatVar p)}
    {X Y Z : ZMod p} :
    (binaryCircuit f op X Y Z).run b = some () ↔ IsPattern f X ∧ IsPattern f Y ∧ IsPattern f Z ∧
      ∃ r, (op (wiresOf f X) (wiresOf f Y)).run b = some r ∧ (fAssertIsEqual r (wiresOf f Z)).run b = some () := by
  unfold binaryCircuit
  simp only [Circ.bind_eq, Circ.run_bind, Option.bind_eq_some_iff, newFloat_run_iff G h64]
  constructor
  · rintro ⟨_, ⟨h1, rfl⟩, _, ⟨h2, rfl⟩, _, ⟨h3, rfl⟩, h⟩; exact ⟨h1, h2, h3, h⟩
  · rintro ⟨h1, h2, h3, h⟩; exact ⟨_, ⟨h1, rfl⟩, _, ⟨h2, rfl⟩, _, ⟨h3, rfl⟩, h⟩

/-- A malformed overflow record is not equal to any allocated float. -/
theorem overflowed_rejected (G : Good p b f) {neg : Bool} {v : ℝ} {r z : FloatVar p} {dz : Datum} (hr : Overflowed f neg v r)
    (ez : Encodes f z dz) {st : Bool} : ¬ (fAssertIsEqual r z).Sat b st () := by
  obtain ⟨n, h1, h2, -, rfl⟩ := hr
  obtain ⟨z, hz, rfl, rfl⟩ := encodes_iff.1 ez
  have e : (⟨if neg then 1 else 0, 2 ^ (f.E - 1), (n : ZMod p), 0⟩ : FloatVar p) = Flt.toVar ⟨neg, f.eMax, n, false⟩ := by
    unfold Flt.toVar; cases neg <;> simp [Fmt.eMax]
  have hMz := G.hMz
  have hmn := f.eMin_eq
  have hb : Flt.Bdd f ⟨neg, f.eMax, n, false⟩ := ⟨h2, by simp; omega, by simp⟩
  rw [e, (fAssertIsEqual_dec (H := True) G hb (hz.bdd G)).sat trivial]
  rintro ⟨_, h3, _, h4⟩
  simp only at h3 h4
  have := hz.exp_fin G h4.symm
  omega

/-- The circuit of an operation with a single possible datum, or else an overflow record, accepts exactly the
operation's IEEE results. -/
theorem binary_exact (G : Good p b f) (h64 : 1 + f.E + f.M ≤ 64) {op : FloatVar p → FloatVar p → Circ p (FloatVar p)}
    {R : Datum → Datum → Datum → Prop} (huniq : ∀ {x y d d'}, R x y d → R x y d' → d = d')
    (hrun : ∀ {x y dx dy}, Encodes f x dx → Encodes f y dy → ∃ r d, (op x y).run b = some r ∧ Encodes f r d ∧ R dx dy d)
    {X Y Z : ZMod p} :
    ((binaryCircuit f op X Y Z).run b = some () ↔
      IsPattern f X ∧ IsPattern f Y ∧ IsPattern f Z ∧ R (datumOf f X) (datumOf f Y) (datumOf f Z)) ∧
    ∀ st, (∀ {x y dx dy r}, Encodes f x dx → Encodes f y dy → (op x y).Sat b st r →
      (∃ d, Encodes f r d ∧ R dx dy d) ∨ ∃ neg v, Overflowed f neg v r) →
    ((binaryCircuit f op X Y Z).Sat b st () ↔
      IsPattern f X ∧ IsPattern f Y ∧ IsPattern f Z ∧ R (datumOf f X) (datumOf f Y) (datumOf f Z)) := by
  have key : IsPattern f X → IsPattern f Y → IsPattern f Z → R (datumOf f X) (datumOf f Y) (datumOf f Z) →
      ∃ r, (op (wiresOf f X) (wiresOf f Y)).run b = some r ∧ (fAssertIsEqual r (wiresOf f Z)).run b = some () := by
    intro h1 h2 h3 h4
    obtain ⟨r, d, h5, h6, h7⟩ := hrun (wiresOf_encodes G h64 h1) (wiresOf_encodes G h64 h2)
    exact ⟨r, h5, (C28_assertIsEqual G h6 (wiresOf_encodes G h64 h3)).1.2 (huniq h7 h4)⟩
  constructor
  · rw [binary_run G h64]
    constructor
    · rintro ⟨h1, h2, h3, r, h4, h5⟩
      obtain ⟨r', d, h6, h7, h8⟩ := hrun (wiresOf_encodes G h64 h1) (wiresOf_encodes G h64 h2)
      rw [h4] at h6; cases h6
      refine ⟨h1, h2, h3, ?_⟩
      rw [← (C28_assertIsEqual G h7 (wiresOf_encodes G h64 h3)).1.1 h5]; exact h8
    · rintro ⟨h1, h2, h3, h4⟩; exact ⟨h1, h2, h3, key h1 h2 h3 h4⟩
  · intro st hsat
    rw [binary_sat G h64]
    constructor
    · rintro ⟨h1, h2, h3, r, h4, h5⟩
      refine ⟨h1, h2, h3, ?_⟩
      rcases hsat (wiresOf_encodes G h64 h1) (wiresOf_encodes G h64 h2) h4 with ⟨d, h6, h7⟩ | ⟨neg, v, h6⟩
      · rw [← ((C28_assertIsEqual G h6 (wiresOf_encodes G h64 h3)).2 st).1 h5]; exact h7
      · exact absurd h5 (overflowed_rejected G h6 (wiresOf_encodes G h64 h3))
    · rintro ⟨h1, h2, h3, h4⟩
      obtain ⟨r, h5, h6⟩ := key h1 h2 h3 h4
      exact ⟨h1, h2, h3, r, Circ.sat_of_run _ _ h5, Circ.sat_of_run _ _ h6⟩

theorem unary_run_exact (G : Good p b f) (h64 : 1 + f.E + f.M ≤ 64) {op : FloatVar p → Circ p (FloatVar p)}
    {R : Datum → Datum → Prop} (huniq : ∀ {x d d'}, R x d → R x d' → d = d')
    (hrun : ∀ {x dx}, Encodes f x dx → ∃ r d, (op x).run b = some r ∧ Encodes f r d ∧ R dx d) {X Y : ZMod p} :
    (unaryCircuit f op X Y).run b = some () ↔ IsPattern f X ∧ IsPattern f Y ∧ R (datumOf f X) (datumOf f Y) := by
  rw [unary_run G h64]
  constructor
  · rintro ⟨h1, h2, r, h4, h5⟩
    obtain ⟨r', d, h6, h7, h8⟩ := hrun (wiresOf_encodes G h64 h1)
    rw [h4] at h6; cases h6
    refine ⟨h1, h2, ?_⟩
    rw [← (C28_assertIsEqual G h7 (wiresOf_encodes G h64 h2)).1.1 h5]; exact h8
  · rintro ⟨h1, h2, h4⟩
    obtain ⟨r, d, h5, h6, h7⟩ := hrun (wiresOf_encodes G h64 h1)
    exact ⟨h1, h2, r, h5, (C28_assertIsEqual G h6 (wiresOf_encodes G h64 h2)).1.2 (huniq h7 h4)⟩

/-- If the wires an arbitrary prover can obtain are the honest ones or those encoding a datum in `S`, the circuit accepts
the IEEE result and the data in `S`. -/
theorem unary_sat_exact (G : Good p b f) (h64 : 1 + f.E + f.M ≤ 64) {op : FloatVar p → Circ p (FloatVar p)}
    {R : Datum → Datum → Prop} {S : Datum → Datum → Prop} (huniq : ∀ {x d d'}, R x d → R x d' → d = d')
    (hrun : ∀ {x dx}, Encodes f x dx → ∃ r d, (op x).run b = some r ∧ Encodes f r d ∧ R dx d) {st : Bool}
    (hsat : ∀ {x dx r}, Encodes f x dx → ((op x).Sat b st r ↔ (op x).run b = some r ∨ ∃ d, S dx d ∧ Encodes f r d)) {X Y : ZMod p} :
    (unaryCircuit f op X Y).Sat b st () ↔
      IsPattern f X ∧ IsPattern f Y ∧ (R (datumOf f X) (datumOf f Y) ∨ S (datumOf f X) (datumOf f Y)) := by
  rw [unary_sat G h64]
  constructor
  · rintro ⟨h1, h2, r, h4, h5⟩
    have hY := wiresOf_encodes G h64 h2
    refine ⟨h1, h2, ?_⟩
    rcases (hsat (wiresOf_encodes G h64 h1)).1 h4 with h | ⟨d, h, h'⟩
    · obtain ⟨r', d, h6, h7, h8⟩ := hrun (wiresOf_encodes G h64 h1)
      rw [h] at h6; cases h6
      left; rw [← ((C28_assertIsEqual G h7 hY).2 st).1 h5]; exact h8
    · right; rw [← ((C28_assertIsEqual G h' hY).2 st).1 h5]; exact h
  · rintro ⟨h1, h2, h4 | h4⟩
    · have hX := wiresOf_encodes G h64 h1
      have hY := wiresOf_encodes G h64 h2
      obtain ⟨r, d, h5, h6, h7⟩ := hrun hX
      exact ⟨h1, h2, r, (hsat hX).2 (Or.inl h5), ((C28_assertIsEqual G h6 hY).2 st).2 (huniq h7 h4)⟩
    · have hX := wiresOf_encodes G h64 h1
      have hY := wiresOf_encodes G h64 h2
      exact ⟨h1, h2, _, (hsat hX).2 (Or.inr ⟨_, h4, hY⟩), ((C28_assertIsEqual G hY hY).2 st).2 rfl⟩

end ZkLoc
