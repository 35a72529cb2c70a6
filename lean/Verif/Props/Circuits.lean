import Verif.CircuitSpec
import Verif.Props.Deferred

/-!
# Property C41: which claimed results the circuits of the test-suite accept

The first part holds at any table width `b` (soundness of the rounding operations: widths dividing the size of the
power-of-two table). The second part is about the complete constraint systems, with deferred checks and the
automatically chosen width.
-/

namespace ZkLoc

open Ieee (Datum)

variable {p b : ℕ} [Fact p.Prime] {f : Fmt}

/-! ### At a given table width -/

/-- The exceptions of addition: when the operands cancel, a zero of either sign is accepted, and in the top binade
moreover an infinity of either sign. -/
def AddException (f : Fmt) (dx dy dz : Datum) : Prop :=
  ∃ s t a, dx = .fin s a ∧ dy = .fin t a ∧ s ≠ t ∧
    ((∃ u, dz = .fin u 0) ∨ ((2:ℝ) ^ ((2:ℤ) ^ (f.E - 1) - 1) ≤ a ∧ ∃ u, dz = .inf u))

/-- **C41** Multiplication: the circuit accepts exactly the IEEE product. -/
theorem C41_mul_of_dvd (G : Good p b f) (h64 : 1 + f.E + f.M ≤ 64) (hb : b ∣ f.pow2Size) (X Y Z : ZMod p) (st : Bool) :
    (binaryCircuit f (fMul f) X Y Z).Sat b st () ↔
      IsPattern f X ∧ IsPattern f Y ∧ IsPattern f Z ∧ Ieee.Mul ⟨f.E, f.M⟩ (datumOf f X) (datumOf f Y) (datumOf f Z) := by
  refine (binary_exact G h64 (R := Ieee.Mul ⟨f.E, f.M⟩) Ieee.Mul.unique (fun ex ey => C18_mul_complete G ex ey)).2 st fun ex ey h => ?_
  rcases C19_mul_sound_partial G hb ex ey h with h | ⟨s, a, t, c, _, _, h⟩
  · exact Or.inl h
  · exact Or.inr ⟨_, _, h⟩

/-- **C41** Division. -/
theorem C41_div_of_dvd (G : Good p b f) (h64 : 1 + f.E + f.M ≤ 64) (hb : b ∣ f.pow2Size) (X Y Z : ZMod p) (st : Bool) :
    (binaryCircuit f (fDiv f) X Y Z).Sat b st () ↔
      IsPattern f X ∧ IsPattern f Y ∧ IsPattern f Z ∧ Ieee.Div ⟨f.E, f.M⟩ (datumOf f X) (datumOf f Y) (datumOf f Z) := by
  refine (binary_exact G h64 (R := Ieee.Div ⟨f.E, f.M⟩) Ieee.Div.unique (fun ex ey => C20_div_complete G ex ey)).2 st fun ex ey h => ?_
  rcases C21_div_sound_partial G hb ex ey h with h | ⟨s, a, t, c, _, _, _, h⟩
  · exact Or.inl h
  · exact Or.inr ⟨_, _, h⟩

/-- **C41** Square root. -/
theorem C41_sqrt_of_dvd (G : Good p b f) (h64 : 1 + f.E + f.M ≤ 64) (hb : b ∣ f.pow2Size) (X Y : ZMod p) (st : Bool) :
    (unaryCircuit f (fSqrt f) X Y).Sat b st () ↔
      IsPattern f X ∧ IsPattern f Y ∧ Ieee.Sqrt ⟨f.E, f.M⟩ (datumOf f X) (datumOf f Y) := by
  rw [unary_sat_exact G h64 (R := Ieee.Sqrt ⟨f.E, f.M⟩) (S := fun _ _ => False) Ieee.Sqrt.unique
    (fun ex => C22_sqrt_complete G ex) (fun ex => by rw [C23_sqrt_deterministic_partial G hb ex]; simp)]
  simp

/-- A record with vanished significand is not equal to any allocated float. -/
theorem vanished_rejected (G : Good p b f) {r z : FloatVar p} {dz : Datum} (hr : Vanished f r)
    (ez : Encodes f z dz) {st : Bool} : ¬ (fAssertIsEqual r z).Sat b st () := by
  obtain ⟨s, e, h1, h2, rfl⟩ := hr
  obtain ⟨z, hz, rfl, rfl⟩ := encodes_iff.1 ez
  have e' : (⟨if s then 1 else 0, (e : ZMod p), 0, 0⟩ : FloatVar p) = Flt.toVar ⟨s, e, 0, false⟩ := by
    unfold Flt.toVar; cases s <;> simp
  have hMz := G.hMz
  have hmn := f.eMin_eq
  have hb : Flt.Bdd f ⟨s, e, 0, false⟩ := ⟨by simp, by simp only; unfold Fmt.eMax at *; omega, by simp only; unfold Fmt.eMax; omega⟩
  rw [e', (fAssertIsEqual_dec (H := True) G hb (hz.bdd G)).sat trivial]
  rintro ⟨_, h3, h5, h4⟩
  simp only at h3 h4 h5
  have := hz.exp_of_zero h4.symm h5.symm
  unfold Fmt.eMax at *
  omega

theorem add_circuit_core (G : Good p b f) {x y z : FloatVar p} {dx dy dz : Datum} (eX : Encodes f x dx)
    (eY : Encodes f y dy) (eZ : Encodes f z dz) {st : Bool}
    (hsound : ∀ {r}, (fAdd f x y).Sat b st r → Vanished f r ∨ (∃ d, Encodes f r d ∧ Ieee.Add ⟨f.E, f.M⟩ dx dy d) ∨
      (∃ s t a, dx = .fin s a ∧ dy = .fin t a ∧ s ≠ t ∧ Encodes f r (.fin true 0)) ∨
      (TopCancel f dx dy ∧ ∃ s, Encodes f r (.inf s)) ∨ ∃ neg v, Overflowed f neg v r)
    (hcomplete : ∀ {s t a r}, dx = .fin s a → dy = .fin t a → s ≠ t →
      ((∃ u, Encodes f r (.fin u 0)) ∨ (TopCancel f dx dy ∧ ∃ u, Encodes f r (.inf u))) → (fAdd f x y).Sat b st r) :
    (∃ r, (fAdd f x y).Sat b st r ∧ (fAssertIsEqual r z).Sat b st ()) ↔
      (Ieee.Add ⟨f.E, f.M⟩ dx dy dz ∨ AddException f dx dy dz) := by
  constructor
  · rintro ⟨r, hr, he⟩
    rcases hsound hr with h | ⟨d, h4, h5⟩ | ⟨s, t, a, rfl, rfl, hst, h4⟩ |
      ⟨⟨s, t, a, rfl, rfl, hst, hge⟩, u, h4⟩ | ⟨_, _, h⟩
    · exact absurd he (vanished_rejected G h eZ)
    · left; rw [← ((C28_assertIsEqual G h4 eZ).2 st).1 he]; exact h5
    · right; exact ⟨s, t, a, rfl, rfl, hst, Or.inl ⟨true, (((C28_assertIsEqual G h4 eZ).2 st).1 he).symm⟩⟩
    · right; exact ⟨s, t, a, rfl, rfl, hst, Or.inr ⟨hge, u, (((C28_assertIsEqual G h4 eZ).2 st).1 he).symm⟩⟩
    · exact absurd he (overflowed_rejected G h eZ)
  · have key : AddException f dx dy dz → ∃ r, (fAdd f x y).Sat b st r ∧ (fAssertIsEqual r z).Sat b st () := by
      rintro ⟨s, t, a, rfl, rfl, hst, h⟩
      refine ⟨z, hcomplete rfl rfl hst ?_, ((C28_assertIsEqual G eZ eZ).2 st).2 rfl⟩
      rcases h with ⟨u, rfl⟩ | ⟨hge, u, rfl⟩
      · exact Or.inl ⟨u, eZ⟩
      · exact Or.inr ⟨⟨s, t, a, rfl, rfl, hst, hge⟩, u, eZ⟩
    rintro (h | h)
    · by_cases htc : TopCancel f dx dy
      · obtain ⟨s, t, a, rfl, rfl, hst, hge⟩ := htc
        refine key ⟨s, t, a, rfl, rfl, hst, Or.inl ?_⟩
        simp only [Ieee.Add] at h
        have h0 : Ieee.signed s a + Ieee.signed t a = 0 := by
          unfold Ieee.signed; cases s <;> cases t <;> simp at hst ⊢
        exact ⟨_, h.1 h0⟩
      · obtain ⟨r, h4, h5⟩ := C15_add_complete (b := b) G eX eY
        obtain ⟨d, h6, h7⟩ := h5 htc
        exact ⟨r, Circ.sat_of_run _ _ h4, ((C28_assertIsEqual G h6 eZ).2 st).2 (h7.unique h)⟩
    · exact key h

theorem add_circuit_dvd (G : Good p b f) (hb : b ∣ f.pow2Size) {x y z : FloatVar p} {dx dy dz : Datum} (eX : Encodes f x dx)
    (eY : Encodes f y dy) (eZ : Encodes f z dz) {st : Bool} :
    (∃ r, (fAdd f x y).Sat b st r ∧ (fAssertIsEqual r z).Sat b st ()) ↔
      (Ieee.Add ⟨f.E, f.M⟩ dx dy dz ∨ AddException f dx dy dz) := by
  refine add_circuit_core G eX eY eZ (fun hr => Or.inr ?_) ?_
  · rcases C16_add_sound_partial G hb eX eY hr with h | h | h | ⟨s, a, t, c, _, _, _, h⟩
    · exact Or.inl h
    · exact Or.inr (Or.inl h)
    · exact Or.inr (Or.inr (Or.inl h))
    · exact Or.inr (Or.inr (Or.inr ⟨_, _, h⟩))
  · rintro s t a r rfl rfl hst (h | h)
    · exact (C16_add_exact_partial G hb eX eY).2 (Or.inr (Or.inl ⟨rfl, hst, h⟩))
    · exact (C16_add_exact_partial G hb eX eY).2 (Or.inr (Or.inr (Or.inl h)))

/-- **C41** Addition, with its exceptions. -/
theorem C41_add_of_dvd (G : Good p b f) (h64 : 1 + f.E + f.M ≤ 64) (hb : b ∣ f.pow2Size) (X Y Z : ZMod p) (st : Bool) :
    (binaryCircuit f (fAdd f) X Y Z).Sat b st () ↔
      IsPattern f X ∧ IsPattern f Y ∧ IsPattern f Z ∧
        (Ieee.Add ⟨f.E, f.M⟩ (datumOf f X) (datumOf f Y) (datumOf f Z) ∨
          AddException f (datumOf f X) (datumOf f Y) (datumOf f Z)) := by
  rw [binary_sat G h64]
  refine and_congr_right fun h1 => and_congr_right fun h2 => and_congr_right fun h3 => ?_
  exact add_circuit_dvd G hb (wiresOf_encodes G h64 h1) (wiresOf_encodes G h64 h2) (wiresOf_encodes G h64 h3)

theorem datum_neg_neg (d : Datum) : d.neg.neg = d := by cases d <;> simp [Datum.neg]

/-- **C41** Subtraction, with its exceptions. -/
theorem C41_sub_of_dvd (G : Good p b f) (h64 : 1 + f.E + f.M ≤ 64) (hb : b ∣ f.pow2Size) (X Y Z : ZMod p) (st : Bool) :
    (binaryCircuit f (fSub f) X Y Z).Sat b st () ↔
      IsPattern f X ∧ IsPattern f Y ∧ IsPattern f Z ∧
        (Ieee.Sub ⟨f.E, f.M⟩ (datumOf f X) (datumOf f Y) (datumOf f Z) ∨
          AddException f (datumOf f X) (datumOf f Y).neg (datumOf f Z)) := by
  rw [binary_sat G h64]
  refine and_congr_right fun h1 => and_congr_right fun h2 => and_congr_right fun h3 => ?_
  rw [sub_iff_add_neg]
  exact add_circuit_dvd G hb (wiresOf_encodes G h64 h1) (encodes_neg (wiresOf_encodes G h64 h2)) (wiresOf_encodes G h64 h3)

/-- **C41** The honest prover is accepted with exactly the IEEE product, quotient and square root as claimed results,
at every table width. -/
theorem C41_honest (G : Good p b f) (h64 : 1 + f.E + f.M ≤ 64) (X Y Z : ZMod p) :
    ((binaryCircuit f (fMul f) X Y Z).run b = some () ↔
      IsPattern f X ∧ IsPattern f Y ∧ IsPattern f Z ∧ Ieee.Mul ⟨f.E, f.M⟩ (datumOf f X) (datumOf f Y) (datumOf f Z)) ∧
    ((binaryCircuit f (fDiv f) X Y Z).run b = some () ↔
      IsPattern f X ∧ IsPattern f Y ∧ IsPattern f Z ∧ Ieee.Div ⟨f.E, f.M⟩ (datumOf f X) (datumOf f Y) (datumOf f Z)) ∧
    ((unaryCircuit f (fSqrt f) X Y).run b = some () ↔
      IsPattern f X ∧ IsPattern f Y ∧ Ieee.Sqrt ⟨f.E, f.M⟩ (datumOf f X) (datumOf f Y)) ∧
    ((unaryCircuit f (fTrunc f) X Y).run b = some () ↔
      IsPattern f X ∧ IsPattern f Y ∧ Ieee.Integral Ieee.truncZ (datumOf f X) (datumOf f Y)) ∧
    ((unaryCircuit f (fFloor f) X Y).run b = some () ↔
      IsPattern f X ∧ IsPattern f Y ∧ Ieee.Integral (fun v => ⌊v⌋) (datumOf f X) (datumOf f Y)) ∧
    ((unaryCircuit f (fCeil f) X Y).run b = some () ↔
      IsPattern f X ∧ IsPattern f Y ∧ Ieee.Integral (fun v => ⌈v⌉) (datumOf f X) (datumOf f Y)) :=
  ⟨(binary_exact G h64 (R := Ieee.Mul ⟨f.E, f.M⟩) Ieee.Mul.unique (fun ex ey => C18_mul_complete G ex ey)).1,
   (binary_exact G h64 (R := Ieee.Div ⟨f.E, f.M⟩) Ieee.Div.unique (fun ex ey => C20_div_complete G ex ey)).1,
   unary_run_exact G h64 (R := Ieee.Sqrt ⟨f.E, f.M⟩) Ieee.Sqrt.unique (fun ex => C22_sqrt_complete G ex),
   unary_run_exact G h64 (R := Ieee.Integral Ieee.truncZ) Ieee.Integral.unique (fun ex => C26_trunc_complete G ex),
   unary_run_exact G h64 (R := Ieee.Integral (fun v => ⌊v⌋)) Ieee.Integral.unique (fun ex => C26_floor_complete G ex),
   unary_run_exact G h64 (R := Ieee.Integral (fun v => ⌈v⌉)) Ieee.Integral.unique (fun ex => C26_ceil_complete G ex)⟩

/-- **C41** The honest prover of the addition circuit is accepted with exactly the IEEE sum, but for operands of the top
binade that cancel: then exactly with `+Inf`. -/
theorem C41_honest_add (G : Good p b f) (h64 : 1 + f.E + f.M ≤ 64) (X Y Z : ZMod p) :
    (binaryCircuit f (fAdd f) X Y Z).run b = some () ↔
      IsPattern f X ∧ IsPattern f Y ∧ IsPattern f Z ∧
      ((¬ TopCancel f (datumOf f X) (datumOf f Y) ∧ Ieee.Add ⟨f.E, f.M⟩ (datumOf f X) (datumOf f Y) (datumOf f Z)) ∨
       (TopCancel f (datumOf f X) (datumOf f Y) ∧ datumOf f Z = .inf false)) := by
  rw [binary_run G h64]
  refine and_congr_right fun h1 => and_congr_right fun h2 => and_congr_right fun h3 => ?_
  have eX := wiresOf_encodes G h64 h1
  have eY := wiresOf_encodes G h64 h2
  have eZ := wiresOf_encodes G h64 h3
  by_cases htc : TopCancel f (datumOf f X) (datumOf f Y)
  · obtain ⟨r, h4, h5, -⟩ := C15_add_top_cancel_gives_inf (b := b) G eX eY htc
    constructor
    · rintro ⟨r', h6, h7⟩
      rw [h4] at h6; cases h6
      exact Or.inr ⟨htc, ((C28_assertIsEqual G h5 eZ).1.1 h7).symm⟩
    · rintro (h | ⟨-, h⟩)
      · exact absurd htc h.1
      · exact ⟨r, h4, (C28_assertIsEqual G h5 eZ).1.2 h.symm⟩
  · obtain ⟨r, h4, h5⟩ := C15_add_complete (b := b) G eX eY
    obtain ⟨d, h6, h7⟩ := h5 htc
    constructor
    · rintro ⟨r', h8, h9⟩
      rw [h4] at h8; cases h8
      left; refine ⟨htc, ?_⟩
      rw [← (C28_assertIsEqual G h6 eZ).1.1 h9]; exact h7
    · rintro (h | h)
      · exact ⟨r, h4, (C28_assertIsEqual G h6 eZ).1.2 (h7.unique h.2)⟩
      · exact absurd h.1 htc

/-- The exceptions of the roundings to integers, for `1 ≤ |x| < 2`: a zero for `Trunc`, for `Floor` and `Ceil` the integer on
the side of zero or on the other one. -/
def IntException (g : Bool → ℝ) (dx dy : Datum) : Prop := ∃ s a, dx = .fin s a ∧ 1 ≤ a ∧ a < 2 ∧ dy = .fin s (g s)

/-- **C41** Roundings to integers. -/
theorem C41_trunc_of_dvd (G : Good p b f) (h64 : 1 + f.E + f.M ≤ 64) (hb : b ∣ f.pow2Size) (X Y : ZMod p) (st : Bool) :
    (unaryCircuit f (fTrunc f) X Y).Sat b st () ↔ IsPattern f X ∧ IsPattern f Y ∧
      (Ieee.Integral Ieee.truncZ (datumOf f X) (datumOf f Y) ∨ IntException (fun _ => 0) (datumOf f X) (datumOf f Y)) :=
  unary_sat_exact G h64 (R := Ieee.Integral Ieee.truncZ) (S := IntException _) Ieee.Integral.unique (fun ex => C26_trunc_complete G ex) fun ex => by
    rw [C26_trunc_exact_partial G hb ex]; unfold IntException
    refine or_congr Iff.rfl ⟨?_, ?_⟩
    · rintro ⟨s, a, h1, h2, h3, h4⟩; exact ⟨_, ⟨s, a, h1, h2, h3, rfl⟩, h4⟩
    · rintro ⟨_, ⟨s, a, h1, h2, h3, rfl⟩, h4⟩; exact ⟨s, a, h1, h2, h3, h4⟩

/-- **C41** `Floor`: the greatest integer below, except for the named values between one and two. -/
theorem C41_floor_of_dvd (G : Good p b f) (h64 : 1 + f.E + f.M ≤ 64) (hb : b ∣ f.pow2Size) (X Y : ZMod p) (st : Bool) :
    (unaryCircuit f (fFloor f) X Y).Sat b st () ↔ IsPattern f X ∧ IsPattern f Y ∧
      (Ieee.Integral (fun v => ⌊v⌋) (datumOf f X) (datumOf f Y) ∨
        IntException (fun s => if s then 1 else 0) (datumOf f X) (datumOf f Y)) :=
  unary_sat_exact G h64 (R := Ieee.Integral (fun v => ⌊v⌋)) (S := IntException _) Ieee.Integral.unique (fun ex => C26_floor_complete G ex) fun ex => by
    rw [C26_floor_exact_partial G hb ex]; unfold IntException
    refine or_congr Iff.rfl ⟨?_, ?_⟩
    · rintro ⟨s, a, h1, h2, h3, h4⟩; exact ⟨_, ⟨s, a, h1, h2, h3, rfl⟩, h4⟩
    · rintro ⟨_, ⟨s, a, h1, h2, h3, rfl⟩, h4⟩; exact ⟨s, a, h1, h2, h3, h4⟩

/-- **C41** `Ceil`: the least integer above, except for the named values between one and two. -/
theorem C41_ceil_of_dvd (G : Good p b f) (h64 : 1 + f.E + f.M ≤ 64) (hb : b ∣ f.pow2Size) (X Y : ZMod p) (st : Bool) :
    (unaryCircuit f (fCeil f) X Y).Sat b st () ↔ IsPattern f X ∧ IsPattern f Y ∧
      (Ieee.Integral (fun v => ⌈v⌉) (datumOf f X) (datumOf f Y) ∨
        IntException (fun s => if s then 0 else 1) (datumOf f X) (datumOf f Y)) :=
  unary_sat_exact G h64 (R := Ieee.Integral (fun v => ⌈v⌉)) (S := IntException _) Ieee.Integral.unique (fun ex => C26_ceil_complete G ex) fun ex => by
    rw [C26_ceil_exact_partial G hb ex]; unfold IntException
    refine or_congr Iff.rfl ⟨?_, ?_⟩
    · rintro ⟨s, a, h1, h2, h3, h4⟩; exact ⟨_, ⟨s, a, h1, h2, h3, rfl⟩, h4⟩
    · rintro ⟨_, ⟨s, a, h1, h2, h3, rfl⟩, h4⟩; exact ⟨s, a, h1, h2, h3, h4⟩

theorem comparison_sat {op : FloatVar p → FloatVar p → Circ p (ZMod p)} {R : Datum → Datum → Prop} (G : Good p b f)
    (h64 : 1 + f.E + f.M ≤ 64) (hop : ∀ {x y dx dy}, Encodes f x dx → Encodes f y dy → ∀ st r, (op x y).Sat b st r ↔ r = wireOf (R dx dy))
    (X Y Z : ZMod p) (st : Bool) :
    (comparisonCircuit f op X Y Z).Sat b st () ↔ IsPattern f X ∧ IsPattern f Y ∧ Z = wireOf (R (datumOf f X) (datumOf f Y)) := by
  unfold comparisonCircuit
  simp only [Circ.bind_eq, Circ.sat_bind, newFloat_sat_iff G h64]
  constructor
  · rintro ⟨_, ⟨h1, rfl⟩, _, ⟨h2, rfl⟩, _, h3, r, h4, h5⟩
    refine ⟨h1, h2, ?_⟩
    rw [hop (wiresOf_encodes G h64 h1) (wiresOf_encodes G h64 h2)] at h4
    simp only [assertIsEqual, Circ.Sat, decide_eq_true_eq] at h5
    rw [← h5.1, h4]
  · rintro ⟨h1, h2, rfl⟩
    refine ⟨_, ⟨h1, rfl⟩, _, ⟨h2, rfl⟩, (), ?_, _, (hop (wiresOf_encodes G h64 h1) (wiresOf_encodes G h64 h2) _ _).2 rfl, ?_⟩
    · simp only [assertIsBoolean, Circ.Sat, isBool, and_true]
      unfold wireOf
      split <;> simp
    · simp [assertIsEqual, Circ.Sat]

/-- **C41** Comparisons: accepted exactly with the truth value of the IEEE relation, at *every* table width. -/
theorem C41_comparison (G : Good p b f) (h64 : 1 + f.E + f.M ≤ 64) (X Y Z : ZMod p) (st : Bool) :
    ((comparisonCircuit f (fIsLt f) X Y Z).Sat b st () ↔
      IsPattern f X ∧ IsPattern f Y ∧ Z = wireOf (Ieee.Lt (datumOf f X) (datumOf f Y))) ∧
    ((comparisonCircuit f (fIsLe f) X Y Z).Sat b st () ↔
      IsPattern f X ∧ IsPattern f Y ∧ Z = wireOf (Ieee.Le (datumOf f X) (datumOf f Y))) ∧
    ((comparisonCircuit f (fIsGt f) X Y Z).Sat b st () ↔
      IsPattern f X ∧ IsPattern f Y ∧ Z = wireOf (Ieee.Lt (datumOf f Y) (datumOf f X))) ∧
    ((comparisonCircuit f (fIsGe f) X Y Z).Sat b st () ↔
      IsPattern f X ∧ IsPattern f Y ∧ Z = wireOf (Ieee.Le (datumOf f Y) (datumOf f X))) :=
  ⟨comparison_sat G h64 (fun ex ey => (C24_isLt G ex ey).2) X Y Z st, comparison_sat G h64 (fun ex ey => (C24_isLe G ex ey).2) X Y Z st,
   comparison_sat G h64 (R := fun a c => Ieee.Lt c a) (fun ex ey => (C24_isGt G ex ey).2) X Y Z st,
   comparison_sat G h64 (R := fun a c => Ieee.Le c a) (fun ex ey => (C24_isGe G ex ey).2) X Y Z st⟩

/-- **C41** Allocation: accepted exactly if the input is a bit pattern of the constant's datum, at every table width. -/
theorem C41_allocation (G : Good p b f) (h64 : 1 + f.E + f.M ≤ 64) (X : ZMod p) {y : ℕ} (hy : y < 2 ^ (1 + f.E + f.M)) (st : Bool) :
    (allocationCircuit f X y).Sat b st () ↔ IsPattern f X ∧ datumOf f X = Ieee.decodeBits ⟨f.E, f.M⟩ y := by
  have hyp : ((y : ℕ) : ZMod p).val = y := ZMod.val_natCast_of_lt (G.lt_of_lt_pow hy (by have := G.hEM; omega))
  have hY : IsPattern f ((y : ℕ) : ZMod p) := by unfold IsPattern; rw [hyp]; exact hy
  have eY := wiresOf_encodes G h64 hY
  have e1 : wiresOf f ((y : ℕ) : ZMod p) = newConstant f y := by unfold wiresOf newConstant; rw [hyp]
  have e2 : datumOf f ((y : ℕ) : ZMod p) = Ieee.decodeBits ⟨f.E, f.M⟩ y := by unfold datumOf; rw [hyp]
  rw [e1, e2] at eY
  unfold allocationCircuit
  simp only [Circ.bind_eq, Circ.sat_bind, newFloat_sat_iff G h64]
  constructor
  · rintro ⟨_, ⟨h1, rfl⟩, h⟩
    exact ⟨h1, ((C28_assertIsEqual G (wiresOf_encodes G h64 h1) eY).2 st).1 h⟩
  · rintro ⟨h1, h⟩
    exact ⟨_, ⟨h1, rfl⟩, ((C28_assertIsEqual G (wiresOf_encodes G h64 h1) eY).2 st).2 h⟩

theorem conversion_exact (G : Good p b f) (h64 : 1 + f.E + f.M ≤ 64) (hb : b ∣ f.pow2Size) (hsz : (f.pow2Size : ℤ) ≤ 2 ^ (f.E - 1))
    {op : FloatVar p → Circ p (FloatVar p)} {T : Datum → Datum → Prop} {st : Bool}
    (h1 : ∀ {x dx r}, Encodes f x dx → (op x).Sat b st r → ∃ d, Encodes f r d ∧ T dx d)
    (h2 : ∀ {x dx d}, Encodes f x dx → T dx d → ∃ r, (op x).Sat b st r ∧ Encodes f r d)
    (h3 : ∀ {dx s a}, T dx (.fin s a) → ∃ n : ℕ, a = n) (X Y : ZMod p) :
    (conversionCircuit f op X Y).Sat b st () ↔ IsPattern f X ∧
      ∃ (s : Bool) (n : ℕ), n < 2 ^ f.pow2Size ∧ T (datumOf f X) (.fin s n) ∧ Y = signedNat s n := by
  unfold conversionCircuit
  simp only [Circ.bind_eq, Circ.sat_bind, newFloat_sat_iff G h64]
  constructor
  · rintro ⟨_, ⟨hX, rfl⟩, x, hx, r, hr, he⟩
    refine ⟨hX, ?_⟩
    obtain ⟨d, h4, h5⟩ := h1 (wiresOf_encodes G h64 hX) hx
    simp only [assertIsEqual, Circ.Sat, decide_eq_true_eq, and_true] at he
    by_cases hd : ∀ s a, d = .fin s a → (2:ℝ) ^ f.pow2Size ≤ a
    · exact absurd hr (C27_toInt_rejects_large G h4 hd hsz)
    · push Not at hd
      obtain ⟨s, a, rfl, ha⟩ := hd
      obtain ⟨n, rfl⟩ := h3 h5
      have hn : n < 2 ^ f.pow2Size := by exact_mod_cast ha
      refine ⟨s, n, hn, h5, ?_⟩
      rw [← he]
      exact (C27_toInt_integral_of_dvd G hb h4 hn).1 hr
  · rintro ⟨hX, s, n, hn, h5, rfl⟩
    obtain ⟨r, h6, h7⟩ := h2 (wiresOf_encodes G h64 hX) h5
    exact ⟨_, ⟨hX, rfl⟩, r, h6, _, (C27_toInt_integral_of_dvd G hb h7 hn).2 rfl, by simp [assertIsEqual, Circ.Sat]⟩

/-- The exact set of answers of the roundings to integers. -/
theorem rounding_answers {op : FloatVar p → Circ p (FloatVar p)} {R S : Datum → Datum → Prop} {st : Bool}
    (huniq : ∀ {x d d'}, R x d → R x d' → d = d')
    (hrun : ∀ {x dx}, Encodes f x dx → ∃ r d, (op x).run b = some r ∧ Encodes f r d ∧ R dx d)
    (hsat : ∀ {x dx r}, Encodes f x dx → ((op x).Sat b st r ↔ (op x).run b = some r ∨ ∃ d, S dx d ∧ Encodes f r d))
    (hex : ∀ {dx d}, S dx d → ∃ r : FloatVar p, Encodes f r d) :
    (∀ {x dx r}, Encodes f x dx → (op x).Sat b st r → ∃ d, Encodes f r d ∧ (R dx d ∨ S dx d)) ∧
    (∀ {x dx d}, Encodes f x dx → (R dx d ∨ S dx d) → ∃ r, (op x).Sat b st r ∧ Encodes f r d) := by
  constructor
  · intro x dx r ex h
    obtain ⟨r', d, h1, h2, h3⟩ := hrun ex
    rcases (hsat ex).1 h with h | ⟨d', h4, h5⟩
    · rw [h] at h1; cases h1; exact ⟨d, h2, Or.inl h3⟩
    · exact ⟨d', h5, Or.inr h4⟩
  · rintro x dx d ex (h | h)
    · obtain ⟨r', d', h1, h2, h3⟩ := hrun ex
      rw [huniq h h3]
      exact ⟨r', (hsat ex).2 (Or.inl h1), h2⟩
    · obtain ⟨r, hr⟩ := hex h
      exact ⟨r, (hsat ex).2 (Or.inr ⟨d, h, hr⟩), hr⟩

theorem encodes_zero_one (G : Good p b f) (u : Bool) : (∃ r : FloatVar p, Encodes f r (.fin u 0)) ∧
    ∃ r : FloatVar p, Encodes f r (.fin u 1) := by
  have hMz := G.hMz
  have hmn := f.eMin_eq
  have hNm := f.eNormalMin_eq
  refine ⟨⟨_, encodes_iff.2 ⟨⟨u, f.eMin, 0, false⟩, .zero u, by simp [Flt.datum, Flt.mag], rfl⟩⟩,
    ⟨_, encodes_iff.2 ⟨⟨u, 0, 2 ^ f.M, false⟩, ?_, ?_, rfl⟩⟩⟩
  · exact .fin _ _ _ le_rfl (Nat.pow_lt_pow_right (by norm_num) (by omega)) (by omega) (by omega) (fun h => by omega)
  · simp only [Flt.datum, Bool.false_eq_true, if_false]
    congr 1
    rw [zero_sub, zpow_neg, zpow_natCast]; push_cast
    exact mul_inv_cancel₀ (by positivity)

theorem int_nat {g : ℝ → ℤ} {dx : Datum} {s : Bool} {a : ℝ} (h : Ieee.Integral g dx (.fin s a)) : ∃ n : ℕ, a = n := by
  cases dx with
  | nan => cases h
  | inf t => cases h
  | fin t c =>
    simp only [Ieee.Integral, Datum.fin.injEq] at h
    exact ⟨(g (Ieee.signed t c)).natAbs, by rw [h.2]; simp [Nat.cast_natAbs]⟩

/-- **C41** Conversion to an integer after `Trunc`: accepted exactly with the integer (as a field element, negative numbers
as negated ones) of magnitude below `2^(M+E+1)` that truncation yields, or 0 if `1 ≤ |x| < 2`. -/
theorem C41_conversion_trunc_of_dvd (G : Good p b f) (h64 : 1 + f.E + f.M ≤ 64) (hb : b ∣ f.pow2Size)
    (hsz : (f.pow2Size : ℤ) ≤ 2 ^ (f.E - 1)) (X Y : ZMod p) (st : Bool) :
    (conversionCircuit f (fTrunc f) X Y).Sat b st () ↔ IsPattern f X ∧ ∃ (s : Bool) (n : ℕ), n < 2 ^ f.pow2Size ∧
      (Ieee.Integral Ieee.truncZ (datumOf f X) (.fin s n) ∨ IntException (fun _ => 0) (datumOf f X) (.fin s n)) ∧
      Y = signedNat s n := by
  obtain ⟨h1, h2⟩ := rounding_answers (b := b) (op := fTrunc (p := p) f) (R := Ieee.Integral Ieee.truncZ) (S := IntException (fun _ => 0))
    (st := st) Ieee.Integral.unique (fun ex => C26_trunc_complete G ex) (fun ex => by
      rw [C26_trunc_exact_partial G hb ex]; unfold IntException
      refine or_congr Iff.rfl ⟨?_, ?_⟩
      · rintro ⟨s, a, h1, h2, h3, h4⟩; exact ⟨_, ⟨s, a, h1, h2, h3, rfl⟩, h4⟩
      · rintro ⟨_, ⟨s, a, h1, h2, h3, rfl⟩, h4⟩; exact ⟨s, a, h1, h2, h3, h4⟩)
    (by rintro dx d ⟨s, a, _, _, _, rfl⟩; exact (encodes_zero_one G s).1)
  refine conversion_exact G h64 hb hsz h1 h2 ?_ X Y
  rintro dx s a (h | ⟨t, c, _, _, _, h⟩)
  · exact int_nat h
  · cases h; exact ⟨0, by simp⟩

/-- **C41** The same after `Floor`. -/
theorem C41_conversion_floor_of_dvd (G : Good p b f) (h64 : 1 + f.E + f.M ≤ 64) (hb : b ∣ f.pow2Size)
    (hsz : (f.pow2Size : ℤ) ≤ 2 ^ (f.E - 1)) (X Y : ZMod p) (st : Bool) :
    (conversionCircuit f (fFloor f) X Y).Sat b st () ↔ IsPattern f X ∧ ∃ (s : Bool) (n : ℕ), n < 2 ^ f.pow2Size ∧
      (Ieee.Integral (fun v => ⌊v⌋) (datumOf f X) (.fin s n) ∨
        IntException (fun s => if s then 1 else 0) (datumOf f X) (.fin s n)) ∧ Y = signedNat s n := by
  obtain ⟨h1, h2⟩ := rounding_answers (b := b) (op := fFloor (p := p) f) (R := Ieee.Integral (fun v => ⌊v⌋))
    (S := IntException (fun s => if s then 1 else 0)) (st := st) Ieee.Integral.unique (fun ex => C26_floor_complete G ex) (fun ex => by
      rw [C26_floor_exact_partial G hb ex]; unfold IntException
      refine or_congr Iff.rfl ⟨?_, ?_⟩
      · rintro ⟨s, a, h1, h2, h3, h4⟩; exact ⟨_, ⟨s, a, h1, h2, h3, rfl⟩, h4⟩
      · rintro ⟨_, ⟨s, a, h1, h2, h3, rfl⟩, h4⟩; exact ⟨s, a, h1, h2, h3, h4⟩)
    (by
      rintro dx d ⟨s, a, _, _, _, rfl⟩
      cases s
      · exact (encodes_zero_one G _).1
      · exact (encodes_zero_one G _).2)
  refine conversion_exact G h64 hb hsz h1 h2 ?_ X Y
  rintro dx s a (h | ⟨t, c, _, _, _, h⟩)
  · exact int_nat h
  · cases h; cases s
    · exact ⟨0, by simp⟩
    · exact ⟨1, by simp⟩

/-- **C41** The same after `Ceil`. -/
theorem C41_conversion_ceil_of_dvd (G : Good p b f) (h64 : 1 + f.E + f.M ≤ 64) (hb : b ∣ f.pow2Size)
    (hsz : (f.pow2Size : ℤ) ≤ 2 ^ (f.E - 1)) (X Y : ZMod p) (st : Bool) :
    (conversionCircuit f (fCeil f) X Y).Sat b st () ↔ IsPattern f X ∧ ∃ (s : Bool) (n : ℕ), n < 2 ^ f.pow2Size ∧
      (Ieee.Integral (fun v => ⌈v⌉) (datumOf f X) (.fin s n) ∨
        IntException (fun s => if s then 0 else 1) (datumOf f X) (.fin s n)) ∧ Y = signedNat s n := by
  obtain ⟨h1, h2⟩ := rounding_answers (b := b) (op := fCeil (p := p) f) (R := Ieee.Integral (fun v => ⌈v⌉))
    (S := IntException (fun s => if s then 0 else 1)) (st := st) Ieee.Integral.unique (fun ex => C26_ceil_complete G ex) (fun ex => by
      rw [C26_ceil_exact_partial G hb ex]; unfold IntException
      refine or_congr Iff.rfl ⟨?_, ?_⟩
      · rintro ⟨s, a, h1, h2, h3, h4⟩; exact ⟨_, ⟨s, a, h1, h2, h3, rfl⟩, h4⟩
      · rintro ⟨_, ⟨s, a, h1, h2, h3, rfl⟩, h4⟩; exact ⟨s, a, h1, h2, h3, h4⟩)
    (by
      rintro dx d ⟨s, a, _, _, _, rfl⟩
      cases s
      · exact (encodes_zero_one G _).2
      · exact (encodes_zero_one G _).1)
  refine conversion_exact G h64 hb hsz h1 h2 ?_ X Y
  rintro dx s a (h | ⟨t, c, _, _, _, h⟩)
  · exact int_nat h
  · cases h; cases s
    · exact ⟨1, by simp⟩
    · exact ⟨0, by simp⟩

/-! ### The complete constraint systems, automatic width -/

/-- The field is large enough for the format, whatever the table width: for example the scalar fields of BN254
and BLS12-381 (`good_bn254_f32` …). -/
def GoodField (p : ℕ) (f : Fmt) : Prop := ∀ b, Width b → Good p b f

theorem goodField_bn254 : GoodField bn254 f32 ∧ GoodField bn254 f64 := ⟨fun _ => good_bn254_f32, fun _ => good_bn254_f64⟩
theorem goodField_bls12_381 : GoodField bls12_381 f32 ∧ GoodField bls12_381 f64 :=
  ⟨fun _ => good_bls12_381_f32, fun _ => good_bls12_381_f64⟩

/-- A selected width is a proper table width. -/
theorem width_auto {be : Backend} {bits : List ℕ} (hr : nbR1CSConstraints 2 bits < 2 ^ 63 - 1)
    (hp : nbPLONKConstraints 2 bits < 2 ^ 63 - 1) : Width (baseLength be 0 bits) := by
  obtain ⟨h1, h2, h3⟩ := C09_getOptimalBasewidth bits hr hp
  unfold baseLength
  rw [if_pos rfl]
  cases be
  · exact ⟨by have := h1.lower; omega, h1.upper⟩
  · exact ⟨by have := h2.lower; omega, h2.upper⟩
  · rw [h3]; exact ⟨by have := h1.lower; omega, h1.upper⟩

theorem width4 : Width 4 := ⟨by norm_num, by norm_num⟩

/-- Automatic widths of the single-precision circuits under R1CS. -/
theorem f32_widths_r1cs :
    baseLength .r1cs 0 ((newFloatShape f32 ++ newFloatShape f32 ++ newFloatShape f32 ++ addShape f32).map Prod.fst) = 4 ∧
    baseLength .r1cs 0 ((newFloatShape f32 ++ newFloatShape f32 ++ newFloatShape f32 ++ mulShape f32).map Prod.fst) = 4 ∧
    baseLength .r1cs 0 ((newFloatShape f32 ++ newFloatShape f32 ++ sqrtShape f32).map Prod.fst) = 4 ∧
    baseLength .r1cs 0 ((newFloatShape f32 ++ newFloatShape f32 ++ truncShape f32).map Prod.fst) = 4 ∧
    baseLength .r1cs 0 ((newFloatShape f32 ++ truncShape f32 ++ [(f32.pow2Size, Mode.loose)]).map Prod.fst) = 4 := by
  decide +kernel

/-- And under PLONK, where for these the widths divide 32. -/
theorem f32_widths_scs :
    baseLength .scs 0 ((newFloatShape f32 ++ newFloatShape f32 ++ sqrtShape f32).map Prod.fst) = 4 ∧
    baseLength .scs 0 ((newFloatShape f32 ++ newFloatShape f32 ++ truncShape f32).map Prod.fst) = 4 ∧
    baseLength .scs 0 ((newFloatShape f32 ++ truncShape f32 ++ [(f32.pow2Size, Mode.loose)]).map Prod.fst) = 4 := by
  decide +kernel

/-- **C41** `F32BinaryCircuit` with `Mul` compiled to R1CS (width chosen automatically, checks deferred): some prover is
accepted with claimed result `Z` iff `Z` is a bit pattern of the IEEE product. -/
theorem C41_f32_mul_r1cs (hp : GoodField p f32) (X Y Z : ZMod p) (st : Bool) :
    Accepts .r1cs st 0 f32.pow2Size (binaryCircuit f32 (fMul f32) X Y Z) () ↔
      IsPattern f32 X ∧ IsPattern f32 Y ∧ IsPattern f32 Z ∧ Ieee.Mul ⟨8, 23⟩ (datumOf f32 X) (datumOf f32 Y) (datumOf f32 Z) := by
  rw [accepts_iff (shape_binary shape_mul X Y Z), f32_widths_r1cs.2.1]
  exact C41_mul_of_dvd (hp 4 width4) (by decide) (by decide) X Y Z st

/-- **C41** `F32BinaryCircuit` with `Add` under R1CS. -/
theorem C41_f32_add_r1cs (hp : GoodField p f32) (X Y Z : ZMod p) (st : Bool) :
    Accepts .r1cs st 0 f32.pow2Size (binaryCircuit f32 (fAdd f32) X Y Z) () ↔
      IsPattern f32 X ∧ IsPattern f32 Y ∧ IsPattern f32 Z ∧
        (Ieee.Add ⟨8, 23⟩ (datumOf f32 X) (datumOf f32 Y) (datumOf f32 Z) ∨
          AddException f32 (datumOf f32 X) (datumOf f32 Y) (datumOf f32 Z)) := by
  rw [accepts_iff (shape_binary shape_add X Y Z), f32_widths_r1cs.1]
  exact C41_add_of_dvd (hp 4 width4) (by decide) (by decide) X Y Z st

/-- **C41** `F32BinaryCircuit` with `Sub` under R1CS. -/
theorem C41_f32_sub_r1cs (hp : GoodField p f32) (X Y Z : ZMod p) (st : Bool) :
    Accepts .r1cs st 0 f32.pow2Size (binaryCircuit f32 (fSub f32) X Y Z) () ↔
      IsPattern f32 X ∧ IsPattern f32 Y ∧ IsPattern f32 Z ∧
        (Ieee.Sub ⟨8, 23⟩ (datumOf f32 X) (datumOf f32 Y) (datumOf f32 Z) ∨
          AddException f32 (datumOf f32 X) (datumOf f32 Y).neg (datumOf f32 Z)) := by
  rw [accepts_iff (shape_binary shape_sub X Y Z), f32_widths_r1cs.1]
  exact C41_sub_of_dvd (hp 4 width4) (by decide) (by decide) X Y Z st

/-- **C41** `F32UnaryCircuit` with `Sqrt` under R1CS and PLONK. -/
theorem C41_f32_sqrt (hp : GoodField p f32) (be : Backend) (X Y : ZMod p) (st : Bool) :
    Accepts be st 0 f32.pow2Size (unaryCircuit f32 (fSqrt f32) X Y) () ↔
      IsPattern f32 X ∧ IsPattern f32 Y ∧ Ieee.Sqrt ⟨8, 23⟩ (datumOf f32 X) (datumOf f32 Y) := by
  rw [accepts_iff (shape_unary shape_sqrt X Y)]
  have hw : baseLength be 0 ((newFloatShape f32 ++ newFloatShape f32 ++ sqrtShape f32).map Prod.fst) = 4 := by
    cases be
    · exact f32_widths_r1cs.2.2.1
    · exact f32_widths_scs.1
    · exact f32_widths_r1cs.2.2.1
  rw [hw]
  exact C41_sqrt_of_dvd (hp 4 width4) (by decide) (by decide) X Y st

/-- **C41** `F32UnaryCircuit` with `Trunc`, `Floor`, `Ceil` under R1CS and PLONK. -/
theorem C41_f32_integral (hp : GoodField p f32) (be : Backend) (X Y : ZMod p) (st : Bool) :
    (Accepts be st 0 f32.pow2Size (unaryCircuit f32 (fTrunc f32) X Y) () ↔ IsPattern f32 X ∧ IsPattern f32 Y ∧
      (Ieee.Integral Ieee.truncZ (datumOf f32 X) (datumOf f32 Y) ∨ IntException (fun _ => 0) (datumOf f32 X) (datumOf f32 Y))) ∧
    (Accepts be st 0 f32.pow2Size (unaryCircuit f32 (fFloor f32) X Y) () ↔ IsPattern f32 X ∧ IsPattern f32 Y ∧
      (Ieee.Integral (fun v => ⌊v⌋) (datumOf f32 X) (datumOf f32 Y) ∨
        IntException (fun s => if s then 1 else 0) (datumOf f32 X) (datumOf f32 Y))) ∧
    (Accepts be st 0 f32.pow2Size (unaryCircuit f32 (fCeil f32) X Y) () ↔ IsPattern f32 X ∧ IsPattern f32 Y ∧
      (Ieee.Integral (fun v => ⌈v⌉) (datumOf f32 X) (datumOf f32 Y) ∨
        IntException (fun s => if s then 0 else 1) (datumOf f32 X) (datumOf f32 Y))) := by
  have hw : baseLength be 0 ((newFloatShape f32 ++ newFloatShape f32 ++ truncShape f32).map Prod.fst) = 4 := by
    cases be
    · exact f32_widths_r1cs.2.2.2.1
    · exact f32_widths_scs.2.1
    · exact f32_widths_r1cs.2.2.2.1
  rw [accepts_iff (shape_unary shape_trunc X Y), accepts_iff (shape_unary shape_floor X Y), accepts_iff (shape_unary shape_ceil X Y), hw]
  exact ⟨C41_trunc_of_dvd (hp 4 width4) (by decide) (by decide) X Y st,
    C41_floor_of_dvd (hp 4 width4) (by decide) (by decide) X Y st, C41_ceil_of_dvd (hp 4 width4) (by decide) (by decide) X Y st⟩

/-- **C41** `F32ConversionCircuit` with `Trunc`, `Floor`, `Ceil` under R1CS and PLONK. -/
theorem C41_f32_conversion (hp : GoodField p f32) (be : Backend) (X Y : ZMod p) (st : Bool) :
    (Accepts be st 0 f32.pow2Size (conversionCircuit f32 (fTrunc f32) X Y) () ↔ IsPattern f32 X ∧ ∃ (s : Bool) (n : ℕ), n < 2 ^ 32 ∧
      (Ieee.Integral Ieee.truncZ (datumOf f32 X) (.fin s n) ∨ IntException (fun _ => 0) (datumOf f32 X) (.fin s n)) ∧
      Y = signedNat s n) ∧
    (Accepts be st 0 f32.pow2Size (conversionCircuit f32 (fFloor f32) X Y) () ↔ IsPattern f32 X ∧ ∃ (s : Bool) (n : ℕ), n < 2 ^ 32 ∧
      (Ieee.Integral (fun v => ⌊v⌋) (datumOf f32 X) (.fin s n) ∨
        IntException (fun s => if s then 1 else 0) (datumOf f32 X) (.fin s n)) ∧ Y = signedNat s n) ∧
    (Accepts be st 0 f32.pow2Size (conversionCircuit f32 (fCeil f32) X Y) () ↔ IsPattern f32 X ∧ ∃ (s : Bool) (n : ℕ), n < 2 ^ 32 ∧
      (Ieee.Integral (fun v => ⌈v⌉) (datumOf f32 X) (.fin s n) ∨
        IntException (fun s => if s then 0 else 1) (datumOf f32 X) (.fin s n)) ∧ Y = signedNat s n) := by
  have hw : baseLength be 0 ((newFloatShape f32 ++ truncShape f32 ++ [(f32.pow2Size, Mode.loose)]).map Prod.fst) = 4 := by
    cases be
    · exact f32_widths_r1cs.2.2.2.2
    · exact f32_widths_scs.2.2
    · exact f32_widths_r1cs.2.2.2.2
  rw [accepts_iff (shape_conversion shape_trunc X Y), accepts_iff (shape_conversion shape_floor X Y),
    accepts_iff (shape_conversion shape_ceil X Y), hw]
  exact ⟨C41_conversion_trunc_of_dvd (hp 4 width4) (by decide) (by decide) (by decide) X Y st,
    C41_conversion_floor_of_dvd (hp 4 width4) (by decide) (by decide) (by decide) X Y st,
    C41_conversion_ceil_of_dvd (hp 4 width4) (by decide) (by decide) (by decide) X Y st⟩

/-! ### Concrete cases

Single precision over the BN254 scalar field, patterns of 2.5, 4, 10, ...; the circuit is evaluated, and the theorem says what its acceptance means. -/

/-- `C41_mul_of_dvd`: 2.5 · 4 = 10 is accepted, so the datum of the third pattern is the product. -/
example : Ieee.Mul ⟨8, 23⟩ (datumOf f32 (0x40200000 : ZMod bn254)) (datumOf f32 (0x40800000 : ZMod bn254)) (datumOf f32 (0x41200000 : ZMod bn254)) :=
  ((C41_mul_of_dvd good8 (by decide) (by decide) (0x40200000 : ZMod bn254) 0x40800000 0x41200000 true).1 (Circ.sat_of_run _ _ (by decide +kernel))).2.2.2

/-- `C41_div_of_dvd`: 2.5 / 4 = 0.625. -/
example : Ieee.Div ⟨8, 23⟩ (datumOf f32 (0x40200000 : ZMod bn254)) (datumOf f32 (0x40800000 : ZMod bn254)) (datumOf f32 (0x3F200000 : ZMod bn254)) :=
  ((C41_div_of_dvd good8 (by decide) (by decide) (0x40200000 : ZMod bn254) 0x40800000 0x3F200000 true).1 (Circ.sat_of_run _ _ (by decide +kernel))).2.2.2

/-- `C41_sqrt_of_dvd`: √2 rounded. -/
example : Ieee.Sqrt ⟨8, 23⟩ (datumOf f32 (0x40000000 : ZMod bn254)) (datumOf f32 (0x3FB504F3 : ZMod bn254)) :=
  ((C41_sqrt_of_dvd good8 (by decide) (by decide) (0x40000000 : ZMod bn254) 0x3FB504F3 true).1 (Circ.sat_of_run _ _ (by decide +kernel))).2.2

/-- `C41_add_of_dvd`: 2.5 + 4 = 6.5. -/
example : (binaryCircuit f32 (fAdd f32) (0x40200000 : ZMod bn254) 0x40800000 0x40D00000).Sat 8 true () ∧
    (Ieee.Add ⟨8, 23⟩ (datumOf f32 (0x40200000 : ZMod bn254)) (datumOf f32 (0x40800000 : ZMod bn254)) (datumOf f32 (0x40D00000 : ZMod bn254)) ∨
      AddException f32 (datumOf f32 (0x40200000 : ZMod bn254)) (datumOf f32 (0x40800000 : ZMod bn254)) (datumOf f32 (0x40D00000 : ZMod bn254))) :=
  have h := Circ.sat_of_run (st := true) (b := 8) (binaryCircuit f32 (fAdd f32) (0x40200000 : ZMod bn254) 0x40800000 0x40D00000) () (by decide +kernel)
  ⟨h, ((C41_add_of_dvd good8 (by decide) (by decide) _ _ _ true).1 h).2.2.2⟩

/-- `C41_sub_of_dvd`: 2.5 - 4 = -1.5. -/
example : (binaryCircuit f32 (fSub f32) (0x40200000 : ZMod bn254) 0x40800000 0xBFC00000).Sat 8 true () ∧
    (Ieee.Sub ⟨8, 23⟩ (datumOf f32 (0x40200000 : ZMod bn254)) (datumOf f32 (0x40800000 : ZMod bn254)) (datumOf f32 (0xBFC00000 : ZMod bn254)) ∨
      AddException f32 (datumOf f32 (0x40200000 : ZMod bn254)) (datumOf f32 (0x40800000 : ZMod bn254)).neg (datumOf f32 (0xBFC00000 : ZMod bn254))) :=
  have h := Circ.sat_of_run (st := true) (b := 8) (binaryCircuit f32 (fSub f32) (0x40200000 : ZMod bn254) 0x40800000 0xBFC00000) () (by decide +kernel)
  ⟨h, ((C41_sub_of_dvd good8 (by decide) (by decide) _ _ _ true).1 h).2.2.2⟩

/-- `C41_honest`: -2.5 / 4 = -0.625 and ⌊-2.5⌋ = -3 at width 9; and what is not the quotient is not accepted. -/
example : Ieee.Div ⟨8, 23⟩ (datumOf f32 (0xC0200000 : ZMod bn254)) (datumOf f32 (0x40800000 : ZMod bn254)) (datumOf f32 (0xBF200000 : ZMod bn254)) ∧
    Ieee.Integral (fun v => ⌊v⌋) (datumOf f32 (0xC0200000 : ZMod bn254)) (datumOf f32 (0xC0400000 : ZMod bn254)) ∧
    ¬ Ieee.Div ⟨8, 23⟩ (datumOf f32 (0xC0200000 : ZMod bn254)) (datumOf f32 (0x40800000 : ZMod bn254)) (datumOf f32 (0x3F200000 : ZMod bn254)) := by
  have G : Good bn254 9 f32 := goodField_bn254.1 9 ⟨by norm_num, by norm_num⟩
  refine ⟨((C41_honest G (by decide) _ _ _).2.1.1 (by decide +kernel)).2.2.2, ((C41_honest G (by decide) _ _ 0).2.2.2.2.1.1 (by decide +kernel)).2.2, fun h => ?_⟩
  have := (C41_honest G (by decide) _ _ _).2.1.2 ⟨by unfold IsPattern; decide +kernel, by unfold IsPattern; decide +kernel, by unfold IsPattern; decide +kernel, h⟩
  revert this; decide +kernel

/-- `C41_honest_add`: both branches occur, 2.5 + 4 = 6.5, and for 2^127 and its negative the honest prover is accepted with +Inf only. -/
example : ¬ TopCancel f32 (datumOf f32 (0x40200000 : ZMod bn254)) (datumOf f32 (0x40800000 : ZMod bn254)) ∧
    TopCancel f32 (datumOf f32 (0x7F000000 : ZMod bn254)) (datumOf f32 (0xFF000000 : ZMod bn254)) := by
  constructor
  · rcases ((C41_honest_add good8 (by decide) (0x40200000 : ZMod bn254) 0x40800000 0x40D00000).1 (by decide +kernel)).2.2.2 with h | h
    · exact h.1
    · have h2 : (binaryCircuit f32 (fAdd f32) (0x40200000 : ZMod bn254) 0x40800000 0x7F800000).run 8 = some () := by
        rw [C41_honest_add good8 (by decide)]
        refine ⟨by unfold IsPattern; decide +kernel, by unfold IsPattern; decide +kernel, by unfold IsPattern; decide +kernel, Or.inr ⟨h.1, ?_⟩⟩
        unfold datumOf
        rw [show ((0x7F800000 : ZMod bn254)).val = 0x7F800000 by decide +kernel]
        unfold Ieee.decodeBits; norm_num [f32]; decide
      exact absurd h2 (by decide +kernel)
  · rcases ((C41_honest_add good8 (by decide) (0x7F000000 : ZMod bn254) 0xFF000000 0x7F800000).1 (by decide +kernel)).2.2.2 with h | h
    · exfalso
      have h0 : datumOf f32 (0x7F800000 : ZMod bn254) = .inf false := by
        unfold datumOf
        rw [show ((0x7F800000 : ZMod bn254)).val = 0x7F800000 by decide +kernel]
        unfold Ieee.decodeBits; norm_num [f32]; decide
      have h1 : datumOf f32 (0x7F000000 : ZMod bn254) = .fin false (2 ^ 127) := by
        unfold datumOf
        rw [show ((0x7F000000 : ZMod bn254)).val = 0x7F000000 by decide +kernel]
        unfold Ieee.decodeBits; norm_num [f32, Ieee.Format.bias]; decide
      have h2 : datumOf f32 (0xFF000000 : ZMod bn254) = .fin true (2 ^ 127) := by
        unfold datumOf
        rw [show ((0xFF000000 : ZMod bn254)).val = 0xFF000000 by decide +kernel]
        unfold Ieee.decodeBits; norm_num [f32, Ieee.Format.bias]; decide
      have h3 := h.2
      rw [h0, h1, h2] at h3
      have := h3.1 (by simp [Ieee.signed])
      cases this
    · exact h.1

/-- `C41_trunc_of_dvd`, `C41_floor_of_dvd`, `C41_ceil_of_dvd`: -2.5 to -2, -3 and -2. -/
example : (unaryCircuit f32 (fTrunc f32) (0xC0200000 : ZMod bn254) 0xC0000000).Sat 8 true () ∧
    (unaryCircuit f32 (fFloor f32) (0xC0200000 : ZMod bn254) 0xC0400000).Sat 8 true () ∧
    (unaryCircuit f32 (fCeil f32) (0xC0200000 : ZMod bn254) 0xC0000000).Sat 8 true () :=
  ⟨Circ.sat_of_run _ _ (by decide +kernel), Circ.sat_of_run _ _ (by decide +kernel), Circ.sat_of_run _ _ (by decide +kernel)⟩

/-- `C41_comparison`: -4 < 2.5, in every prover's view. -/
example : Ieee.Lt (datumOf f32 (0xC0800000 : ZMod bn254)) (datumOf f32 (0x40200000 : ZMod bn254)) := by
  have h := ((C41_comparison good8 (by decide) (0xC0800000 : ZMod bn254) 0x40200000 1 true).1.1 (Circ.sat_of_run _ _ (by decide +kernel))).2.2
  by_contra hn
  simp [wireOf, hn] at h

/-- `C41_allocation`: the pattern of -2.5 against the constant -2.5, and 2.5 is refused. -/
example : (allocationCircuit f32 (0xC0200000 : ZMod bn254) 0xC0200000).Sat 8 true () ∧ ¬ (allocationCircuit f32 (0x40200000 : ZMod bn254) 0xC0200000).Sat 8 true () := by
  refine ⟨Circ.sat_of_run _ _ (by decide +kernel), fun h => ?_⟩
  have h1 := ((C41_allocation good8 (by decide) _ (by decide) true).1 h).2
  unfold datumOf at h1
  rw [show ((0x40200000 : ZMod bn254)).val = 0x40200000 by decide +kernel] at h1
  have : (Ieee.decodeBits ⟨8, 23⟩ 0x40200000) = Ieee.decodeBits ⟨8, 23⟩ 0xC0200000 := h1
  unfold Ieee.decodeBits at this
  norm_num [Ieee.Format.bias] at this
  exact absurd this (by decide)

/-- `C41_conversion_*_of_dvd`: -2.5 to the field elements -2, -3 and -2. -/
example : (conversionCircuit f32 (fTrunc f32) (0xC0200000 : ZMod bn254) (-2)).Sat 8 true () ∧
    (conversionCircuit f32 (fFloor f32) (0xC0200000 : ZMod bn254) (-3)).Sat 8 true () ∧
    (conversionCircuit f32 (fCeil f32) (0xC0200000 : ZMod bn254) (-2)).Sat 8 true () ∧ ((f32.pow2Size : ℤ) ≤ 2 ^ (f32.E - 1)) :=
  ⟨Circ.sat_of_run _ _ (by decide +kernel), Circ.sat_of_run _ _ (by decide +kernel), Circ.sat_of_run _ _ (by decide +kernel), by decide⟩

/-- The complete constraint systems of the first back-end: 2.5 · 4 = 10 is accepted and 2.5 · 4 = 9 is not. -/
example : Accepts .r1cs true 0 f32.pow2Size (binaryCircuit f32 (fMul f32) (0x40200000 : ZMod bn254) 0x40800000 0x41200000) () ∧
    ¬ Accepts .r1cs true 0 f32.pow2Size (binaryCircuit f32 (fMul f32) (0x40200000 : ZMod bn254) 0x40800000 0x41100000) () := by
  rw [C41_f32_mul_r1cs goodField_bn254.1, C41_f32_mul_r1cs goodField_bn254.1]
  refine ⟨(C41_honest good8 (by decide) _ _ _).1.1 (by decide +kernel), fun h => ?_⟩
  have := (C41_honest good8 (by decide) _ _ _).1.2 h
  revert this; decide +kernel

/-- `C41_f32_sqrt`, every back-end: √2. -/
example (be : Backend) : Accepts be true 0 f32.pow2Size (unaryCircuit f32 (fSqrt f32) (0x40000000 : ZMod bn254) 0x3FB504F3) () :=
  (C41_f32_sqrt goodField_bn254.1 be _ _ _).2 ((C41_honest good8 (by decide) _ _ 0).2.2.1.1 (by decide +kernel))

/-- `C41_f32_integral`, every back-end: ⌊-2.5⌋ = -3. -/
example (be : Backend) : Accepts be true 0 f32.pow2Size (unaryCircuit f32 (fFloor f32) (0xC0200000 : ZMod bn254) 0xC0400000) () := by
  have h := (C41_honest good8 (by decide) (0xC0200000 : ZMod bn254) 0xC0400000 0).2.2.2.2.1.1 (by decide +kernel)
  exact (C41_f32_integral goodField_bn254.1 be _ _ _).2.1.2 ⟨h.1, h.2.1, Or.inl h.2.2⟩

end ZkLoc
