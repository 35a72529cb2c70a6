import Verif.Props.Forgery
import Verif.AnyWidth

/-!
# Properties C16, C17, C19, C21, C23, C26 and C41 at every table width

The soundness theorems of `Props/Arith`, `Props/Integer` and the first part of `Props/Circuits` suppose that the table width
divides the size `M + E + 1` of the power-of-two lookup. The widths that the code selects by itself need not (6 for the
double-precision circuits, with size 64). Here the same for every width: for `Add`, `Sub`, `Sqrt` and `Trunc` a dishonest lookup answer
leads only to a record that equals no allocated float, so the circuits of the test suite accept the same claims at every width.
For `Mul` and `Div` it can lead to a zero or NaN, and that is all (`Props/Forgery` shows it happens).
-/

namespace ZkLoc

open Ieee (Datum)

variable {p b : ℕ} [Fact p.Prime] {f : Fmt}

/-! ### Operations -/

/-- **C23** At every table width every prover obtains the wires of the honest prover, or a record with vanished significand. -/
theorem C23_sqrt_every_width (G : Good p b f) {x r : FloatVar p} {dx : Datum} (ex : Encodes f x dx) {st : Bool}
    (hr : (fSqrt f x).Sat b st r) : (fSqrt f x).run b = some r ∨ Vanished f r := by
  obtain ⟨x, hx, rfl, rfl⟩ := encodes_iff.1 ex
  have h := fSqrt_spec_any (p := p) (b := b) (H := True) G (hx.bdd G)
  rw [h.run, Option.some.injEq]
  rcases (h.sat trivial st r).1 hr with rfl | ⟨h1, rfl⟩
  · exact Or.inl rfl
  · rcases sqrt_forged (p := p) G hx h1 with h2 | h2
    · left; rw [h2]
    · exact Or.inr h2

/-- **C23** No choice at all, also at widths not dividing `M + E + 1`, as long as a dishonest lookup answer exceeds the
significand of `M + 3` bits. -/
theorem C23_sqrt_deterministic (G : Good p b f) (hn : NarrowSlack b f.pow2Size (f.M + 3)) {x r : FloatVar p} {dx : Datum}
    (ex : Encodes f x dx) {st : Bool} : (fSqrt f x).Sat b st r ↔ (fSqrt f x).run b = some r := by
  refine ⟨fun hr => ?_, Circ.sat_of_run _ _⟩
  obtain ⟨x, hx, rfl, rfl⟩ := encodes_iff.1 ex
  have h := fSqrt_spec_any (p := p) (b := b) (H := True) G (hx.bdd G)
  rw [h.run, Option.some.injEq]
  rcases (h.sat trivial st r).1 hr with rfl | ⟨h1, rfl⟩
  · rfl
  · by_cases hN : sqrtN f x = 0
    · rw [sqrtZ_eq, hN, rnd_zero]
    · refine absurd h1 (RoundForge.not_narrow hn ?_ hN)
      have hm := (hx.bdd G).man
      unfold sqrtN sqrtM
      rw [Nat.sqrt_lt', ← pow_mul]
      have h2 : x.man * 2 ^ (f.M + 4) < 2 ^ (2 * f.M + 5) := by
        rw [show 2 * f.M + 5 = (f.M + 1) + (f.M + 4) by omega, pow_add 2 (f.M + 1)]
        exact Nat.mul_lt_mul_of_pos_right hm (by positivity)
      have h3 : 2 ^ ((f.M + 3) * 2) = 2 * 2 ^ (2 * f.M + 5) := by rw [← pow_succ']; congr 1; omega
      split <;> omega

/-- The condition holds for the automatic widths of the double-precision square root. -/
theorem narrow_f64 : NarrowSlack 5 f64.pow2Size (f64.M + 3) ∧ NarrowSlack 6 f64.pow2Size (f64.M + 3) := by
  have h5 : slack 5 f64.pow2Size = 1 := by decide
  have h6 : slack 6 f64.pow2Size = 2 := by decide
  constructor
  · intro t h0 h1 _
    rw [h5] at h1
    interval_cases t
    decide
  · intro t h0 h1 _
    rw [h6] at h1
    interval_cases t <;> decide

/-- **C16** At every table width, on top of the outcomes of `C16_add_sound_partial` only a record with vanished significand
can be obtained. -/
theorem C16_add_every_width (G : Good p b f) (hE : 5 ≤ f.E) (hp : 2 ^ (3 * f.M + 2 * f.E + 6 + 3 * b) ≤ p)
    {x y r : FloatVar p} {dx dy : Datum} (ex : Encodes f x dx) (ey : Encodes f y dy) {st : Bool} (hr : (fAdd f x y).Sat b st r) :
    Vanished f r ∨ (∃ d, Encodes f r d ∧ Ieee.Add ⟨f.E, f.M⟩ dx dy d) ∨
    (∃ s t a, dx = .fin s a ∧ dy = .fin t a ∧ s ≠ t ∧ Encodes f r (.fin true 0)) ∨
    (TopCancel f dx dy ∧ ∃ s, Encodes f r (.inf s)) ∨
    (∃ s a t c, dx = .fin s a ∧ dy = .fin t c ∧ Ieee.signed s a + Ieee.signed t c ≠ 0 ∧
      Overflowed f (decide (Ieee.signed s a + Ieee.signed t c < 0)) |Ieee.signed s a + Ieee.signed t c| r) := by
  obtain ⟨x, hx, rfl, rfl⟩ := encodes_iff.1 ex
  obtain ⟨y, hy, rfl, rfl⟩ := encodes_iff.1 ey
  rcases (add_any G ⟨hE, hp⟩ hx hy).2 hr with ⟨c1, c2, h⟩ | h
  · exact Or.inr (add_outcome_sound G hx hy c1 c2 h)
  · exact Or.inl h

/-- **C16** Those outcomes (for finite operands) can be obtained at every width. -/
theorem C16_add_every_width_reachable (G : Good p b f) (hE : 5 ≤ f.E) (hp : 2 ^ (3 * f.M + 2 * f.E + 6 + 3 * b) ≤ p)
    {x y r : FloatVar p} {s t : Bool} {a c : ℝ} (ex : Encodes f x (.fin s a)) (ey : Encodes f y (.fin t c)) {st : Bool}
    (h : (fAdd f x y).run b = some r ∨ (a = c ∧ s ≠ t ∧ ∃ u, Encodes f r (.fin u 0)) ∨
      (TopCancel f (.fin s a) (.fin t c) ∧ ∃ u, Encodes f r (.inf u)) ∨
      (Ieee.signed s a + Ieee.signed t c ≠ 0 ∧
        Overflowed f (decide (Ieee.signed s a + Ieee.signed t c < 0)) |Ieee.signed s a + Ieee.signed t c| r)) :
    (fAdd f x y).Sat b st r := by
  obtain ⟨x, hx, hdx, rfl⟩ := encodes_iff.1 ex
  obtain ⟨y, hy, hdy, rfl⟩ := encodes_iff.1 ey
  obtain ⟨ha, rfl, rfl⟩ := datum_fin_iff.1 hdx
  obtain ⟨hb', rfl, rfl⟩ := datum_fin_iff.1 hdy
  have hs := fAdd_spec_any (p := p) (b := b) (H := True) G (hx.bdd G) (hy.bdd G) hx.man_cases hy.man_cases (abn_of_eMax G hx hy)
    hE hp
  rw [hs.run, Option.some.injEq] at h
  exact (add_any G ⟨hE, hp⟩ hx hy).1 ((add_outcome_exact G hx hy ha hb').2 h)

/-- **C17** The same for subtraction. -/
theorem C17_sub_every_width (G : Good p b f) (hE : 5 ≤ f.E) (hp : 2 ^ (3 * f.M + 2 * f.E + 6 + 3 * b) ≤ p)
    {x y r : FloatVar p} {dx dy : Datum} (ex : Encodes f x dx) (ey : Encodes f y dy) {st : Bool} (hr : (fSub f x y).Sat b st r) :
    Vanished f r ∨ (∃ d, Encodes f r d ∧ Ieee.Sub ⟨f.E, f.M⟩ dx dy d) ∨
    (∃ s a, dx = .fin s a ∧ dy = .fin s a ∧ Encodes f r (.fin true 0)) ∨
    (TopCancel f dx dy.neg ∧ ∃ s, Encodes f r (.inf s)) ∨
    (∃ s a t c, dx = .fin s a ∧ dy = .fin t c ∧ Ieee.signed s a - Ieee.signed t c ≠ 0 ∧
      Overflowed f (decide (Ieee.signed s a - Ieee.signed t c < 0)) |Ieee.signed s a - Ieee.signed t c| r) := by
  rcases C16_add_every_width G hE hp ex (encodes_neg ey) hr with h | ⟨d, h1, h2⟩ | ⟨s, t, a, h1, h2, h3, h4⟩ | h |
    ⟨s, a, t, c, h1, h2, h3⟩
  · exact Or.inl h
  · exact Or.inr (Or.inl ⟨d, h1, sub_iff_add_neg.2 h2⟩)
  · refine Or.inr (Or.inr (Or.inl ⟨s, a, h1, ?_, h4⟩))
    rw [← datum_neg_neg dy, h2]
    cases s <;> cases t <;> simp_all [Datum.neg]
  · exact Or.inr (Or.inr (Or.inr (Or.inl h)))
  · refine Or.inr (Or.inr (Or.inr (Or.inr ⟨s, a, !t, c, h1, ?_, ?_⟩)))
    · rw [← datum_neg_neg dy, h2]; rfl
    · rw [show Ieee.signed s a - Ieee.signed (!t) c = Ieee.signed s a + Ieee.signed t c by cases t <;> simp [Ieee.signed, sub_eq_add_neg]]
      exact h3

/-- **C19** At every table width every prover obtains the IEEE product, an overflow left as a malformed record, a NaN, or (from
operands that are numbers) a zero with the product's sign. -/
theorem C19_mul_every_width (G : Good p b f) (hp : 2 ^ (4 * f.M + f.E + 5 + 3 * (b - 1)) ≤ p)
    {x y r : FloatVar p} {dx dy : Datum} (ex : Encodes f x dx) (ey : Encodes f y dy) {st : Bool} (hr : (fMul f x y).Sat b st r) :
    (∃ d, Encodes f r d ∧ Ieee.Mul ⟨f.E, f.M⟩ dx dy d) ∨
    (∃ s a t c, dx = .fin s a ∧ dy = .fin t c ∧ Overflowed f (xor s t) (a * c) r) ∨
    Encodes f r .nan ∨ (∃ s a t c, dx = .fin s a ∧ dy = .fin t c ∧ Encodes f r (.fin (xor s t) 0)) := by
  obtain ⟨x, hx, rfl, rfl⟩ := encodes_iff.1 ex
  obtain ⟨y, hy, rfl, rfl⟩ := encodes_iff.1 ey
  obtain ⟨h1, h2, h3⟩ := mulZ_correct G hx hy
  rcases ((fMul_spec_any (H := True) G (hx.bdd G) (hy.bdd G) hp).sat trivial st r).1 hr with ⟨c, rfl⟩ | ⟨-, c, rfl⟩
  · have hgood : ∃ d, Encodes f ((mulZ f x y true).toVar : FloatVar p) d ∧ Ieee.Mul ⟨f.E, f.M⟩ (x.datum f) (y.datum f) d :=
      ⟨_, encodes_iff.2 ⟨_, h1, rfl, rfl⟩, h2⟩
    cases c with
    | true => exact Or.inl hgood
    | false =>
      rcases h3 with ⟨h3, _⟩ | ⟨ha, hb', h3⟩
      · rw [h3]; exact Or.inl hgood
      · exact Or.inr (Or.inl ⟨x.sign, x.mag f, y.sign, y.mag f, datum_fin ha, datum_fin hb', overflowed_of_pseudo h3⟩)
  · rcases mul_forged (p := p) G hx hy c with h | ⟨ha, hb', h⟩
    · exact Or.inr (Or.inr (Or.inl h))
    · exact Or.inr (Or.inr (Or.inr ⟨_, _, _, _, datum_fin ha, datum_fin hb', h⟩))

/-- **C21** The same for division; a zero only from a dividend that is a number and a divisor that is neither zero nor NaN. -/
theorem C21_div_every_width (G : Good p b f) (hp : 2 ^ (3 * f.M + f.E + 6 + 3 * (b - 1)) ≤ p)
    {x y r : FloatVar p} {dx dy : Datum} (ex : Encodes f x dx) (ey : Encodes f y dy) {st : Bool} (hr : (fDiv f x y).Sat b st r) :
    (∃ d, Encodes f r d ∧ Ieee.Div ⟨f.E, f.M⟩ dx dy d) ∨
    (∃ s a t c, dx = .fin s a ∧ dy = .fin t c ∧ c ≠ 0 ∧ Overflowed f (xor s t) (a / c) r) ∨
    Encodes f r .nan ∨
    (∃ s a t, dx = .fin s a ∧ (dy = .inf t ∨ ∃ c, dy = .fin t c ∧ c ≠ 0) ∧ Encodes f r (.fin (xor s t) 0)) := by
  obtain ⟨x, hx, rfl, rfl⟩ := encodes_iff.1 ex
  obtain ⟨y, hy, rfl, rfl⟩ := encodes_iff.1 ey
  obtain ⟨h1, h2, h3⟩ := divZ_correct G hx hy
  have hmag : y.man ≠ 0 → y.mag f ≠ 0 := by
    unfold Flt.mag
    have : (2:ℝ) ^ (y.exp - (f.M:ℤ)) ≠ 0 := by positivity
    simp [this]
  rcases ((fDiv_spec_any (H := True) G (hx.bdd G) (hy.bdd G) hy.man_cases hp).sat trivial st r).1 hr with ⟨c, rfl⟩ | ⟨-, c, rfl⟩
  · have hgood : ∃ d, Encodes f ((divZ f x y true).toVar : FloatVar p) d ∧ Ieee.Div ⟨f.E, f.M⟩ (x.datum f) (y.datum f) d :=
      ⟨_, encodes_iff.2 ⟨_, h1, rfl, rfl⟩, h2⟩
    cases c with
    | true => exact Or.inl hgood
    | false =>
      rcases h3 with ⟨h3, _⟩ | ⟨ha, hb', hm, h3⟩
      · rw [h3]; exact Or.inl hgood
      · exact Or.inr (Or.inl ⟨x.sign, x.mag f, y.sign, y.mag f, datum_fin ha, datum_fin hb', hmag hm, overflowed_of_pseudo h3⟩)
  · rcases div_forged (p := p) G hx hy c with h | ⟨ha, hm, h⟩
    · exact Or.inr (Or.inr (Or.inl h))
    · refine Or.inr (Or.inr (Or.inr ⟨_, _, y.sign, datum_fin ha, ?_, h⟩))
      cases hya : y.abn
      · exact Or.inr ⟨_, datum_fin hya, hmag hm⟩
      · left; unfold Flt.datum; simp [hya, hm]

theorem trunc_any (G : Good p b f) (hp : 2 ^ (3 * f.M + f.E + 3 + 3 * b) ≤ p) {x r : FloatVar p} {dx : Datum}
    (ex : Encodes f x dx) {st : Bool} :
    (((fTrunc f x).run b = some r ∨ (∃ s a, dx = .fin s a ∧ 1 ≤ a ∧ a < 2 ∧ Encodes f r (.fin s 0))) → (fTrunc f x).Sat b st r) ∧
    ((fTrunc f x).Sat b st r → ((fTrunc f x).run b = some r ∨ (∃ s a, dx = .fin s a ∧ 1 ≤ a ∧ a < 2 ∧ Encodes f r (.fin s 0))) ∨
      Vanished f r) := by
  obtain ⟨x, hx, rfl, rfl⟩ := encodes_iff.1 ex
  have h := fTrunc_spec_any (p := p) (b := b) (H := True) G (hx.bdd G) hp
  rw [h.run, Option.some.injEq, ← trunc_outcome_exact G hx, h.sat trivial]
  constructor
  · rintro ⟨c, h1, h2, h3⟩; exact ⟨c, h1, h2, Or.inl h3⟩
  · rintro ⟨c, h1, h2, rfl | ⟨t, h3, h4, h5, h6, rfl⟩⟩
    · exact Or.inl ⟨c, h1, h2, rfl⟩
    · rcases trunc_forged (p := p) G hx h1 h2 h3 h5 h6 with h7 | h7
      · left; rw [h7]; exact ⟨c, h1, h2, rfl⟩
      · exact Or.inr h7

/-- **C26** What every prover can obtain from `Trunc` at every table width: the honest result, zero for `1 ≤ |x| < 2`, or a record
with vanished significand; the first two always. -/
theorem C26_trunc_every_width (G : Good p b f) (hp : 2 ^ (3 * f.M + f.E + 3 + 3 * b) ≤ p) {x r : FloatVar p} {dx : Datum}
    (ex : Encodes f x dx) {st : Bool} :
    (((fTrunc f x).run b = some r ∨ (∃ s a, dx = .fin s a ∧ 1 ≤ a ∧ a < 2 ∧ Encodes f r (.fin s 0))) → (fTrunc f x).Sat b st r) ∧
    ((fTrunc f x).Sat b st r → ((fTrunc f x).run b = some r ∨ (∃ s a, dx = .fin s a ∧ 1 ≤ a ∧ a < 2 ∧ Encodes f r (.fin s 0))) ∨
      Vanished f r) := trunc_any G hp ex

/-! ### Test circuits -/

theorem unary_sat_any (G : Good p b f) (h64 : 1 + f.E + f.M ≤ 64) {op : FloatVar p → Circ p (FloatVar p)}
    {R : Datum → Datum → Prop} {S : Datum → Datum → Prop} (huniq : ∀ {x d d'}, R x d → R x d' → d = d')
    (hrun : ∀ {x dx}, Encodes f x dx → ∃ r d, (op x).run b = some r ∧ Encodes f r d ∧ R dx d) {st : Bool}
    (hc : ∀ {x dx r}, Encodes f x dx → ((op x).run b = some r ∨ ∃ d, S dx d ∧ Encodes f r d) → (op x).Sat b st r)
    (hs : ∀ {x dx r}, Encodes f x dx → (op x).Sat b st r →
      ((op x).run b = some r ∨ ∃ d, S dx d ∧ Encodes f r d) ∨ Vanished f r) {X Y : ZMod p} :
    (unaryCircuit f op X Y).Sat b st () ↔
      IsPattern f X ∧ IsPattern f Y ∧ (R (datumOf f X) (datumOf f Y) ∨ S (datumOf f X) (datumOf f Y)) := by
  rw [unary_sat G h64]
  constructor
  · rintro ⟨h1, h2, r, h4, h5⟩
    have hY := wiresOf_encodes G h64 h2
    refine ⟨h1, h2, ?_⟩
    rcases hs (wiresOf_encodes G h64 h1) h4 with (h | ⟨d, h, h'⟩) | h
    · obtain ⟨r', d, h6, h7, h8⟩ := hrun (wiresOf_encodes G h64 h1)
      rw [h] at h6; cases h6
      left; rw [← ((C28_assertIsEqual G h7 hY).2 st).1 h5]; exact h8
    · right; rw [← ((C28_assertIsEqual G h' hY).2 st).1 h5]; exact h
    · exact absurd h5 (vanished_rejected G h hY)
  · rintro ⟨h1, h2, h4 | h4⟩
    · have hX := wiresOf_encodes G h64 h1
      have hY := wiresOf_encodes G h64 h2
      obtain ⟨r, d, h5, h6, h7⟩ := hrun hX
      exact ⟨h1, h2, r, hc hX (Or.inl h5), ((C28_assertIsEqual G h6 hY).2 st).2 (huniq h7 h4)⟩
    · have hX := wiresOf_encodes G h64 h1
      have hY := wiresOf_encodes G h64 h2
      exact ⟨h1, h2, _, hc hX (Or.inr ⟨_, h4, hY⟩), ((C28_assertIsEqual G hY hY).2 st).2 rfl⟩

/-- **C41** Square root, every table width: the circuit accepts exactly the IEEE square root. -/
theorem C41_sqrt (G : Good p b f) (h64 : 1 + f.E + f.M ≤ 64) (X Y : ZMod p) (st : Bool) :
    (unaryCircuit f (fSqrt f) X Y).Sat b st () ↔
      IsPattern f X ∧ IsPattern f Y ∧ Ieee.Sqrt ⟨f.E, f.M⟩ (datumOf f X) (datumOf f Y) := by
  rw [unary_sat_any G h64 (R := Ieee.Sqrt ⟨f.E, f.M⟩) (S := fun _ _ => False) Ieee.Sqrt.unique
    (fun ex => C22_sqrt_complete G ex) (fun ex h => Circ.sat_of_run _ _ (by simpa using h))
    (fun ex h => by simpa using C23_sqrt_every_width G ex h)]
  simp

/-- **C41** Truncation, every table width. -/
theorem C41_trunc (G : Good p b f) (h64 : 1 + f.E + f.M ≤ 64) (hp : 2 ^ (3 * f.M + f.E + 3 + 3 * b) ≤ p) (X Y : ZMod p) (st : Bool) :
    (unaryCircuit f (fTrunc f) X Y).Sat b st () ↔ IsPattern f X ∧ IsPattern f Y ∧
      (Ieee.Integral Ieee.truncZ (datumOf f X) (datumOf f Y) ∨ IntException (fun _ => 0) (datumOf f X) (datumOf f Y)) := by
  have e : ∀ {dx : Datum} {r : FloatVar p}, (∃ d, IntException (fun _ => 0) dx d ∧ Encodes f r d) ↔
      (∃ s a, dx = .fin s a ∧ 1 ≤ a ∧ a < 2 ∧ Encodes f r (.fin s 0)) := by
    intro dx r; unfold IntException
    constructor
    · rintro ⟨_, ⟨s, a, h1, h2, h3, rfl⟩, h4⟩; exact ⟨s, a, h1, h2, h3, h4⟩
    · rintro ⟨s, a, h1, h2, h3, h4⟩; exact ⟨_, ⟨s, a, h1, h2, h3, rfl⟩, h4⟩
  refine unary_sat_any G h64 (R := Ieee.Integral Ieee.truncZ) (S := IntException (fun _ => 0)) Ieee.Integral.unique
    (fun ex => C26_trunc_complete G ex) (fun ex h => ?_) (fun ex h => ?_)
  · rw [e] at h; exact (trunc_any G hp ex).1 h
  · rw [e]; exact (trunc_any G hp ex).2 h

theorem add_circuit_any (G : Good p b f) (hE : 5 ≤ f.E) (hp : 2 ^ (3 * f.M + 2 * f.E + 6 + 3 * b) ≤ p)
    {x y z : FloatVar p} {dx dy dz : Datum} (eX : Encodes f x dx) (eY : Encodes f y dy) (eZ : Encodes f z dz) {st : Bool} :
    (∃ r, (fAdd f x y).Sat b st r ∧ (fAssertIsEqual r z).Sat b st ()) ↔
      (Ieee.Add ⟨f.E, f.M⟩ dx dy dz ∨ AddException f dx dy dz) := by
  refine add_circuit_core G eX eY eZ (fun hr => ?_) ?_
  · rcases C16_add_every_width G hE hp eX eY hr with h | h | h | h | ⟨s, a, t, c, _, _, _, h⟩
    · exact Or.inl h
    · exact Or.inr (Or.inl h)
    · exact Or.inr (Or.inr (Or.inl h))
    · exact Or.inr (Or.inr (Or.inr (Or.inl h)))
    · exact Or.inr (Or.inr (Or.inr (Or.inr ⟨_, _, h⟩)))
  · rintro s t a r rfl rfl hst (h | h)
    · exact C16_add_every_width_reachable G hE hp eX eY (Or.inr (Or.inl ⟨rfl, hst, h⟩))
    · exact C16_add_every_width_reachable G hE hp eX eY (Or.inr (Or.inr (Or.inl h)))

/-- **C41** Addition, every table width. -/
theorem C41_add (G : Good p b f) (h64 : 1 + f.E + f.M ≤ 64) (hE : 5 ≤ f.E) (hp : 2 ^ (3 * f.M + 2 * f.E + 6 + 3 * b) ≤ p)
    (X Y Z : ZMod p) (st : Bool) :
    (binaryCircuit f (fAdd f) X Y Z).Sat b st () ↔
      IsPattern f X ∧ IsPattern f Y ∧ IsPattern f Z ∧
        (Ieee.Add ⟨f.E, f.M⟩ (datumOf f X) (datumOf f Y) (datumOf f Z) ∨
          AddException f (datumOf f X) (datumOf f Y) (datumOf f Z)) := by
  rw [binary_sat G h64]
  refine and_congr_right fun h1 => and_congr_right fun h2 => and_congr_right fun h3 => ?_
  exact add_circuit_any G hE hp (wiresOf_encodes G h64 h1) (wiresOf_encodes G h64 h2) (wiresOf_encodes G h64 h3)

/-- **C41** Subtraction, every table width. -/
theorem C41_sub (G : Good p b f) (h64 : 1 + f.E + f.M ≤ 64) (hE : 5 ≤ f.E) (hp : 2 ^ (3 * f.M + 2 * f.E + 6 + 3 * b) ≤ p)
    (X Y Z : ZMod p) (st : Bool) :
    (binaryCircuit f (fSub f) X Y Z).Sat b st () ↔
      IsPattern f X ∧ IsPattern f Y ∧ IsPattern f Z ∧
        (Ieee.Sub ⟨f.E, f.M⟩ (datumOf f X) (datumOf f Y) (datumOf f Z) ∨
          AddException f (datumOf f X) (datumOf f Y).neg (datumOf f Z)) := by
  rw [binary_sat G h64]
  refine and_congr_right fun h1 => and_congr_right fun h2 => and_congr_right fun h3 => ?_
  rw [sub_iff_add_neg]
  exact add_circuit_any G hE hp (wiresOf_encodes G h64 h1) (encodes_neg (wiresOf_encodes G h64 h2)) (wiresOf_encodes G h64 h3)

/-- **C41** Multiplication and division, every table width: what is accepted beyond the IEEE result is a NaN, or a zero with the sign
of the result. -/
theorem C41_mul_div_bounded (G : Good p b f) (h64 : 1 + f.E + f.M ≤ 64) (hp : 2 ^ (4 * f.M + f.E + 5 + 3 * (b - 1)) ≤ p)
    (X Y Z : ZMod p) (st : Bool) :
    ((binaryCircuit f (fMul f) X Y Z).Sat b st () →
      IsPattern f X ∧ IsPattern f Y ∧ IsPattern f Z ∧
        (Ieee.Mul ⟨f.E, f.M⟩ (datumOf f X) (datumOf f Y) (datumOf f Z) ∨ datumOf f Z = .nan ∨
          ∃ s a t c, datumOf f X = .fin s a ∧ datumOf f Y = .fin t c ∧ datumOf f Z = .fin (xor s t) 0)) ∧
    ((binaryCircuit f (fDiv f) X Y Z).Sat b st () →
      IsPattern f X ∧ IsPattern f Y ∧ IsPattern f Z ∧
        (Ieee.Div ⟨f.E, f.M⟩ (datumOf f X) (datumOf f Y) (datumOf f Z) ∨ datumOf f Z = .nan ∨
          ∃ s a t, datumOf f X = .fin s a ∧ (datumOf f Y = .inf t ∨ ∃ c, datumOf f Y = .fin t c ∧ c ≠ 0) ∧
            datumOf f Z = .fin (xor s t) 0)) := by
  rw [binary_sat G h64, binary_sat G h64]
  have hM := G.hEM
  constructor
  · rintro ⟨h1, h2, h3, r, h4, h5⟩
    refine ⟨h1, h2, h3, ?_⟩
    have eZ := wiresOf_encodes G h64 h3
    rcases C19_mul_every_width G hp (wiresOf_encodes G h64 h1) (wiresOf_encodes G h64 h2) h4 with
      ⟨d, h6, h7⟩ | ⟨s, a, t, c, _, _, h6⟩ | h6 | ⟨s, a, t, c, h7, h8, h6⟩
    · left; rw [← ((C28_assertIsEqual G h6 eZ).2 st).1 h5]; exact h7
    · exact absurd h5 (overflowed_rejected G h6 eZ)
    · right; left; exact (((C28_assertIsEqual G h6 eZ).2 st).1 h5).symm
    · right; right; exact ⟨s, a, t, c, h7, h8, (((C28_assertIsEqual G h6 eZ).2 st).1 h5).symm⟩
  · rintro ⟨h1, h2, h3, r, h4, h5⟩
    refine ⟨h1, h2, h3, ?_⟩
    have eZ := wiresOf_encodes G h64 h3
    rcases C21_div_every_width G (le_trans (Nat.pow_le_pow_right (by norm_num) (by have := G.hE; omega)) hp)
        (wiresOf_encodes G h64 h1) (wiresOf_encodes G h64 h2) h4 with
      ⟨d, h6, h7⟩ | ⟨s, a, t, c, _, _, _, h6⟩ | h6 | ⟨s, a, t, h7, h8, h6⟩
    · left; rw [← ((C28_assertIsEqual G h6 eZ).2 st).1 h5]; exact h7
    · exact absurd h5 (overflowed_rejected G h6 eZ)
    · right; left; exact (((C28_assertIsEqual G h6 eZ).2 st).1 h5).symm
    · right; right; exact ⟨s, a, t, h7, h8, (((C28_assertIsEqual G h6 eZ).2 st).1 h5).symm⟩

/-! ### The complete constraint systems, automatic width, every back-end -/

theorem width_le6 {b : ℕ} (h : b = 4 ∨ b = 5 ∨ b = 6) : Width b := by rcases h with rfl | rfl | rfl <;> exact ⟨by norm_num, by norm_num⟩

/-- The automatic widths of the circuits below are 4, 5 or 6 under every back-end. -/
theorem widths_auto (be : Backend) :
    (∀ w, w = baseLength be 0 ((newFloatShape f32 ++ newFloatShape f32 ++ newFloatShape f32 ++ addShape f32).map Prod.fst) → w = 4 ∨ w = 5 ∨ w = 6) ∧
    (∀ w, w = baseLength be 0 ((newFloatShape f64 ++ newFloatShape f64 ++ newFloatShape f64 ++ addShape f64).map Prod.fst) → w = 4 ∨ w = 5 ∨ w = 6) ∧
    (∀ w, w = baseLength be 0 ((newFloatShape f64 ++ newFloatShape f64 ++ sqrtShape f64).map Prod.fst) → w = 4 ∨ w = 5 ∨ w = 6) ∧
    (∀ w, w = baseLength be 0 ((newFloatShape f64 ++ newFloatShape f64 ++ truncShape f64).map Prod.fst) → w = 4 ∨ w = 5 ∨ w = 6) := by
  simp only [forall_eq]
  cases be <;> decide +kernel

theorem goodField_pow64 (hp : GoodField p f64) : 2 ^ 250 ≤ p := (hp 4 width4).hp
theorem goodField_pow32 (hp : GoodField p f32) : 2 ^ 134 ≤ p := (hp 4 width4).hp

/-- **C41** `F32BinaryCircuit` with `Add` and `Sub`, every back-end. -/
theorem C41_f32_add_sub (hp : GoodField p f32) (be : Backend) (X Y Z : ZMod p) (st : Bool) :
    (Accepts be st 0 f32.pow2Size (binaryCircuit f32 (fAdd f32) X Y Z) () ↔
      IsPattern f32 X ∧ IsPattern f32 Y ∧ IsPattern f32 Z ∧
        (Ieee.Add ⟨8, 23⟩ (datumOf f32 X) (datumOf f32 Y) (datumOf f32 Z) ∨
          AddException f32 (datumOf f32 X) (datumOf f32 Y) (datumOf f32 Z))) ∧
    (Accepts be st 0 f32.pow2Size (binaryCircuit f32 (fSub f32) X Y Z) () ↔
      IsPattern f32 X ∧ IsPattern f32 Y ∧ IsPattern f32 Z ∧
        (Ieee.Sub ⟨8, 23⟩ (datumOf f32 X) (datumOf f32 Y) (datumOf f32 Z) ∨
          AddException f32 (datumOf f32 X) (datumOf f32 Y).neg (datumOf f32 Z))) := by
  rw [accepts_iff (shape_binary shape_add X Y Z), accepts_iff (shape_binary shape_sub X Y Z)]
  have hw := (widths_auto be).1 _ rfl
  generalize baseLength be 0 ((newFloatShape f32 ++ newFloatShape f32 ++ newFloatShape f32 ++ addShape f32).map Prod.fst) = w at *
  have hle : 2 ^ (3 * f32.M + 2 * f32.E + 6 + 3 * w) ≤ p := by
    refine le_trans (Nat.pow_le_pow_right (by norm_num) ?_) (goodField_pow32 hp)
    simp only [f32]; omega
  exact ⟨C41_add (hp w (width_le6 hw)) (by decide) (by decide) hle X Y Z st, C41_sub (hp w (width_le6 hw)) (by decide) (by decide) hle X Y Z st⟩

/-- **C41** `F64BinaryCircuit` with `Add` and `Sub`, every back-end. -/
theorem C41_f64_add_sub (hp : GoodField p f64) (be : Backend) (X Y Z : ZMod p) (st : Bool) :
    (Accepts be st 0 f64.pow2Size (binaryCircuit f64 (fAdd f64) X Y Z) () ↔
      IsPattern f64 X ∧ IsPattern f64 Y ∧ IsPattern f64 Z ∧
        (Ieee.Add ⟨11, 52⟩ (datumOf f64 X) (datumOf f64 Y) (datumOf f64 Z) ∨
          AddException f64 (datumOf f64 X) (datumOf f64 Y) (datumOf f64 Z))) ∧
    (Accepts be st 0 f64.pow2Size (binaryCircuit f64 (fSub f64) X Y Z) () ↔
      IsPattern f64 X ∧ IsPattern f64 Y ∧ IsPattern f64 Z ∧
        (Ieee.Sub ⟨11, 52⟩ (datumOf f64 X) (datumOf f64 Y) (datumOf f64 Z) ∨
          AddException f64 (datumOf f64 X) (datumOf f64 Y).neg (datumOf f64 Z))) := by
  rw [accepts_iff (shape_binary shape_add X Y Z), accepts_iff (shape_binary shape_sub X Y Z)]
  have hw := (widths_auto be).2.1 _ rfl
  generalize baseLength be 0 ((newFloatShape f64 ++ newFloatShape f64 ++ newFloatShape f64 ++ addShape f64).map Prod.fst) = w at *
  have hle : 2 ^ (3 * f64.M + 2 * f64.E + 6 + 3 * w) ≤ p := by
    refine le_trans (Nat.pow_le_pow_right (by norm_num) ?_) (goodField_pow64 hp)
    simp only [f64]; omega
  exact ⟨C41_add (hp w (width_le6 hw)) (by decide) (by decide) hle X Y Z st, C41_sub (hp w (width_le6 hw)) (by decide) (by decide) hle X Y Z st⟩

/-- **C41** `F64UnaryCircuit` with `Sqrt` and `Trunc`, every back-end. -/
theorem C41_f64_sqrt_trunc (hp : GoodField p f64) (be : Backend) (X Y : ZMod p) (st : Bool) :
    (Accepts be st 0 f64.pow2Size (unaryCircuit f64 (fSqrt f64) X Y) () ↔
      IsPattern f64 X ∧ IsPattern f64 Y ∧ Ieee.Sqrt ⟨11, 52⟩ (datumOf f64 X) (datumOf f64 Y)) ∧
    (Accepts be st 0 f64.pow2Size (unaryCircuit f64 (fTrunc f64) X Y) () ↔ IsPattern f64 X ∧ IsPattern f64 Y ∧
      (Ieee.Integral Ieee.truncZ (datumOf f64 X) (datumOf f64 Y) ∨ IntException (fun _ => 0) (datumOf f64 X) (datumOf f64 Y))) := by
  rw [accepts_iff (shape_unary shape_sqrt X Y), accepts_iff (shape_unary shape_trunc X Y)]
  have hw := (widths_auto be).2.2.1 _ rfl
  have hw' := (widths_auto be).2.2.2 _ rfl
  generalize baseLength be 0 ((newFloatShape f64 ++ newFloatShape f64 ++ sqrtShape f64).map Prod.fst) = w at *
  generalize baseLength be 0 ((newFloatShape f64 ++ newFloatShape f64 ++ truncShape f64).map Prod.fst) = w' at *
  have hle : 2 ^ (3 * f64.M + f64.E + 3 + 3 * w') ≤ p := by
    refine le_trans (Nat.pow_le_pow_right (by norm_num) ?_) (goodField_pow64 hp)
    simp only [f64]; omega
  exact ⟨C41_sqrt (hp w (width_le6 hw)) (by decide) X Y st, C41_trunc (hp w' (width_le6 hw')) (by decide) hle X Y st⟩

/-- The automatic widths for comparison and allocation are proper. -/
theorem widths_auto_cmp (be : Backend) :
    (∀ w, w = baseLength be 0 ((newFloatShape f32 ++ newFloatShape f32 ++ lessShape f32).map Prod.fst) → 3 ≤ w ∧ w ≤ 6) ∧
    (∀ w, w = baseLength be 0 ((newFloatShape f64 ++ newFloatShape f64 ++ lessShape f64).map Prod.fst) → 3 ≤ w ∧ w ≤ 6) ∧
    (∀ w, w = baseLength be 0 ((newFloatShape f32).map Prod.fst) → 3 ≤ w ∧ w ≤ 6) ∧
    (∀ w, w = baseLength be 0 ((newFloatShape f64).map Prod.fst) → 3 ≤ w ∧ w ≤ 6) := by
  simp only [forall_eq]
  cases be <;> decide +kernel

theorem accepts_of_shape {f : Fmt} (hf : GoodField p f) {be : Backend} {st : Bool} {c : Circ p Unit} {l : List (ℕ × Mode)} {q : ℕ}
    (hs : HasShape f.pow2Size c l q) (hw : ∀ w, w = baseLength be 0 (l.map Prod.fst) → 3 ≤ w ∧ w ≤ 6) {P : Prop}
    (h : ∀ w, Good p w f → (c.Sat w st () ↔ P)) : Accepts be st 0 f.pow2Size c () ↔ P := by
  rw [accepts_iff hs]
  have := hw _ rfl
  exact h _ (hf _ ⟨by omega, by omega⟩)

/-- **C41** The comparison circuits of both formats under every back-end: accepted exactly with the truth value of the IEEE relation. -/
theorem C41_comparison_auto (f : Fmt) (hf : f = f32 ∨ f = f64) (hp : GoodField p f) (be : Backend) (X Y Z : ZMod p) (st : Bool) :
    (Accepts be st 0 f.pow2Size (comparisonCircuit f (fIsLt f) X Y Z) () ↔
      IsPattern f X ∧ IsPattern f Y ∧ Z = wireOf (Ieee.Lt (datumOf f X) (datumOf f Y))) ∧
    (Accepts be st 0 f.pow2Size (comparisonCircuit f (fIsLe f) X Y Z) () ↔
      IsPattern f X ∧ IsPattern f Y ∧ Z = wireOf (Ieee.Le (datumOf f X) (datumOf f Y))) ∧
    (Accepts be st 0 f.pow2Size (comparisonCircuit f (fIsGt f) X Y Z) () ↔
      IsPattern f X ∧ IsPattern f Y ∧ Z = wireOf (Ieee.Lt (datumOf f Y) (datumOf f X))) ∧
    (Accepts be st 0 f.pow2Size (comparisonCircuit f (fIsGe f) X Y Z) () ↔
      IsPattern f X ∧ IsPattern f Y ∧ Z = wireOf (Ieee.Le (datumOf f Y) (datumOf f X))) := by
  have h64 : 1 + f.E + f.M ≤ 64 := by rcases hf with rfl | rfl <;> decide
  have hw : ∀ w, w = baseLength be 0 ((newFloatShape f ++ newFloatShape f ++ lessShape f).map Prod.fst) → 3 ≤ w ∧ w ≤ 6 := by
    rcases hf with rfl | rfl
    · exact (widths_auto_cmp be).1
    · exact (widths_auto_cmp be).2.1
  have hs : ∀ (a : ℕ) (op : FloatVar p → FloatVar p → Circ p (ZMod p)), (∀ x y, op x y = fLess f x y a ∨ op x y = fLess f y x a) →
      HasShape f.pow2Size (comparisonCircuit f op X Y Z) (newFloatShape f ++ newFloatShape f ++ lessShape f) (0 + 2) := by
    intro a op ho
    refine shape_comparison (fun x y => ?_) X Y Z
    rcases ho x y with h | h <;> rw [h] <;> exact shape_less _ _ _
  exact ⟨accepts_of_shape hp (hs 0 _ fun x y => Or.inl rfl) hw fun w G => (C41_comparison G h64 X Y Z st).1,
    accepts_of_shape hp (hs 1 _ fun x y => Or.inl rfl) hw fun w G => (C41_comparison G h64 X Y Z st).2.1,
    accepts_of_shape hp (hs 0 _ fun x y => Or.inr rfl) hw fun w G => (C41_comparison G h64 X Y Z st).2.2.1,
    accepts_of_shape hp (hs 1 _ fun x y => Or.inr rfl) hw fun w G => (C41_comparison G h64 X Y Z st).2.2.2⟩

/-- **C41** The allocation circuits of both formats under every back-end. -/
theorem C41_allocation_auto (f : Fmt) (hf : f = f32 ∨ f = f64) (hp : GoodField p f) (be : Backend) (X : ZMod p) {y : ℕ}
    (hy : y < 2 ^ (1 + f.E + f.M)) (st : Bool) :
    Accepts be st 0 f.pow2Size (allocationCircuit f X y) () ↔ IsPattern f X ∧ datumOf f X = Ieee.decodeBits ⟨f.E, f.M⟩ y := by
  have h64 : 1 + f.E + f.M ≤ 64 := by rcases hf with rfl | rfl <;> decide
  refine accepts_of_shape hp (shape_allocation X y) ?_ fun w G => C41_allocation G h64 X hy st
  rcases hf with rfl | rfl
  · exact (widths_auto_cmp be).2.2.1
  · exact (widths_auto_cmp be).2.2.2

/-! ### Concrete cases -/

/-- The hypotheses hold for binary64 over BN254 at width 6, which does not divide 64. -/
example : Good bn254 6 f64 ∧ 5 ≤ f64.E ∧ 2 ^ (3 * f64.M + 2 * f64.E + 6 + 3 * 6) ≤ bn254 ∧ 2 ^ (3 * f64.M + f64.E + 3 + 3 * 6) ≤ bn254 ∧
    2 ^ (4 * f64.M + f64.E + 5 + 3 * (6 - 1)) ≤ bn254 ∧ ¬ 6 ∣ f64.pow2Size :=
  ⟨good_bn254_f64 ⟨by norm_num, by norm_num⟩, by decide, by decide +kernel, by decide +kernel, by decide +kernel, by decide⟩

/-- `1.5 + 2.25 = 3.75` in binary64: accepted under every back-end, and `3.5` is not. -/
example : (binaryCircuit f64 (fAdd f64) (0x3ff8000000000000 : ZMod bn254) 0x4002000000000000 0x400e000000000000).run 6 = some () ∧
    (binaryCircuit f64 (fAdd f64) (0x3ff8000000000000 : ZMod bn254) 0x4002000000000000 0x400c000000000000).run 6 = none := by
  decide +kernel

/-- **C23, the vanished record is real.** Single precision with explicit width 12, as in /repo/float/float_constraints_test.go: a
prover can obtain a square root of `1.5625…` whose significand is zero. -/
theorem C23_sqrt_vanished_forgeable : ∃ r, (fSqrt f32 (w32 0x3FC80001)).Sat 12 true r ∧ Vanished f32 r ∧ ∀ d, ¬ Encodes f32 r d := by
  have G : Good bn254 12 f32 := good_bn254_f32 ⟨by norm_num, by norm_num⟩
  have hv := fltOf_valid (f := f32) (v := 0x3FC80001) (by decide) (by decide)
  have hF : SqrtForge 12 f32 (fltOf f32 0x3FC80001) := ⟨10, by decide, by decide, by decide, by decide +kernel⟩
  have hV : Vanished f32 ((sqrtFin f32 (fltOf f32 0x3FC80001) 0).toVar : FloatVar bn254) := by
    rcases sqrt_forged (p := bn254) G hv hF with h | h
    · exact absurd h (by decide +kernel)
    · exact h
  refine ⟨_, ?_, hV, fun d hd => ?_⟩
  · rw [w32_eq (by decide)]
    exact ((fSqrt_spec_any (H := True) G (hv.bdd G)).sat trivial true _).2 (Or.inr ⟨hF, rfl⟩)
  · exact vanished_rejected (b := 12) (st := true) G hV hd (((C28_assertIsEqual G hd hd).2 true).2 rfl)

/-! ### Concrete cases

Single precision over the BN254 scalar field at table width 9, which does not divide the size 32 of the lookup. -/

local instance decFloatVar : DecidableEq (FloatVar bn254) := fun _ _ => decidable_of_iff _ FloatVar.ext_iff.symm

theorem good9 : Good bn254 9 f32 := good_bn254_f32 ⟨by norm_num, by norm_num⟩

/-- `C16_add_every_width`, `C16_add_every_width_reachable`, `C17_sub_every_width`, `C19_mul_every_width`, `C21_div_every_width`: operands 2.5 and 4, which every operation accepts with the right
result, under the size condition on the field. -/
example : ¬ 9 ∣ f32.pow2Size ∧ 2 ^ (3 * f32.M + 2 * f32.E + 6 + 3 * 9) ≤ bn254 ∧ 2 ^ (4 * f32.M + f32.E + 5 + 3 * (9 - 1)) ≤ bn254 ∧
    (fAdd f32 (w32 0x40200000) (w32 0x40800000)).Sat 9 true (w32 0x40D00000) ∧ (fSub f32 (w32 0x40200000) (w32 0x40800000)).Sat 9 true (w32 0xBFC00000) ∧
    (fMul f32 (w32 0x40200000) (w32 0x40800000)).Sat 9 true (w32 0x41200000) ∧ (fDiv f32 (w32 0x40200000) (w32 0x40800000)).Sat 9 true (w32 0x3F200000) :=
  ⟨by decide, by decide +kernel, by decide +kernel, Circ.sat_of_run _ _ (by decide +kernel), Circ.sat_of_run _ _ (by decide +kernel),
    Circ.sat_of_run _ _ (by decide +kernel), Circ.sat_of_run _ _ (by decide +kernel)⟩

/-- A further outcome that `C19_mul_every_width` allows: the product of two numbers near 1.15 and 1.2 may be zero at width 5. -/
example : ∃ r : FloatVar bn254, (fMul f32 (w32 0x3f932524) (w32 0x3f99cb36)).Sat 5 true r ∧ (fMul f32 (w32 0x3f932524) (w32 0x3f99cb36)).run 5 ≠ some r ∧
    ((∃ d, Encodes f32 r d ∧ Ieee.Mul ⟨8, 23⟩ (Ieee.decodeBits ⟨8, 23⟩ 0x3f932524) (Ieee.decodeBits ⟨8, 23⟩ 0x3f99cb36) d) ∨
      (∃ s a t c, Ieee.decodeBits ⟨8, 23⟩ 0x3f932524 = .fin s a ∧ Ieee.decodeBits ⟨8, 23⟩ 0x3f99cb36 = .fin t c ∧ Overflowed f32 (xor s t) (a * c) r) ∨ Encodes f32 r .nan ∨
      (∃ s a t c, Ieee.decodeBits ⟨8, 23⟩ 0x3f932524 = .fin s a ∧ Ieee.decodeBits ⟨8, 23⟩ 0x3f99cb36 = .fin t c ∧ Encodes f32 r (.fin (xor s t) 0))) := by
  have h : (fMul f32 (w32 0x3f932524) (w32 0x3f99cb36)).Sat 5 true (w32 0) := Circ.sat_of_forge (vs := cheat 5 (16 + 2 ^ 34)) (by decide +kernel)
  exact ⟨w32 0, h, by decide +kernel,
    C19_mul_every_width (good_bn254_f32 ⟨by norm_num, by norm_num⟩) (by decide +kernel) (w32_encodes (by norm_num)) (w32_encodes (by norm_num)) h⟩

/-- `C23_sqrt_every_width`: √2 at width 9; `C23_sqrt_deterministic`: the condition holds at width 8, and in double precision at the widths 5 and 6 the code chooses. -/
example : (fSqrt f32 (w32 0x40000000)).Sat 9 true (w32 0x3FB504F3) ∧ NarrowSlack 8 f32.pow2Size (f32.M + 3) ∧
    NarrowSlack 5 f64.pow2Size (f64.M + 3) ∧ NarrowSlack 6 f64.pow2Size (f64.M + 3) :=
  ⟨Circ.sat_of_run _ _ (by decide +kernel), fun t h0 h1 => by rw [show slack 8 f32.pow2Size = 0 by decide] at h1; omega, narrow_f64.1, narrow_f64.2⟩

/-- `C26_trunc_every_width`: 2.5 gives 2, and 1.5 gives 1 for the honest prover and 0 for another. -/
example : (fTrunc f32 (w32 0x40200000)).Sat 9 true (w32 0x40000000) ∧ (fTrunc f32 (w32 0x3FC00000)).run 9 = some (w32 0x3F800000) ∧
    (fTrunc f32 (w32 0x3FC00000)).Sat 9 true (w32 0) := by
  refine ⟨Circ.sat_of_run _ _ (by decide +kernel), by decide +kernel, ?_⟩
  have e1 : Ieee.decodeBits ⟨8, 23⟩ 0x3FC00000 = .fin false 1.5 := by unfold Ieee.decodeBits; norm_num [Ieee.Format.bias]; decide
  have e0 : Ieee.decodeBits ⟨8, 23⟩ 0 = .fin false 0 := by unfold Ieee.decodeBits; norm_num [Ieee.Format.bias]
  have h1 := w32_encodes (v := 0x3FC00000) (by norm_num)
  have h0 := w32_encodes (v := 0) (by norm_num)
  rw [e1] at h1
  rw [e0] at h0
  exact (C26_trunc_every_width good9 (by decide +kernel) h1).1 (Or.inr ⟨false, 1.5, rfl, by norm_num, by norm_num, h0⟩)

/-- `C41_sqrt`, `C41_trunc`, `C41_add`, `C41_sub`, `C41_mul_div_bounded`: acceptance of right answers at width 9, and no acceptance of a wrong root. -/
example : (unaryCircuit f32 (fSqrt f32) (0x40000000 : ZMod bn254) 0x3FB504F3).Sat 9 true () ∧ ¬ (unaryCircuit f32 (fSqrt f32) (0x40000000 : ZMod bn254) 0x3FB504F4).Sat 9 true () ∧
    (unaryCircuit f32 (fTrunc f32) (0xC0200000 : ZMod bn254) 0xC0000000).Sat 9 true () ∧ (binaryCircuit f32 (fAdd f32) (0x40200000 : ZMod bn254) 0x40800000 0x40D00000).Sat 9 true () ∧
    (binaryCircuit f32 (fSub f32) (0x40200000 : ZMod bn254) 0x40800000 0xBFC00000).Sat 9 true () ∧
    (binaryCircuit f32 (fMul f32) (0x40200000 : ZMod bn254) 0x40800000 0x41200000).Sat 9 true () ∧ (binaryCircuit f32 (fDiv f32) (0x40200000 : ZMod bn254) 0x40800000 0x3F200000).Sat 9 true () := by
  refine ⟨Circ.sat_of_run _ _ (by decide +kernel), fun h => ?_, Circ.sat_of_run _ _ (by decide +kernel), Circ.sat_of_run _ _ (by decide +kernel), Circ.sat_of_run _ _ (by decide +kernel),
    Circ.sat_of_run _ _ (by decide +kernel), Circ.sat_of_run _ _ (by decide +kernel)⟩
  have := (C41_honest good9 (by decide) _ _ 0).2.2.1.2 ((C41_sqrt good9 (by decide) _ _ _).1 h)
  revert this; decide +kernel

/-- `C41_f32_add_sub`, `C41_f64_add_sub`, `C41_f64_sqrt_trunc`, `C41_comparison_auto`: complete systems under every back-end. -/
example (be : Backend) : Accepts be true 0 f64.pow2Size (unaryCircuit f64 (fSqrt f64) (0x4000000000000000 : ZMod bn254) 0x3FF6A09E667F3BCD) () ∧
    Accepts be true 0 f64.pow2Size (comparisonCircuit f64 (fIsLt f64) (0x3FF0000000000000 : ZMod bn254) 0x4000000000000000 1) () ∧
    ¬ Accepts be true 0 f64.pow2Size (comparisonCircuit f64 (fIsLt f64) (0x3FF0000000000000 : ZMod bn254) 0x4000000000000000 0) () := by
  have G : Good bn254 6 f64 := good_bn254_f64 ⟨by norm_num, by norm_num⟩
  have h1 := ((C41_comparison G (by decide) (0x3FF0000000000000 : ZMod bn254) 0x4000000000000000 1 true).1.1 (Circ.sat_of_run _ _ (by decide +kernel)))
  refine ⟨(C41_f64_sqrt_trunc goodField_bn254.2 be _ _ _).1.2 ((C41_honest G (by decide) _ _ 0).2.2.1.1 (by decide +kernel)),
    (C41_comparison_auto f64 (Or.inr rfl) goodField_bn254.2 be _ _ _ _).1.2 h1, fun h => ?_⟩
  have h0 := ((C41_comparison_auto f64 (Or.inr rfl) goodField_bn254.2 be _ _ _ _).1.1 h).2.2
  rw [← h1.2.2] at h0
  revert h0; decide +kernel

/-- 2.5 + 4 = 6.5 in single and 1.5 + 2.25 = 3.75 in double precision, every back-end. -/
example (be : Backend) :
    Accepts be true 0 f32.pow2Size (binaryCircuit f32 (fAdd f32) (0x40200000 : ZMod bn254) 0x40800000 0x40D00000) () ∧
    Accepts be true 0 f64.pow2Size (binaryCircuit f64 (fAdd f64) (0x3ff8000000000000 : ZMod bn254) 0x4002000000000000 0x400e000000000000) () := by
  have G : Good bn254 6 f64 := good_bn254_f64 ⟨by norm_num, by norm_num⟩
  have h64 := (C41_add G (by decide) (by decide) (by decide +kernel) (0x3ff8000000000000 : ZMod bn254) 0x4002000000000000 0x400e000000000000 true).1
    (Circ.sat_of_run _ _ (by decide +kernel))
  have h32 := (C41_add good9 (by decide) (by decide) (by decide +kernel) (0x40200000 : ZMod bn254) 0x40800000 0x40D00000 true).1
    (Circ.sat_of_run _ _ (by decide +kernel))
  exact ⟨(C41_f32_add_sub goodField_bn254.1 be _ _ _ _).1.2 h32, (C41_f64_add_sub goodField_bn254.2 be _ _ _ _).1.2 h64⟩

end ZkLoc
