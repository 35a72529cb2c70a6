import Verif.AssertVal
import Verif.Examples

/-!
# Properties C24, C25, C28, C29, C42: comparisons, equality assertions, sign operations, selection

All of them hold for every prover and **every** table width (no power-of-two lookup is involved).
-/

namespace ZkLoc

open Ieee (Datum)

variable {p : ℕ} [Fact p.Prime] {b : ℕ} {f : Fmt}

/-! ### C24: comparisons -/

section
open Classical

/-- The wire `1` if the proposition holds, else `0`. -/
noncomputable def wireOf (P : Prop) : ZMod p := if P then 1 else 0

theorem B_wireOf {c : Bool} {P : Prop} (h : c = true ↔ P) : (B c : ZMod p) = wireOf P := by
  unfold wireOf
  by_cases hP : P
  · rw [if_pos hP, h.2 hP]; rfl
  · rw [if_neg hP]
    have : c = false := by cases c; rfl; exact absurd (h.1 rfl) hP
    rw [this]; rfl

theorem lt_iff (G : Good p b f) {x y : Flt} (hx : x.Valid f) (hy : y.Valid f) :
    lessZ x y false = true ↔ Ieee.Lt (x.datum f) (y.datum f) := by
  rw [lessZ_iff G hx hy]
  constructor
  · rintro ⟨u, v, h1, h2, h | h⟩
    · exact ⟨u, v, h1, h2, h⟩
    · simp at h
  · rintro ⟨u, v, h1, h2, h⟩; exact ⟨u, v, h1, h2, Or.inl h⟩

theorem le_iff (G : Good p b f) {x y : Flt} (hx : x.Valid f) (hy : y.Valid f) :
    lessZ x y true = true ↔ Ieee.Le (x.datum f) (y.datum f) := by
  rw [lessZ_iff G hx hy]
  constructor
  · rintro ⟨u, v, h1, h2, h | h⟩
    · exact ⟨u, v, h1, h2, h.le⟩
    · exact ⟨u, v, h1, h2, h.2.le⟩
  · rintro ⟨u, v, h1, h2, h⟩
    exact ⟨u, v, h1, h2, h.lt_or_eq.imp id (fun h => ⟨rfl, h⟩)⟩

/-- **C24** `IsLt` decides the IEEE relation `<`: honest run and every prover. -/
theorem C24_isLt (G : Good p b f) {x y : FloatVar p} {dx dy : Datum} (ex : Encodes f x dx) (ey : Encodes f y dy) :
    (fIsLt f x y).run b = some (wireOf (Ieee.Lt dx dy)) ∧
    ∀ st r, (fIsLt f x y).Sat b st r ↔ r = wireOf (Ieee.Lt dx dy) := by
  obtain ⟨x, hx, rfl, rfl⟩ := encodes_iff.1 ex
  obtain ⟨y, hy, rfl, rfl⟩ := encodes_iff.1 ey
  have h := fLess_spec (p := p) (b := b) (H := True) G (hx.bdd G) (hy.bdd G) false
  rw [B_wireOf (lt_iff G hx hy)] at h
  exact ⟨h.run, h.sat trivial⟩

/-- **C24** `IsLe` decides the IEEE relation `≤`. -/
theorem C24_isLe (G : Good p b f) {x y : FloatVar p} {dx dy : Datum} (ex : Encodes f x dx) (ey : Encodes f y dy) :
    (fIsLe f x y).run b = some (wireOf (Ieee.Le dx dy)) ∧
    ∀ st r, (fIsLe f x y).Sat b st r ↔ r = wireOf (Ieee.Le dx dy) := by
  obtain ⟨x, hx, rfl, rfl⟩ := encodes_iff.1 ex
  obtain ⟨y, hy, rfl, rfl⟩ := encodes_iff.1 ey
  have h := fLess_spec (p := p) (b := b) (H := True) G (hx.bdd G) (hy.bdd G) true
  rw [B_wireOf (le_iff G hx hy)] at h
  exact ⟨h.run, h.sat trivial⟩

/-- **C24** `IsGt` decides the IEEE relation `>`. -/
theorem C24_isGt (G : Good p b f) {x y : FloatVar p} {dx dy : Datum} (ex : Encodes f x dx) (ey : Encodes f y dy) :
    (fIsGt f x y).run b = some (wireOf (Ieee.Lt dy dx)) ∧
    ∀ st r, (fIsGt f x y).Sat b st r ↔ r = wireOf (Ieee.Lt dy dx) := C24_isLt G ey ex

/-- **C24** `IsGe` decides the IEEE relation `≥`. -/
theorem C24_isGe (G : Good p b f) {x y : FloatVar p} {dx dy : Datum} (ex : Encodes f x dx) (ey : Encodes f y dy) :
    (fIsGe f x y).run b = some (wireOf (Ieee.Le dy dx)) ∧
    ∀ st r, (fIsGe f x y).Sat b st r ↔ r = wireOf (Ieee.Le dy dx) := C24_isLe G ey ex

theorem lt32 {x y : ℕ} (hx : x < 2 ^ 32) (hy : y < 2 ^ 32) :
    (fIsLt f32 (w32 x) (w32 y)).run 8 = some (B (lessZ (fltOf f32 x) (fltOf f32 y) false)) := by
  rw [w32_eq hx, w32_eq hy]
  exact (fLess_spec (H := True) good8 ((w32_valid hx).bdd good8) ((w32_valid hy).bdd good8) false).run

theorem le32 {x y : ℕ} (hx : x < 2 ^ 32) (hy : y < 2 ^ 32) :
    (fIsLe f32 (w32 x) (w32 y)).run 8 = some (B (lessZ (fltOf f32 x) (fltOf f32 y) true)) := by
  rw [w32_eq hx, w32_eq hy]
  exact (fLess_spec (H := True) good8 ((w32_valid hx).bdd good8) ((w32_valid hy).bdd good8) true).run

/-- Concrete cases: `-0 < +0` is false, `-0 ≤ +0` true, `-2.25 < 1.5`, `NaN ≤ NaN` false, `1 < Inf`. -/
example : (fIsLt f32 (w32 0x80000000) (w32 0)).run 8 = some 0 := by
  rw [lt32 (by decide) (by decide)]; decide +kernel
example : (fIsLe f32 (w32 0x80000000) (w32 0)).run 8 = some 1 := by
  rw [le32 (by decide) (by decide)]; decide +kernel
example : (fIsLt f32 (w32 0xC0100000) (w32 0x3FC00000)).run 8 = some 1 := by
  rw [lt32 (by decide) (by decide)]; decide +kernel
example : (fIsLe f32 (w32 0x7FC00000) (w32 0x7FC00000)).run 8 = some 0 := by
  rw [le32 (by decide) (by decide)]; decide +kernel
example : (fIsLt f32 (w32 0x3F800000) (w32 0x7F800000)).run 8 = some 1 := by
  rw [lt32 (by decide) (by decide)]; decide +kernel

/-! ### C25: the comparison outputs are boolean and order the floats -/

/-- **C25** Whatever a prover does, the outputs are boolean. -/
theorem C25_boolean (G : Good p b f) {x y : FloatVar p} {dx dy : Datum} (ex : Encodes f x dx) (ey : Encodes f y dy)
    {st : Bool} {r : ZMod p}
    (h : (fIsLt f x y).Sat b st r ∨ (fIsLe f x y).Sat b st r ∨ (fIsGt f x y).Sat b st r ∨ (fIsGe f x y).Sat b st r) :
    r = 0 ∨ r = 1 := by
  have hw : ∀ P : Prop, (wireOf P : ZMod p) = 0 ∨ (wireOf P : ZMod p) = 1 := by
    intro P; unfold wireOf; by_cases h : P <;> simp [h]
  rcases h with h | h | h | h
  · rw [(C24_isLt G ex ey).2] at h; rw [h]; exact hw _
  · rw [(C24_isLe G ex ey).2] at h; rw [h]; exact hw _
  · rw [(C24_isGt G ex ey).2] at h; rw [h]; exact hw _
  · rw [(C24_isGe G ex ey).2] at h; rw [h]; exact hw _

theorem wireOf_one {P : Prop} : (wireOf P : ZMod p) = 1 ↔ P := by
  unfold wireOf; by_cases h : P <;> simp [h]

theorem wireOf_zero {P : Prop} : (wireOf P : ZMod p) = 0 ↔ ¬ P := by
  unfold wireOf; by_cases h : P <;> simp [h]

theorem value_of_ne_nan {d : Datum} (h : d ≠ .nan) : ∃ v, d.value = some v := by
  cases d with
  | nan => exact absurd rfl h
  | inf s => exact ⟨_, rfl⟩
  | fin s a => exact ⟨_, rfl⟩

/-- **C25** Totality: of two floats that are not NaN, exactly one of `x < y` and `x ≥ y` is proved. -/
theorem C25_total (G : Good p b f) {x y : FloatVar p} {dx dy : Datum} (ex : Encodes f x dx) (ey : Encodes f y dy)
    (hx : dx ≠ .nan) (hy : dy ≠ .nan) {st : Bool} {l g : ZMod p} (hl : (fIsLt f x y).Sat b st l)
    (hg : (fIsGe f x y).Sat b st g) : l + g = 1 := by
  rw [(C24_isLt G ex ey).2] at hl
  rw [(C24_isGe G ex ey).2] at hg
  obtain ⟨u, hu⟩ := value_of_ne_nan hx
  obtain ⟨v, hv⟩ := value_of_ne_nan hy
  have h1 : Ieee.Lt dx dy ↔ u < v := by simp [Ieee.Lt, hu, hv]
  have h2 : Ieee.Le dy dx ↔ v ≤ u := by simp [Ieee.Le, hu, hv]
  rw [hl, hg]
  unfold wireOf
  by_cases h : u < v
  · rw [if_pos (h1.2 h), if_neg (fun hc => absurd (h2.1 hc) (not_le.2 h)), add_zero]
  · rw [if_neg (fun hc => h (h1.1 hc)), if_pos (h2.2 (not_lt.1 h)), zero_add]

/-- **C25** Trichotomy: for floats that are not NaN the wires of `x < y`, `x > y` and "`x ≤ y` and
`x ≥ y`" add up to one. -/
theorem C25_trichotomy (G : Good p b f) {x y : FloatVar p} {dx dy : Datum} (ex : Encodes f x dx) (ey : Encodes f y dy)
    (hx : dx ≠ .nan) (hy : dy ≠ .nan) {st : Bool} {l g le ge : ZMod p} (hl : (fIsLt f x y).Sat b st l)
    (hg : (fIsGt f x y).Sat b st g) (hle : (fIsLe f x y).Sat b st le) (hge : (fIsGe f x y).Sat b st ge) :
    l + g + le * ge = 1 := by
  rw [(C24_isLt G ex ey).2] at hl
  rw [(C24_isGt G ex ey).2] at hg
  rw [(C24_isLe G ex ey).2] at hle
  rw [(C24_isGe G ex ey).2] at hge
  obtain ⟨u, hu⟩ := value_of_ne_nan hx
  obtain ⟨v, hv⟩ := value_of_ne_nan hy
  have h1 : Ieee.Lt dx dy ↔ u < v := by simp [Ieee.Lt, hu, hv]
  have h2 : Ieee.Le dy dx ↔ v ≤ u := by simp [Ieee.Le, hu, hv]
  have h3 : Ieee.Lt dy dx ↔ v < u := by simp [Ieee.Lt, hu, hv]
  have h4 : Ieee.Le dx dy ↔ u ≤ v := by simp [Ieee.Le, hu, hv]
  rw [hl, hg, hle, hge]
  unfold wireOf
  rw [h1, h2, h3, h4]
  rcases lt_trichotomy u v with h | h | h
  · simp [h, h.le, not_le.2 h, not_lt.2 h.le]
  · simp [h]
  · simp [h, h.le, not_le.2 h, not_lt.2 h.le]

/-- **C25** Transitivity, for every prover. -/
theorem C25_lt_trans (G : Good p b f) {x y z : FloatVar p} {dx dy dz : Datum} (ex : Encodes f x dx) (ey : Encodes f y dy)
    (ez : Encodes f z dz) {st : Bool} {r : ZMod p} (h1 : (fIsLt f x y).Sat b st 1) (h2 : (fIsLt f y z).Sat b st 1)
    (h3 : (fIsLt f x z).Sat b st r) : r = 1 := by
  rw [(C24_isLt G ex ey).2, eq_comm, wireOf_one] at h1
  rw [(C24_isLt G ey ez).2, eq_comm, wireOf_one] at h2
  rw [(C24_isLt G ex ez).2] at h3
  rw [h3, wireOf_one]
  obtain ⟨u, v, hu, hv, h⟩ := h1
  obtain ⟨v', w, hv', hw, h'⟩ := h2
  rw [hv] at hv'; cases hv'
  exact ⟨u, w, hu, hw, lt_trans h h'⟩

/-- **C25** `IsLe` is transitive as well. -/
theorem C25_le_trans (G : Good p b f) {x y z : FloatVar p} {dx dy dz : Datum} (ex : Encodes f x dx) (ey : Encodes f y dy)
    (ez : Encodes f z dz) {st : Bool} {r : ZMod p} (h1 : (fIsLe f x y).Sat b st 1) (h2 : (fIsLe f y z).Sat b st 1)
    (h3 : (fIsLe f x z).Sat b st r) : r = 1 := by
  rw [(C24_isLe G ex ey).2, eq_comm, wireOf_one] at h1
  rw [(C24_isLe G ey ez).2, eq_comm, wireOf_one] at h2
  rw [(C24_isLe G ex ez).2] at h3
  rw [h3, wireOf_one]
  obtain ⟨u, v, hu, hv, h⟩ := h1
  obtain ⟨v', w, hv', hw, h'⟩ := h2
  rw [hv] at hv'; cases hv'
  exact ⟨u, w, hu, hw, le_trans h h'⟩

/-- **C25** A comparison with NaN is never proved. -/
theorem C25_nan (G : Good p b f) {x y : FloatVar p} {dx dy : Datum} (ex : Encodes f x dx) (ey : Encodes f y dy)
    (hn : dx = .nan ∨ dy = .nan) {st : Bool} {r : ZMod p}
    (h : (fIsLt f x y).Sat b st r ∨ (fIsLe f x y).Sat b st r ∨ (fIsGt f x y).Sat b st r ∨ (fIsGe f x y).Sat b st r) :
    r = 0 := by
  have h1 : ∀ {u v : Datum}, (u = .nan ∨ v = .nan) → ¬ Ieee.Lt u v ∧ ¬ Ieee.Le u v := by
    rintro u v (rfl | rfl) <;> simp [Ieee.Lt, Ieee.Le, Datum.value]
  rcases h with h | h | h | h
  · rw [(C24_isLt G ex ey).2] at h; rw [h, wireOf_zero]; exact (h1 hn).1
  · rw [(C24_isLe G ex ey).2] at h; rw [h, wireOf_zero]; exact (h1 hn).2
  · rw [(C24_isGt G ex ey).2] at h; rw [h, wireOf_zero]; exact (h1 hn.symm).1
  · rw [(C24_isGe G ex ey).2] at h; rw [h, wireOf_zero]; exact (h1 hn.symm).2

/-- Concrete case of the hypotheses: `1.5` and `-Inf` are not NaN and encoded. -/
example : ∃ dx dy, Encodes f32 (w32 0x3FC00000) dx ∧ Encodes f32 (w32 0xFF800000) dy ∧ dx ≠ .nan ∧ dy ≠ .nan := by
  refine ⟨_, _, w32_encodes (by decide), w32_encodes (by decide), ?_, ?_⟩ <;>
    · norm_num [Ieee.decodeBits]; exact nofun

end

/-! ### C28: equality assertion -/

/-- **C28** `AssertIsEqual` is satisfiable iff both operands are the same datum. -/
theorem C28_assertIsEqual (G : Good p b f) {x y : FloatVar p} {dx dy : Datum} (ex : Encodes f x dx) (ey : Encodes f y dy) :
    ((fAssertIsEqual x y).run b = some () ↔ dx = dy) ∧ ∀ st, (fAssertIsEqual x y).Sat b st () ↔ dx = dy := by
  obtain ⟨x, hx, rfl, rfl⟩ := encodes_iff.1 ex
  obtain ⟨y, hy, rfl, rfl⟩ := encodes_iff.1 ey
  have h := (fAssertIsEqual_dec (p := p) (b := b) (H := True) G (hx.bdd G) (hy.bdd G)).congr (same_iff G hx hy)
  exact ⟨h.run, h.sat trivial⟩

/-- Concrete cases: two NaNs of different sign are equal, the two zeros are not. -/
example : (fAssertIsEqual (w32 0x7FC00000) (w32 0xFFC00000)).run 8 = some () := by
  rw [w32_eq (by decide), w32_eq (by decide)]
  exact (fAssertIsEqual_dec (H := True) good8 ((w32_valid (by decide)).bdd good8) ((w32_valid (by decide)).bdd good8)).run.2
    (by decide +kernel)
example (st : Bool) : ¬ (fAssertIsEqual (w32 0) (w32 0x80000000)).Sat 8 st () := by
  rw [w32_eq (by decide), w32_eq (by decide), (fAssertIsEqual_dec (H := True) good8 ((w32_valid (by decide)).bdd good8)
    ((w32_valid (by decide)).bdd good8)).sat trivial st]
  decide +kernel

/-! ### C29: equality up to one unit in the last place -/

/-- **C29** The exact accepted set of `AssertIsEqualOrULP`: equal data, a normal number and the next
one, or the largest finite number and infinity. -/
theorem C29_assertIsEqualOrULP (G : Good p b f) {x y : FloatVar p} {dx dy : Datum} (ex : Encodes f x dx) (ey : Encodes f y dy) :
    ((fAssertIsEqualOrULP f x y).run b = some () ↔
      dx = dy ∨ Ieee.NextAway ⟨f.E, f.M⟩ dx dy ∨ Ieee.NextAway ⟨f.E, f.M⟩ dy dx) ∧
    ∀ st, (fAssertIsEqualOrULP f x y).Sat b st () ↔
      dx = dy ∨ Ieee.NextAway ⟨f.E, f.M⟩ dx dy ∨ Ieee.NextAway ⟨f.E, f.M⟩ dy dx := by
  obtain ⟨x, hx, rfl, rfl⟩ := encodes_iff.1 ex
  obtain ⟨y, hy, rfl, rfl⟩ := encodes_iff.1 ey
  have h := (fAssertIsEqualOrULP_dec (p := p) (b := b) (H := True) G (hx.bdd G) (hy.bdd G))
  have hM4 : 4 ≤ f.M := le_trans G.hE G.hEM
  have h2M : 16 ≤ 2 ^ f.M := le_trans (by norm_num) (Nat.pow_le_pow_right (n := 2) (by norm_num) hM4)
  have h2M1 : 2 ^ (f.M + 1) = 2 * 2 ^ f.M := pow_succ' _ _
  have hnan : ∀ {u v : Flt}, u.Valid f → v.Valid f → ulpUp f u v → u.isNaN = false ∧ v.isNaN = false := by
    intro u v hu hv hup
    have : ∀ {z : Flt}, z.man ≠ 0 → z.isNaN = false := by intro z hz; simp [Flt.isNaN, hz]
    constructor
    · apply this
      intro h0
      rcases hup with ⟨_, h2⟩ | ⟨_, _, h2⟩
      · rcases hv.man_cases with h3 | h3 <;> omega
      · omega
    · apply this
      rcases hup with ⟨_, h2⟩ | ⟨_, h2, _⟩ <;> omega
  have h' := h.congr (Q := x.datum f = y.datum f ∨ Ieee.NextAway ⟨f.E, f.M⟩ (x.datum f) (y.datum f) ∨
      Ieee.NextAway ⟨f.E, f.M⟩ (y.datum f) (x.datum f)) (by
    have e1 : Ieee.NextAway ⟨f.E, f.M⟩ (x.datum f) (y.datum f) ↔ _ := (ulpUp_iff G hx hy).symm
    have e2 : Ieee.NextAway ⟨f.E, f.M⟩ (y.datum f) (x.datum f) ↔ _ := (ulpUp_iff G hy hx).symm
    rw [e1, e2, ← same_iff G hx hy, ulpStep_iff]
    constructor
    · rintro ⟨h1, (h2 | h2) | h2⟩
      · obtain ⟨h3, h4⟩ := hnan hx hy h2
        rw [h3, h4] at h1; simp at h1
        exact Or.inr (Or.inl ⟨h2, h1⟩)
      · obtain ⟨h3, h4⟩ := hnan hy hx h2
        rw [h3, h4] at h1; simp at h1
        exact Or.inr (Or.inr ⟨h2, h1.symm⟩)
      · exact Or.inl ⟨h1, h2⟩
    · rintro (⟨h1, h2⟩ | ⟨h1, h2⟩ | ⟨h1, h2⟩)
      · exact ⟨h1, Or.inr h2⟩
      · exact ⟨Or.inr (Or.inr h2), Or.inl (Or.inl h1)⟩
      · exact ⟨Or.inr (Or.inr h2.symm), Or.inl (Or.inr h1)⟩)
  exact ⟨h'.run, h'.sat trivial⟩

theorem ulp32 {x y : ℕ} (hx : x < 2 ^ 32) (hy : y < 2 ^ 32) :
    Dec 8 True (fAssertIsEqualOrULP f32 (w32 x) (w32 y))
      (((fltOf f32 x).isNaN = true ∨ (fltOf f32 y).isNaN = true ∨ (fltOf f32 x).sign = (fltOf f32 y).sign) ∧
        (ulpStep f32 (fltOf f32 x) (fltOf f32 y) ∨ (fltOf f32 x).SameBody (fltOf f32 y))) := by
  rw [w32_eq hx, w32_eq hy]
  exact fAssertIsEqualOrULP_dec good8 ((w32_valid hx).bdd good8) ((w32_valid hy).bdd good8)

/-- Concrete cases: `1` and its successor are accepted, `1` and its second successor rejected by every prover. -/
example : (fAssertIsEqualOrULP f32 (w32 0x3F800000) (w32 0x3F800001)).run 8 = some () :=
  (ulp32 (by decide) (by decide)).run.2 (by decide +kernel)
example (st : Bool) : ¬ (fAssertIsEqualOrULP f32 (w32 0x3F800000) (w32 0x3F800002)).Sat 8 st () := by
  rw [(ulp32 (by decide) (by decide)).sat trivial]; decide +kernel

/-- **C29, deviations from "one unit in the last place".** Adjacent subnormals are rejected (even by a
cooperating prover), zero and the smallest subnormal too, while the largest finite number and infinity are accepted. -/
theorem C29_rejects_adjacent_subnormals (st : Bool) :
    ¬ (fAssertIsEqualOrULP f32 (w32 0x00000001) (w32 0x00000002)).Sat 8 st () ∧
    ¬ (fAssertIsEqualOrULP f32 (w32 0x00000000) (w32 0x00000001)).Sat 8 st () ∧
    (fAssertIsEqualOrULP f32 (w32 0x7F7FFFFF) (w32 0x7F800000)).run 8 = some () := by
  refine ⟨?_, ?_, ?_⟩
  · rw [(ulp32 (by decide) (by decide)).sat trivial]; decide +kernel
  · rw [(ulp32 (by decide) (by decide)).sat trivial]; decide +kernel
  · exact (ulp32 (by decide) (by decide)).run.2 (by decide +kernel)

/-! ### C42: negation, absolute value, selection -/

/-- **C42** `Neg` of an encoded float encodes the negated datum. -/
theorem C42_neg {x : FloatVar p} {d : Datum} (h : Encodes f x d) : Encodes f (fNeg x) d.neg := encodes_neg h

/-- **C42** `Abs` of an encoded float encodes the absolute value. -/
theorem C42_abs {x : FloatVar p} {d : Datum} (h : Encodes f x d) : Encodes f (fAbs x) d.abs := encodes_abs h

/-- **C42** On all wires: `Neg` is an involution that leaves everything but the sign unchanged; `Abs` is idempotent and ignores `Neg`. -/
theorem C42_laws (x : FloatVar p) : fNeg (fNeg x) = x ∧ fAbs (fAbs x) = fAbs x ∧ fAbs (fNeg x) = fAbs x ∧
    (fNeg x).exponent = x.exponent ∧ (fNeg x).mantissa = x.mantissa ∧ (fNeg x).isAbnormal = x.isAbnormal := by
  refine ⟨?_, rfl, rfl, rfl, rfl, rfl⟩
  unfold fNeg; simp

/-- **C42** `Select` with a boolean condition returns the chosen operand, for every prover. -/
theorem C42_select (c : Bool) (x y : FloatVar p) :
    (fSelect (if c then 1 else 0) x y).run b = some (if c then x else y) ∧
    ∀ st r, (fSelect (if c then 1 else 0) x y).Sat b st r ↔ r = if c then x else y := by
  have h : Det b True (fSelect (B c) x y) (if c then x else y) := by
    unfold fSelect
    simp only [Circ.bind_eq, Circ.pure_eq]
    refine Spec.det_bind (select_spec _ _ _) ?_
    refine Spec.det_bind (select_spec _ _ _) ?_
    refine Spec.det_bind (select_spec _ _ _) ?_
    refine Spec.det_bind (select_spec _ _ _) ?_
    refine (Spec.pure _).congr ?_ ?_
    · cases c <;> rfl
    · intro r; cases c <;> exact Iff.rfl
  have e : (if c = true then (1 : ZMod p) else 0) = B c := by cases c <;> rfl
  rw [e]
  exact ⟨h.run, h.sat trivial⟩

/-- **C42** A condition that is not boolean is refused by the honest prover. -/
theorem C42_select_not_boolean {c : ZMod p} (h0 : c ≠ 0) (h1 : c ≠ 1) (x y : FloatVar p) :
    (fSelect c x y).run b = none ∧ ∀ r, ¬ (fSelect c x y).Sat b true r := by
  have hb : isBool c = false := by
    cases h : isBool c
    · rfl
    · obtain ⟨c', rfl⟩ := (isBool_iff c).1 h
      cases c' <;> simp [B] at h0 h1
  constructor
  · simp [fSelect, select, softBool, Circ.bind, Circ.run, hb]
  · intro r; simp [fSelect, select, softBool, Circ.bind, Circ.Sat, hb]

/-- Concrete case: `Neg` of the wires of `1.5` are the wires of `-1.5`. -/
example : fNeg (w32 0x3FC00000) = w32 0xBFC00000 := by
  rw [w32_eq (by decide), w32_eq (by decide), fNeg_toVar]; congr 1

/-- `C25_lt_trans`, `C25_le_trans`, `C25_total`, `C25_trichotomy`: the chain -1.5 < 0 < 2. -/
example : (fIsLt f32 (w32 0xBFC00000) (w32 0)).Sat 8 true 1 ∧ (fIsLt f32 (w32 0) (w32 0x40000000)).Sat 8 true 1 ∧ (fIsLt f32 (w32 0xBFC00000) (w32 0x40000000)).Sat 8 true 1 ∧
    (fIsLe f32 (w32 0xBFC00000) (w32 0)).Sat 8 true 1 ∧ (fIsLe f32 (w32 0) (w32 0x40000000)).Sat 8 true 1 ∧ (fIsGe f32 (w32 0xBFC00000) (w32 0x40000000)).Sat 8 true 0 ∧
    (fIsGt f32 (w32 0xBFC00000) (w32 0x40000000)).Sat 8 true 0 :=
  ⟨Circ.sat_of_run _ _ (by decide +kernel), Circ.sat_of_run _ _ (by decide +kernel), Circ.sat_of_run _ _ (by decide +kernel), Circ.sat_of_run _ _ (by decide +kernel),
    Circ.sat_of_run _ _ (by decide +kernel), Circ.sat_of_run _ _ (by decide +kernel), Circ.sat_of_run _ _ (by decide +kernel)⟩

/-- `C25_nan`: a comparison with a NaN at width 8 gives 0 for every prover. -/
example (r : ZMod bn254) (h : (fIsLe f32 (w32 0x7FC00000) (w32 0x7FC00000)).Sat 8 true r) : r = 0 :=
  C25_nan good8 (w32_encodes (by norm_num)) (w32_encodes (by norm_num)) (Or.inl (by unfold Ieee.decodeBits; norm_num)) (Or.inr (Or.inl h))

/-- `C42_select_not_boolean`: the selector 2. -/
example (x y : FloatVar bn254) : (fSelect 2 x y).run 8 = none := (C42_select_not_boolean (by decide +kernel) (by decide +kernel) x y).1

end ZkLoc
