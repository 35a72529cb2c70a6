import Verif.FloorAny
import Verif.Props.AnyWidth
import Verif.Props.Forgery

/-!
# Properties C26, C27 and C41 at every table width: `Floor`, `Ceil` and `ToInt`

`Props/AnyWidth` shows that `Trunc` can only be driven to a record that equals no allocated float. `Floor` and `Ceil` set the
exponent of a result with zero mantissa to the one of zero, so here the dishonest lookup answer leads to a proper zero: the
double-precision circuits of the test suite accept `Floor(4096 + 2^-11) = 0`. `ToInt` multiplies by the lookup answer, so at every width that
does not divide the size every non-zero number below `2^(M+E)` converts to a wrong integer as well.
-/

namespace ZkLoc

open Ieee (Datum)

variable {p b : ℕ} [Fact p.Prime] {f : Fmt}

/-- Numbers `a = m * 2^(e-M)`, `e ≥ 0`, for which a dishonest answer `2^(k+t) + t*2^(M+E+1)` to the lookup of `2^k`, `k = M - e`,
divides the scaled significand. -/
def FloorForge (b : ℕ) (f : Fmt) (a : ℝ) : Prop :=
  ∃ m e t : ℕ, 2 ^ f.M ≤ m ∧ m < 2 ^ (f.M + 1) ∧ a = m * (2:ℝ) ^ ((e:ℤ) - f.M) ∧ 0 < t ∧ t < 2 ^ slack b f.pow2Size ∧
    f.M - e + t < f.pow2Size ∧ 2 ^ (f.M - e + t) + t * 2 ^ f.pow2Size ∣ m * 2 ^ (f.M + 1) * 2 ^ slack b (f.M + 1)

/-- At widths dividing the size there is no such number. -/
theorem FloorForge.not_dvd {a : ℝ} (hb : slack b f.pow2Size = 0) : ¬ FloorForge b f a := by
  rintro ⟨m, e, t, -, -, -, h1, h2, -⟩
  rw [hb] at h2; omega

/-- A float that a dishonest answer divides. -/
theorem floorForge_of (G : Good p b f) {x : Flt} (hx : x.Valid f) (ha : x.abn = false) (hm : x.man ≠ 0) :
    FloorForge b f (x.mag f) ↔ 0 ≤ x.exp ∧ ∃ t, 0 < t ∧ t < 2 ^ slack b f.pow2Size ∧ intShift f x true + t < f.pow2Size ∧
      2 ^ (intShift f x true + t) + t * 2 ^ f.pow2Size ∣ x.man * 2 ^ (f.M + 1) * 2 ^ slack b (f.M + 1) := by
  have hlo : 2 ^ f.M ≤ x.man := hx.man_cases.resolve_left hm
  constructor
  · rintro ⟨m, e, t, h1, h2, h3, h4, h5, h6, h7⟩
    have hp2 : ∀ k : ℤ, (0:ℝ) < 2 ^ k := fun k => by positivity
    have he : x.exp = e := by
      have a1 : (2:ℝ) ^ x.exp ≤ x.mag f := pow_real_ge hlo
      have a2 : x.mag f < 2 ^ (x.exp + 1) := pow_real_lt hx.man_lt
      have b1 : (2:ℝ) ^ (e:ℤ) ≤ x.mag f := by rw [h3]; exact pow_real_ge h1
      have b2 : x.mag f < 2 ^ ((e:ℤ) + 1) := by rw [h3]; exact pow_real_lt h2
      have c1 := (zpow_lt_zpow_iff_right₀ (by norm_num : (1:ℝ) < 2)).1 (a1.trans_lt b2)
      have c2 := (zpow_lt_zpow_iff_right₀ (by norm_num : (1:ℝ) < 2)).1 (b1.trans_lt a2)
      omega
    have hmm : x.man = m := by
      unfold Flt.mag at h3
      rw [he] at h3
      have := mul_right_cancel₀ (hp2 _).ne' h3
      exact_mod_cast this
    have hk : intShift f x true = f.M - e := by unfold intShift; rw [he]; simp
    exact ⟨by omega, t, h4, h5, by rw [hk]; exact h6, by rw [hk, hmm]; exact h7⟩
  · rintro ⟨h0, t, h4, h5, h6, h7⟩
    have hk : intShift f x true = f.M - x.exp.toNat := by unfold intShift; simp; omega
    rw [hk] at h6 h7
    refine ⟨x.man, x.exp.toNat, t, hlo, hx.man_lt, ?_, h4, h5, h6, h7⟩
    unfold Flt.mag
    rw [show ((x.exp.toNat : ℕ) : ℤ) = x.exp by omega]

theorem floor_any (G : Good p b f) (hp : 2 ^ (3 * f.M + f.E + 4 + 3 * b) ≤ p) {x r : FloatVar p} {dx : Datum}
    (ex : Encodes f x dx) {st : Bool} :
    (((fFloor f x).run b = some r ∨ (∃ s a, dx = .fin s a ∧ 1 ≤ a ∧ a < 2 ∧ Encodes f r (.fin s (if s then 1 else 0))) ∨
      (∃ a, dx = .fin false a ∧ FloorForge b f a ∧ Encodes f r (.fin false 0))) → (fFloor f x).Sat b st r) ∧
    ((fFloor f x).Sat b st r → ((fFloor f x).run b = some r ∨
      (∃ s a, dx = .fin s a ∧ 1 ≤ a ∧ a < 2 ∧ Encodes f r (.fin s (if s then 1 else 0))) ∨
      (∃ a, dx = .fin false a ∧ FloorForge b f a ∧ Encodes f r (.fin false 0))) ∨ Oversized f r) := by
  obtain ⟨x, hx, rfl, rfl⟩ := encodes_iff.1 ex
  have h := fFloor_spec_any (p := p) (b := b) (H := True) G (hx.bdd G) hp
  rw [h.run, Option.some.injEq, ← or_assoc, ← floor_outcome_exact G hx, h.sat trivial]
  constructor
  · rintro (⟨c, h1, h2, h3⟩ | ⟨a, h1, h2, h3⟩)
    · exact ⟨c, h1, h2, Or.inl h3⟩
    · obtain ⟨ha, hs, rfl⟩ := datum_fin_iff.1 h1
      have hm : x.man ≠ 0 := by
        intro h0
        obtain ⟨m, e, t, h4, -, h5, -⟩ := h2
        rw [mag_eq_zero.2 h0] at h5
        have : 0 < (m:ℝ) := by exact_mod_cast lt_of_lt_of_le (Nat.two_pow_pos _) h4
        have : 0 < (m:ℝ) * (2:ℝ) ^ ((e:ℤ) - f.M) := by positivity
        linarith
      obtain ⟨h0, t, h4, h5, h6, h7⟩ := (floorForge_of G hx ha hm).1 h2
      refine ⟨true, fun _ => rfl, fun h => by omega, Or.inr ⟨t, h4, h5, h6, h7, ?_⟩⟩
      obtain ⟨z, hz, hzd, rfl⟩ := encodes_iff.1 h3
      rw [valid_zero_eq hz hzd]
      unfold floorZ0; simp [← hs, ha]
  · rintro ⟨c, h1, h2, rfl | ⟨t, h3, h4, h5, h6, rfl⟩⟩
    · exact Or.inl (Or.inl ⟨c, h1, h2, rfl⟩)
    · rcases floor_forged (p := p) G hx h3 h4 h5 h6 with h7 | ⟨hs, ha, hm, rfl, h7⟩ | h7
      · left; left; rw [h7]; exact ⟨c, h1, h2, rfl⟩
      · have he : 0 ≤ x.exp := by by_contra h; have := h2 (by omega); cases this
        refine Or.inl (Or.inr ⟨x.mag f, by rw [datum_fin ha, hs], (floorForge_of G hx ha hm).2 ⟨he, t, h3, h4, h5, h6⟩, ?_⟩)
        rw [h7]
        exact encodes_iff.2 ⟨_, .zero _, by simp [Flt.datum], rfl⟩
      · exact Or.inr h7

/-- **C26** What every prover can obtain from `Floor` at every table width: the honest result, the one for magnitude below one if
`1 ≤ |x| < 2`, `+0` for the positive numbers that a dishonest lookup answer divides, or an oversized record; the first three always. -/
theorem C26_floor_every_width (G : Good p b f) (hp : 2 ^ (3 * f.M + f.E + 4 + 3 * b) ≤ p) {x r : FloatVar p} {dx : Datum}
    (ex : Encodes f x dx) {st : Bool} :
    (((fFloor f x).run b = some r ∨ (∃ s a, dx = .fin s a ∧ 1 ≤ a ∧ a < 2 ∧ Encodes f r (.fin s (if s then 1 else 0))) ∨
      (∃ a, dx = .fin false a ∧ FloorForge b f a ∧ Encodes f r (.fin false 0))) → (fFloor f x).Sat b st r) ∧
    ((fFloor f x).Sat b st r → ((fFloor f x).run b = some r ∨
      (∃ s a, dx = .fin s a ∧ 1 ≤ a ∧ a < 2 ∧ Encodes f r (.fin s (if s then 1 else 0))) ∨
      (∃ a, dx = .fin false a ∧ FloorForge b f a ∧ Encodes f r (.fin false 0))) ∨ Oversized f r) := floor_any G hp ex

theorem oversized_neg {r : FloatVar p} : Oversized f (fNeg r) ↔ Oversized f r := by
  have h : ∀ r : FloatVar p, Oversized f r → Oversized f (fNeg r) := by
    rintro _ ⟨s, e, m, h1, h2, rfl⟩
    exact ⟨_, e, m, h1, h2, rfl⟩
  refine ⟨fun h1 => ?_, h r⟩
  have := h _ h1
  rwa [show fNeg (fNeg r) = r by unfold fNeg; simp] at this

/-- **C26** The same for `Ceil`, mirrored: `-0` for negative numbers that a dishonest lookup answer divides. -/
theorem C26_ceil_every_width (G : Good p b f) (hp : 2 ^ (3 * f.M + f.E + 4 + 3 * b) ≤ p) {x r : FloatVar p} {dx : Datum}
    (ex : Encodes f x dx) {st : Bool} :
    (((fCeil f x).run b = some r ∨ (∃ s a, dx = .fin s a ∧ 1 ≤ a ∧ a < 2 ∧ Encodes f r (.fin s (if s then 0 else 1))) ∨
      (∃ a, dx = .fin true a ∧ FloorForge b f a ∧ Encodes f r (.fin true 0))) → (fCeil f x).Sat b st r) ∧
    ((fCeil f x).Sat b st r → ((fCeil f x).run b = some r ∨
      (∃ s a, dx = .fin s a ∧ 1 ≤ a ∧ a < 2 ∧ Encodes f r (.fin s (if s then 0 else 1))) ∨
      (∃ a, dx = .fin true a ∧ FloorForge b f a ∧ Encodes f r (.fin true 0))) ∨ Oversized f r) := by
  have hinv : ∀ y : FloatVar p, fNeg (fNeg y) = y := fun y => by unfold fNeg; simp
  have hdi : ∀ d : Datum, d.neg.neg = d := by rintro (_ | _ | _) <;> simp [Datum.neg]
  have hen : ∀ {d : Datum}, Encodes f (fNeg r) d ↔ Encodes f r d.neg := by
    intro d
    constructor
    · intro h; have := encodes_neg h; rwa [hinv] at this
    · intro h; have := encodes_neg h; rwa [hdi] at this
  have hdn : ∀ {s a}, dx.neg = .fin s a ↔ dx = .fin (!s) a := by
    intro s a
    rcases dx with _ | t | ⟨t, c⟩ <;> simp only [Datum.neg, reduceCtorEq, Datum.fin.injEq]
    cases t <;> cases s <;> simp
  have h := floor_any (r := fNeg r) G hp (encodes_neg ex) (st := st)
  rw [← fCeil_sat, ← fCeil_run, oversized_neg] at h
  have e1 : (∃ s a, dx.neg = .fin s a ∧ 1 ≤ a ∧ a < 2 ∧ Encodes f (fNeg r) (.fin s (if s then 1 else 0))) ↔
      (∃ s a, dx = .fin s a ∧ 1 ≤ a ∧ a < 2 ∧ Encodes f r (.fin s (if s then 0 else 1))) := by
    simp only [hdn, hen]
    rw [Bool.exists_bool, Bool.exists_bool]
    simp [Datum.neg, or_comm]
  have e2 : (∃ a, dx.neg = .fin false a ∧ FloorForge b f a ∧ Encodes f (fNeg r) (.fin false 0)) ↔
      (∃ a, dx = .fin true a ∧ FloorForge b f a ∧ Encodes f r (.fin true 0)) := by
    simp only [hdn, hen]
    simp [Datum.neg]
  rw [e1, e2] at h
  exact h

/-! ### Test circuits -/

theorem unary_sat_any' (G : Good p b f) (h64 : 1 + f.E + f.M ≤ 64) {op : FloatVar p → Circ p (FloatVar p)}
    {R : Datum → Datum → Prop} {S : Datum → Datum → Prop} (huniq : ∀ {x d d'}, R x d → R x d' → d = d')
    (hrun : ∀ {x dx}, Encodes f x dx → ∃ r d, (op x).run b = some r ∧ Encodes f r d ∧ R dx d) {st : Bool}
    (hc : ∀ {x dx r}, Encodes f x dx → ((op x).run b = some r ∨ ∃ d, S dx d ∧ Encodes f r d) → (op x).Sat b st r)
    (hs : ∀ {x dx r}, Encodes f x dx → (op x).Sat b st r →
      ((op x).run b = some r ∨ ∃ d, S dx d ∧ Encodes f r d) ∨ Oversized f r) {X Y : ZMod p} :
    (unaryCircuit f op X Y).Sat b st () ↔
      IsPattern f X ∧ IsPattern f Y ∧ (R (datumOf f X) (datumOf f Y) ∨ S (datumOf f X) (datumOf f Y)) := by
  rw [unary_sat G h64]
  constructor
  · rintro ⟨h1, h2, r, h4, h5⟩
    have hY := wiresOf_encodes G h64 h2
    refine ⟨h1, h2, ?_⟩
    rcases hs (wiresOf_encodes G h64 h1) h4 with (h | ⟨d, h, h'⟩) | h
    · obtain ⟨r', d, h6, h7, h8⟩ := hrun (wiresOf_encodes G h64 h1)
      rw [h] at h6; cases h6
      left; rw [← ((C28_assertIsEqual G h7 hY).2 st).1 h5]; exact h8
    · right; rw [← ((C28_assertIsEqual G h' hY).2 st).1 h5]; exact h
    · exact absurd h5 (oversized_rejected G h hY)
  · rintro ⟨h1, h2, h4 | h4⟩
    · have hX := wiresOf_encodes G h64 h1
      have hY := wiresOf_encodes G h64 h2
      obtain ⟨r, d, h5, h6, h7⟩ := hrun hX
      exact ⟨h1, h2, r, hc hX (Or.inl h5), ((C28_assertIsEqual G h6 hY).2 st).2 (huniq h7 h4)⟩
    · have hX := wiresOf_encodes G h64 h1
      have hY := wiresOf_encodes G h64 h2
      exact ⟨h1, h2, _, hc hX (Or.inr ⟨_, h4, hY⟩), ((C28_assertIsEqual G hY hY).2 st).2 rfl⟩

/-- Zero obtained by a dishonest lookup answer: `s` is the sign of the numbers concerned. -/
def ForgedZero (b : ℕ) (f : Fmt) (s : Bool) (dx dy : Datum) : Prop := ∃ a, dx = .fin s a ∧ FloorForge b f a ∧ dy = .fin s 0

theorem exc_iff {g : Bool → ℝ} {s : Bool} {dx : Datum} {r : FloatVar p} :
    (∃ d, (IntException g dx d ∨ ForgedZero b f s dx d) ∧ Encodes f r d) ↔
      (∃ s a, dx = .fin s a ∧ 1 ≤ a ∧ a < 2 ∧ Encodes f r (.fin s (g s))) ∨
      (∃ a, dx = .fin s a ∧ FloorForge b f a ∧ Encodes f r (.fin s 0)) := by
  unfold IntException ForgedZero
  constructor
  · rintro ⟨_, ⟨s, a, h1, h2, h3, rfl⟩ | ⟨a, h1, h2, rfl⟩, h4⟩
    · exact Or.inl ⟨s, a, h1, h2, h3, h4⟩
    · exact Or.inr ⟨a, h1, h2, h4⟩
  · rintro (⟨s, a, h1, h2, h3, h4⟩ | ⟨a, h1, h2, h4⟩)
    · exact ⟨_, Or.inl ⟨s, a, h1, h2, h3, rfl⟩, h4⟩
    · exact ⟨_, Or.inr ⟨a, h1, h2, rfl⟩, h4⟩

/-- **C41** `Floor`, every table width: exactly the IEEE result, its exceptions for `1 ≤ |x| < 2`, and `+0` where a dishonest answer
divides. -/
theorem C41_floor (G : Good p b f) (h64 : 1 + f.E + f.M ≤ 64) (hp : 2 ^ (3 * f.M + f.E + 4 + 3 * b) ≤ p) (X Y : ZMod p) (st : Bool) :
    (unaryCircuit f (fFloor f) X Y).Sat b st () ↔ IsPattern f X ∧ IsPattern f Y ∧
      (Ieee.Integral (fun v => ⌊v⌋) (datumOf f X) (datumOf f Y) ∨
        (IntException (fun s => if s then 1 else 0) (datumOf f X) (datumOf f Y) ∨ ForgedZero b f false (datumOf f X) (datumOf f Y))) := by
  refine unary_sat_any' G h64 (R := Ieee.Integral (fun v => ⌊v⌋))
    (S := fun dx dy => IntException (fun s => if s then 1 else 0) dx dy ∨ ForgedZero b f false dx dy) Ieee.Integral.unique
    (fun ex => C26_floor_complete G ex) (fun ex h => ?_) (fun ex h => ?_)
  · rw [exc_iff] at h; exact (C26_floor_every_width G hp ex).1 h
  · rw [exc_iff]; exact (C26_floor_every_width G hp ex).2 h

/-- **C41** `Ceil`, every table width. -/
theorem C41_ceil (G : Good p b f) (h64 : 1 + f.E + f.M ≤ 64) (hp : 2 ^ (3 * f.M + f.E + 4 + 3 * b) ≤ p) (X Y : ZMod p) (st : Bool) :
    (unaryCircuit f (fCeil f) X Y).Sat b st () ↔ IsPattern f X ∧ IsPattern f Y ∧
      (Ieee.Integral (fun v => ⌈v⌉) (datumOf f X) (datumOf f Y) ∨
        (IntException (fun s => if s then 0 else 1) (datumOf f X) (datumOf f Y) ∨ ForgedZero b f true (datumOf f X) (datumOf f Y))) := by
  refine unary_sat_any' G h64 (R := Ieee.Integral (fun v => ⌈v⌉))
    (S := fun dx dy => IntException (fun s => if s then 0 else 1) dx dy ∨ ForgedZero b f true dx dy) Ieee.Integral.unique
    (fun ex => C26_ceil_complete G ex) (fun ex h => ?_) (fun ex h => ?_)
  · rw [exc_iff] at h; exact (C26_ceil_every_width G hp ex).1 h
  · rw [exc_iff]; exact (C26_ceil_every_width G hp ex).2 h

/-- The automatic widths of the double-precision circuits for roundings: 5 in a rank-one system, 6 with PLONK. -/
def roundWidth : Backend → ℕ
  | .scs => 6
  | _ => 5

theorem roundWidth_eq (be : Backend) :
    baseLength be 0 ((newFloatShape f64 ++ newFloatShape f64 ++ truncShape f64).map Prod.fst) = roundWidth be := by
  cases be <;> decide +kernel

/-- **C41** `F64UnaryCircuit` with `Floor` and `Ceil`, every back-end, at the width the code selects. -/
theorem C41_f64_floor_ceil (hp : GoodField p f64) (be : Backend) (X Y : ZMod p) (st : Bool) :
    (Accepts be st 0 f64.pow2Size (unaryCircuit f64 (fFloor f64) X Y) () ↔ IsPattern f64 X ∧ IsPattern f64 Y ∧
      (Ieee.Integral (fun v => ⌊v⌋) (datumOf f64 X) (datumOf f64 Y) ∨
        (IntException (fun s => if s then 1 else 0) (datumOf f64 X) (datumOf f64 Y) ∨
          ForgedZero (roundWidth be) f64 false (datumOf f64 X) (datumOf f64 Y)))) ∧
    (Accepts be st 0 f64.pow2Size (unaryCircuit f64 (fCeil f64) X Y) () ↔ IsPattern f64 X ∧ IsPattern f64 Y ∧
      (Ieee.Integral (fun v => ⌈v⌉) (datumOf f64 X) (datumOf f64 Y) ∨
        (IntException (fun s => if s then 0 else 1) (datumOf f64 X) (datumOf f64 Y) ∨
          ForgedZero (roundWidth be) f64 true (datumOf f64 X) (datumOf f64 Y)))) := by
  rw [accepts_iff (shape_unary shape_floor X Y), accepts_iff (shape_unary shape_ceil X Y), roundWidth_eq]
  have hw : roundWidth be = 4 ∨ roundWidth be = 5 ∨ roundWidth be = 6 := by cases be <;> simp [roundWidth]
  generalize roundWidth be = w at *
  have hle : 2 ^ (3 * f64.M + f64.E + 4 + 3 * w) ≤ p := by
    refine le_trans (Nat.pow_le_pow_right (by norm_num) ?_) (goodField_pow64 hp)
    simp only [f64]; omega
  exact ⟨C41_floor (hp w (width_le6 hw)) (by decide) hle X Y st, C41_ceil (hp w (width_le6 hw)) (by decide) hle X Y st⟩

/-- The numbers `2^e + 2^-11` are concerned, on every back-end, `e` from 0 to 41. -/
theorem floorForge_f64 (be : Backend) {e : ℕ} (he : e ≤ 41) : FloorForge (roundWidth be) f64 (2 ^ e + (2:ℝ)⁻¹ ^ 11) := by
  have h1 : 1 < 2 ^ slack (roundWidth be) f64.pow2Size := by cases be <;> decide
  refine ⟨2 ^ 52 + 2 ^ (41 - e), e, 1, ?_, ?_, ?_, by norm_num, h1, ?_, ?_⟩
  · exact Nat.le_add_right _ _
  · have : 2 ^ (41 - e) ≤ 2 ^ 41 := Nat.pow_le_pow_right (by norm_num) (by omega)
    simp only [f64]; omega
  · obtain ⟨j, hj⟩ : ∃ j, 41 = e + j := ⟨41 - e, by omega⟩
    have hM : (f64.M : ℤ) = 52 := rfl
    rw [show 41 - e = j by omega, hM]
    rw [Nat.cast_add, Nat.cast_pow, Nat.cast_pow, Nat.cast_ofNat, add_mul, ← zpow_natCast (2:ℝ) 52, ← zpow_natCast (2:ℝ) j, ← zpow_natCast (2:ℝ) e, ← zpow_add₀ (by norm_num), ← zpow_add₀ (by norm_num),
      inv_pow, ← zpow_natCast (2:ℝ) 11, ← zpow_neg]
    congr 2 <;> push_cast <;> omega
  · simp only [f64, Fmt.pow2Size]; omega
  · generalize slack (roundWidth be) (f64.M + 1) = d
    obtain ⟨j, hj⟩ : ∃ j, 41 = e + j := ⟨41 - e, by omega⟩
    refine ⟨2 ^ (41 + d), ?_⟩
    simp only [f64, Fmt.pow2Size]
    rw [show 41 - e = j by omega, show 52 - e + 1 = j + 12 by omega, one_mul, add_mul, add_mul, add_mul]
    simp only [← pow_add]
    rw [add_comm]
    congr 2 <;> omega

/-- **C41** (violated) `F64UnaryCircuit` with `Floor`, every back-end and every field: `Floor(2^e + 2^-11) = 0` is accepted for
every `e` from 0 to 41. -/
theorem C41_f64_floor_forgeable_family (hp : GoodField p f64) (be : Backend) (st : Bool) {X : ZMod p} {e : ℕ} (he : e ≤ 41)
    (hX : IsPattern f64 X) (hd : datumOf f64 X = .fin false (2 ^ e + (2:ℝ)⁻¹ ^ 11)) :
    Accepts be st 0 f64.pow2Size (unaryCircuit f64 (fFloor f64) X 0) () := by
  have h0 : IsPattern f64 (0 : ZMod p) := by unfold IsPattern; rw [ZMod.val_zero]; decide
  have hd0 : datumOf f64 (0 : ZMod p) = .fin false 0 := by
    unfold datumOf; rw [ZMod.val_zero]; norm_num [Ieee.decodeBits, Ieee.Format.bias, f64]
  exact ((C41_f64_floor_ceil hp be X 0 st).1).2 ⟨hX, h0, Or.inr (Or.inr ⟨_, hd, floorForge_f64 be he, hd0⟩)⟩

/-- The hypotheses are met: `4096 + 2^-11`. -/
example : datumOf f64 (0x40B0000020000000 : ZMod bn254) = .fin false (2 ^ 12 + (2:ℝ)⁻¹ ^ 11) := by
  have e : (0x40B0000020000000 : ZMod bn254).val = 0x40B0000020000000 := by decide +kernel
  unfold datumOf; rw [e]
  norm_num [Ieee.decodeBits, Ieee.Format.bias, f64]
  decide

/-! ### Multiplication and division -/

/-- The results a dishonest lookup answer adds to `Mul`: for operands whose exact product it divides (`MulForge`), the product of its sign
with the significand replaced by zero, i.e. a zero, or a NaN where an operand is infinite or the exponent overflows. -/
def MulForged (b : ℕ) (f : Fmt) (dx dy dz : Datum) : Prop :=
  ∃ x y : Flt, x.Valid f ∧ y.Valid f ∧ x.datum f = dx ∧ y.datum f = dy ∧ MulForge b f x y ∧ ∃ c, (mulFin f x y 0 c).datum f = dz

/-- The same for `Div`. -/
def DivForged (b : ℕ) (f : Fmt) (dx dy dz : Datum) : Prop :=
  ∃ x y : Flt, x.Valid f ∧ y.Valid f ∧ x.datum f = dx ∧ y.datum f = dy ∧ DivForge b f x y ∧ ∃ c, (divFin f x y 0 c).datum f = dz

theorem mulFin_zero_valid (G : Good p b f) {x y : Flt} (hx : x.Valid f) (hy : y.Valid f) (c : Bool) :
    (mulFin f x y 0 c).Valid f ∧ ((x.abn = true ∨ y.abn = true) → (mulFin f x y 0 c).datum f = .nan) := by
  have p1 : ¬ (0 = 2 ^ (f.M + 1)) := by have := Nat.two_pow_pos (f.M + 1); omega
  obtain ⟨a, ha⟩ : ∃ a, a = (decide (f.eMax < mulE f x y) || (decide (mulE f x y = f.eMax) && c) || (x.abn || y.abn)) := ⟨_, rfl⟩
  have hz : mulFin f x y 0 c = ⟨xor x.sign y.sign, if a then f.eMax else f.eMin, 0, a⟩ := by
    unfold mulFin fixZ
    simp only [p1, decide_false, Bool.false_eq_true, if_false, add_zero, decide_true, if_true, ← ha]
  rw [hz]
  constructor
  · cases a
    · exact .zero _
    · exact .nan _
  · intro h
    have : a = true := by rw [ha]; rcases h with h | h <;> simp [h]
    simp [Flt.datum, this]

theorem divFin_zero_valid (G : Good p b f) {x y : Flt} (hx : x.Valid f) (hy : y.Valid f) (c : Bool) :
    (divFin f x y 0 c).Valid f ∧ ((x.abn = true ∨ y.man = 0) → (divFin f x y 0 c).datum f = .nan) := by
  have p1 : ¬ (0 = 2 ^ (f.M + 1)) := by have := Nat.two_pow_pos (f.M + 1); omega
  obtain ⟨a, ha⟩ : ∃ a, a = (decide (f.eMax < divE f x y) || (decide (divE f x y = f.eMax) && c) || (x.abn || decide (y.man = 0))) := ⟨_, rfl⟩
  have hz : divFin f x y 0 c = ⟨xor x.sign y.sign, if a then f.eMax else f.eMin, 0, a⟩ := by
    unfold divFin fixZ
    simp only [p1, decide_false, Bool.false_eq_true, if_false, add_zero, decide_true, if_true, ← ha, Bool.true_or]
  rw [hz]
  constructor
  · cases a
    · exact .zero _
    · exact .nan _
  · intro h
    have : a = true := by rw [ha]; rcases h with h | h <;> simp [h]
    simp [Flt.datum, this]

/-- **C41** Multiplication, every table width: accepted are exactly the IEEE product and the forged results. -/
theorem C41_mul (G : Good p b f) (h64 : 1 + f.E + f.M ≤ 64) (hp : 2 ^ (4 * f.M + f.E + 5 + 3 * (b - 1)) ≤ p) (X Y Z : ZMod p) (st : Bool) :
    (binaryCircuit f (fMul f) X Y Z).Sat b st () ↔ IsPattern f X ∧ IsPattern f Y ∧ IsPattern f Z ∧
      (Ieee.Mul ⟨f.E, f.M⟩ (datumOf f X) (datumOf f Y) (datumOf f Z) ∨ MulForged b f (datumOf f X) (datumOf f Y) (datumOf f Z)) := by
  rw [binary_sat G h64]
  refine and_congr_right fun h1 => and_congr_right fun h2 => and_congr_right fun h3 => ?_
  have eZ := wiresOf_encodes G h64 h3
  obtain ⟨x, hx, ex, wx⟩ := encodes_iff.1 (wiresOf_encodes G h64 h1)
  obtain ⟨y, hy, ey, wy⟩ := encodes_iff.1 (wiresOf_encodes G h64 h2)
  rw [wx, wy, ← ex, ← ey]
  obtain ⟨m1, m2, m3⟩ := mulZ_correct G hx hy
  simp only [(fMul_spec_any (H := True) G (hx.bdd G) (hy.bdd G) hp).sat trivial]
  have hgood : Encodes f ((mulZ f x y true).toVar : FloatVar p) ((mulZ f x y true).datum f) := encodes_iff.2 ⟨_, m1, rfl, rfl⟩
  have hforg : ∀ c, Encodes f ((mulFin f x y 0 c).toVar : FloatVar p) ((mulFin f x y 0 c).datum f) := fun c =>
    encodes_iff.2 ⟨_, (mulFin_zero_valid G hx hy c).1, rfl, rfl⟩
  constructor
  · rintro ⟨r, ⟨c, rfl⟩ | ⟨h4, c, rfl⟩, h5⟩
    · cases c with
      | true => left; rw [← ((C28_assertIsEqual G hgood eZ).2 st).1 h5]; exact m2
      | false =>
        rcases m3 with ⟨m3, _⟩ | ⟨_, _, m3⟩
        · rw [m3] at h5; left; rw [← ((C28_assertIsEqual G hgood eZ).2 st).1 h5]; exact m2
        · exact absurd h5 (overflowed_rejected G (overflowed_of_pseudo m3) eZ)
    · right; exact ⟨x, y, hx, hy, rfl, rfl, h4, c, ((C28_assertIsEqual G (hforg c) eZ).2 st).1 h5⟩
  · rintro (h | ⟨x', y', hx', hy', ex', ey', h4, c, h5⟩)
    · exact ⟨_, Or.inl ⟨true, rfl⟩, ((C28_assertIsEqual G hgood eZ).2 st).2 (Ieee.Mul.unique m2 h)⟩
    · by_cases hn : x'.datum f = .nan ∨ y'.datum f = .nan
      · have ha : x'.abn = true ∨ y'.abn = true := by
          rcases hn with hn | hn
          · left; by_contra h; rw [datum_fin (by simpa using h)] at hn; cases hn
          · right; by_contra h; rw [datum_fin (by simpa using h)] at hn; cases hn
        rw [(mulFin_zero_valid G hx' hy' c).2 ha] at h5
        refine ⟨_, Or.inl ⟨true, rfl⟩, ((C28_assertIsEqual G hgood eZ).2 st).2 (Ieee.Mul.unique m2 ?_)⟩
        rw [← h5, ← ex', ← ey']
        rcases hn with hn | hn <;> rw [hn]
        · cases y'.datum f <;> rfl
        · cases x'.datum f <;> rfl
      · push Not at hn
        have e1 := (datum_inj G hx' hx ex').2 hn.1
        have e2 := (datum_inj G hy' hy ey').2 hn.2
        subst e1; subst e2
        exact ⟨_, Or.inr ⟨h4, c, rfl⟩, ((C28_assertIsEqual G (hforg c) eZ).2 st).2 h5⟩

/-- **C41** Division, every table width. -/
theorem C41_div (G : Good p b f) (h64 : 1 + f.E + f.M ≤ 64) (hp : 2 ^ (3 * f.M + f.E + 6 + 3 * (b - 1)) ≤ p) (X Y Z : ZMod p) (st : Bool) :
    (binaryCircuit f (fDiv f) X Y Z).Sat b st () ↔ IsPattern f X ∧ IsPattern f Y ∧ IsPattern f Z ∧
      (Ieee.Div ⟨f.E, f.M⟩ (datumOf f X) (datumOf f Y) (datumOf f Z) ∨ DivForged b f (datumOf f X) (datumOf f Y) (datumOf f Z)) := by
  rw [binary_sat G h64]
  refine and_congr_right fun h1 => and_congr_right fun h2 => and_congr_right fun h3 => ?_
  have eZ := wiresOf_encodes G h64 h3
  obtain ⟨x, hx, ex, wx⟩ := encodes_iff.1 (wiresOf_encodes G h64 h1)
  obtain ⟨y, hy, ey, wy⟩ := encodes_iff.1 (wiresOf_encodes G h64 h2)
  rw [wx, wy, ← ex, ← ey]
  obtain ⟨m1, m2, m3⟩ := divZ_correct G hx hy
  simp only [(fDiv_spec_any (H := True) G (hx.bdd G) (hy.bdd G) hy.man_cases hp).sat trivial]
  have hgood : Encodes f ((divZ f x y true).toVar : FloatVar p) ((divZ f x y true).datum f) := encodes_iff.2 ⟨_, m1, rfl, rfl⟩
  have hforg : ∀ c, Encodes f ((divFin f x y 0 c).toVar : FloatVar p) ((divFin f x y 0 c).datum f) := fun c =>
    encodes_iff.2 ⟨_, (divFin_zero_valid G hx hy c).1, rfl, rfl⟩
  constructor
  · rintro ⟨r, ⟨c, rfl⟩ | ⟨h4, c, rfl⟩, h5⟩
    · cases c with
      | true => left; rw [← ((C28_assertIsEqual G hgood eZ).2 st).1 h5]; exact m2
      | false =>
        rcases m3 with ⟨m3, _⟩ | ⟨_, _, _, m3⟩
        · rw [m3] at h5; left; rw [← ((C28_assertIsEqual G hgood eZ).2 st).1 h5]; exact m2
        · exact absurd h5 (overflowed_rejected G (overflowed_of_pseudo m3) eZ)
    · right; exact ⟨x, y, hx, hy, rfl, rfl, h4, c, ((C28_assertIsEqual G (hforg c) eZ).2 st).1 h5⟩
  · rintro (h | ⟨x', y', hx', hy', ex', ey', h4, c, h5⟩)
    · exact ⟨_, Or.inl ⟨true, rfl⟩, ((C28_assertIsEqual G hgood eZ).2 st).2 (Ieee.Div.unique m2 h)⟩
    · by_cases hn : x'.datum f = .nan ∨ y'.datum f = .nan
      · have ha : x'.abn = true ∨ y'.man = 0 := by
          rcases hn with hn | hn
          · left; by_contra h; rw [datum_fin (by simpa using h)] at hn; cases hn
          · right; exact congrArg Flt.man (valid_nan_eq hy' hn)
        rw [(divFin_zero_valid G hx' hy' c).2 ha] at h5
        refine ⟨_, Or.inl ⟨true, rfl⟩, ((C28_assertIsEqual G hgood eZ).2 st).2 (Ieee.Div.unique m2 ?_)⟩
        rw [← h5, ← ex', ← ey']
        rcases hn with hn | hn <;> rw [hn]
        · cases y'.datum f <;> rfl
        · cases x'.datum f <;> rfl
      · push Not at hn
        have e1 := (datum_inj G hx' hx ex').2 hn.1
        have e2 := (datum_inj G hy' hy ey').2 hn.2
        subst e1; subst e2
        exact ⟨_, Or.inr ⟨h4, c, rfl⟩, ((C28_assertIsEqual G (hforg c) eZ).2 st).2 h5⟩

/-- The widths that the code selects for multiplication and division. -/
theorem widths_auto_mul_div (be : Backend) :
    (∀ w, w = baseLength be 0 ((newFloatShape f32 ++ newFloatShape f32 ++ newFloatShape f32 ++ mulShape f32).map Prod.fst) → w = 4 ∨ w = 5 ∨ w = 6) ∧
    (∀ w, w = baseLength be 0 ((newFloatShape f64 ++ newFloatShape f64 ++ newFloatShape f64 ++ mulShape f64).map Prod.fst) → w = 4 ∨ w = 5 ∨ w = 6) ∧
    (∀ w, w = baseLength be 0 ((newFloatShape f32 ++ newFloatShape f32 ++ newFloatShape f32 ++ divShape f32).map Prod.fst) → w = 4 ∨ w = 5 ∨ w = 6) ∧
    (∀ w, w = baseLength be 0 ((newFloatShape f64 ++ newFloatShape f64 ++ newFloatShape f64 ++ divShape f64).map Prod.fst) → w = 4 ∨ w = 5 ∨ w = 6) := by
  simp only [forall_eq]
  cases be <;> decide +kernel

/-- **C41** `F32BinaryCircuit` and `F64BinaryCircuit` with `Mul` and `Div`, every back-end, at the width the code selects. -/
theorem C41_mul_div_auto (f : Fmt) (hf : f = f32 ∨ f = f64) (hp : GoodField p f) (be : Backend) (X Y Z : ZMod p) (st : Bool) :
    (Accepts be st 0 f.pow2Size (binaryCircuit f (fMul f) X Y Z) () ↔ IsPattern f X ∧ IsPattern f Y ∧ IsPattern f Z ∧
      (Ieee.Mul ⟨f.E, f.M⟩ (datumOf f X) (datumOf f Y) (datumOf f Z) ∨
        MulForged (baseLength be 0 ((newFloatShape f ++ newFloatShape f ++ newFloatShape f ++ mulShape f).map Prod.fst)) f
          (datumOf f X) (datumOf f Y) (datumOf f Z))) ∧
    (Accepts be st 0 f.pow2Size (binaryCircuit f (fDiv f) X Y Z) () ↔ IsPattern f X ∧ IsPattern f Y ∧ IsPattern f Z ∧
      (Ieee.Div ⟨f.E, f.M⟩ (datumOf f X) (datumOf f Y) (datumOf f Z) ∨
        DivForged (baseLength be 0 ((newFloatShape f ++ newFloatShape f ++ newFloatShape f ++ divShape f).map Prod.fst)) f
          (datumOf f X) (datumOf f Y) (datumOf f Z))) := by
  rw [accepts_iff (shape_binary shape_mul X Y Z), accepts_iff (shape_binary shape_div X Y Z)]
  obtain ⟨w1, w2, w3, w4⟩ := widths_auto_mul_div be
  have hE := (hp 4 width4).hE
  have hw : ∀ w w', (w = 4 ∨ w = 5 ∨ w = 6) → (w' = 4 ∨ w' = 5 ∨ w' = 6) →
      ((binaryCircuit f (fMul f) X Y Z).Sat w st () ↔ IsPattern f X ∧ IsPattern f Y ∧ IsPattern f Z ∧
        (Ieee.Mul ⟨f.E, f.M⟩ (datumOf f X) (datumOf f Y) (datumOf f Z) ∨ MulForged w f (datumOf f X) (datumOf f Y) (datumOf f Z))) ∧
      ((binaryCircuit f (fDiv f) X Y Z).Sat w' st () ↔ IsPattern f X ∧ IsPattern f Y ∧ IsPattern f Z ∧
        (Ieee.Div ⟨f.E, f.M⟩ (datumOf f X) (datumOf f Y) (datumOf f Z) ∨ DivForged w' f (datumOf f X) (datumOf f Y) (datumOf f Z))) := by
    intro w w' h h'
    have h64 : 1 + f.E + f.M ≤ 64 := by rcases hf with rfl | rfl <;> decide
    have hEb : f.E ≤ 11 ∧ f.E ≤ f.M := by rcases hf with rfl | rfl <;> decide
    refine ⟨C41_mul (hp w (width_le6 h)) h64 ?_ X Y Z st, C41_div (hp w' (width_le6 h')) h64 ?_ X Y Z st⟩
    · exact le_trans (Nat.pow_le_pow_right (by norm_num) (by omega)) (hp 4 width4).hp
    · exact le_trans (Nat.pow_le_pow_right (by norm_num) (by omega)) (hp 4 width4).hp
  rcases hf with rfl | rfl
  · exact hw _ _ (w1 _ rfl) (w3 _ rfl)
  · exact hw _ _ (w2 _ rfl) (w4 _ rfl)

/-! ### Conversion to an integer -/

/-- **C27** What every prover can obtain from `ToInt` for `±a`, `2^e ≤ a < 2^(e+1)`, at every table width: besides `±a` (for `t = 0`) also
`±a * (2^t + t * 2^(M+E+1-e))`, for every `t` below `2^slack` with `e + t` below the size. -/
theorem C27_toInt_every_width (G : Good p b f) {x : FloatVar p} {s : Bool} {a : ℝ} (ex : Encodes f x (.fin s a)) {e : ℕ}
    (h1 : 2 ^ e ≤ a) (h2 : a < 2 ^ (e + 1)) (he : e < f.pow2Size) {n j : ℕ} (hn : a * 2 ^ j = n) {st : Bool} {r : ZMod p} :
    (fToInt f x).Sat b st r ↔
      ∃ t, t < 2 ^ slack b f.pow2Size ∧ e + t < f.pow2Size ∧ r * 2 ^ j = signedNat s (n * (2 ^ t + t * 2 ^ (f.pow2Size - e))) := by
  obtain ⟨x, hx, hd, rfl⟩ := encodes_iff.1 ex
  obtain ⟨hab, rfl, rfl⟩ := datum_fin_iff.1 hd
  have hEM := G.hEM
  have hM2 := G.hM2
  have hE := G.hE
  have hps : f.pow2Size = f.M + f.E + 1 := rfl
  have hpos : (0:ℝ) < 2 ^ e := by positivity
  have hm : x.man ≠ 0 := fun h => by rw [mag_eq_zero.2 h] at h1; linarith
  have hlo : 2 ^ f.M ≤ x.man := hx.man_cases.resolve_left hm
  have hexp : x.exp = e := by
    have a1 : (2:ℝ) ^ x.exp ≤ x.mag f := pow_real_ge hlo
    have a2 : x.mag f < 2 ^ (x.exp + 1) := pow_real_lt hx.man_lt
    have b1 : (2:ℝ) ^ (e:ℤ) ≤ x.mag f := by rw [zpow_natCast]; exact h1
    have b2 : x.mag f < 2 ^ ((e:ℤ) + 1) := by rw [← Nat.cast_succ, zpow_natCast]; exact h2
    have c1 := (zpow_lt_zpow_iff_right₀ (by norm_num : (1:ℝ) < 2)).1 (a1.trans_lt b2)
    have c2 := (zpow_lt_zpow_iff_right₀ (by norm_num : (1:ℝ) < 2)).1 (b1.trans_lt a2)
    omega
  have hMz := G.hMz
  have hmn := f.eMin_eq
  have hk : toIntExp f x = e := by
    unfold toIntExp; rw [if_neg (by omega), hexp]
  have hv : toIntVal f x ((2 ^ e : ℕ) : ZMod p) * 2 ^ j = signedNat x.sign n := by
    push_cast; exact toIntVal_spec (p := p) G hx hab hk hn
  have h20 : (2 : ZMod p) ≠ 0 := two_ne_zero G
  rw [fToInt_iff G (hx.bdd G), hk, Int.cast_natCast]
  have hT : ∀ t, e + t < f.pow2Size → (2 ^ (e + t) + t * 2 ^ f.pow2Size : ℕ) = 2 ^ e * (2 ^ t + t * 2 ^ (f.pow2Size - e)) := by
    intro t _
    have : 2 ^ f.pow2Size = 2 ^ e * 2 ^ (f.pow2Size - e) := by rw [← pow_add]; congr 1; omega
    rw [this, pow_add]; ring
  have hval : ∀ t, e + t < f.pow2Size → toIntVal f x (((2 ^ (e + t) + t * 2 ^ f.pow2Size : ℕ)) : ZMod p) * 2 ^ j =
      signedNat x.sign (n * (2 ^ t + t * 2 ^ (f.pow2Size - e))) := by
    intro t ht
    rw [hT t ht]
    have e1 : ∀ y z : ZMod p, toIntVal f x (y * z) = toIntVal f x y * z := by
      intro y z; unfold toIntVal; cases x.sign <;> simp only [Bool.false_eq_true, if_false, if_true] <;> ring
    rw [Nat.cast_mul, e1]
    have e2 : ∀ (u v : ℕ), signedNat (p := p) x.sign (u * v) = signedNat x.sign u * ((v : ℕ) : ZMod p) := by
      intro u v; unfold signedNat; cases x.sign <;> simp
    rw [e2, ← hv, mul_right_comm]
  constructor
  · rintro ⟨T, hT1, rfl⟩
    obtain ⟨t, g1, g2, rfl⟩ := (sat_queryPowerOf2_nat G.width (by omega) (G.pow_le (by omega))
      (he.trans (Nat.lt_two_pow_self)) st T).1 hT1
    exact ⟨t, g1, g2, hval t g2⟩
  · rintro ⟨t, g1, g2, h⟩
    refine ⟨_, (sat_queryPowerOf2_nat G.width (by omega) (G.pow_le (by omega)) (he.trans (Nat.lt_two_pow_self)) st _).2
      ⟨t, g1, g2, rfl⟩, ?_⟩
    rw [← hval t g2] at h
    exact mul_right_cancel₀ (pow_ne_zero _ h20) h

/-- **C27** (violated at every width that does not divide the size) every non-zero integer of at most `M + E` binary digits also converts
to another integer. -/
theorem C27_toInt_forgeable_every_width (G : Good p b f) (hb : ¬ b ∣ f.pow2Size) {x : FloatVar p} {s : Bool} {n : ℕ}
    (ex : Encodes f x (.fin s n)) (h0 : n ≠ 0) (hn : n < 2 ^ (f.M + f.E)) (st : Bool) :
    ∃ r, (fToInt f x).Sat b st r ∧ r ≠ signedNat s n ∧ (fToInt f x).run b = some (signedNat s n) := by
  have hps : f.pow2Size = f.M + f.E + 1 := rfl
  have hsl : 0 < slack b f.pow2Size := by
    by_contra h
    have hb0 : 0 < b := by have := G.width.1; omega
    have := slack_add (b := b) (bits := f.pow2Size) hb0
    exact hb ⟨decompSize f.pow2Size b, by rw [mul_comm]; omega⟩
  obtain ⟨e, he1, he2⟩ : ∃ e, 2 ^ e ≤ n ∧ n < 2 ^ (e + 1) :=
    ⟨Nat.log 2 n, Nat.pow_log_le_self 2 h0, Nat.lt_pow_succ_log_self (by norm_num) n⟩
  have he : e < f.M + f.E := (Nat.pow_lt_pow_iff_right (by norm_num)).1 (he1.trans_lt hn)
  have hN := fun r => C27_toInt_every_width (b := b) (r := r) G ex (e := e) (by exact_mod_cast he1) (by exact_mod_cast he2) (by omega) (n := n) (j := 0)
    (by simp) (st := st)
  refine ⟨signedNat s (n * (2 ^ 1 + 1 * 2 ^ (f.pow2Size - e))), (hN _).2 ⟨1, Nat.one_lt_two_pow (by omega), by omega, by simp⟩, ?_, ?_⟩
  · have hE := G.hE
    have hEM := G.hEM
    have hinj : ∀ {u v : ℕ}, u < p → v < p → signedNat (p := p) s u = signedNat s v → u = v := by
      intro u v hu hv h
      unfold signedNat at h
      cases s
      · exact (natCast_inj hu hv).1 h
      · exact (natCast_inj hu hv).1 (neg_inj.1 h)
    intro h
    have hlt : n * (2 ^ 1 + 1 * 2 ^ (f.pow2Size - e)) < 2 ^ (e + 1) * 2 ^ (f.pow2Size - e + 1) := by
      have h2 : 2 ≤ 2 ^ (f.pow2Size - e) := by
        calc 2 = 2 ^ 1 := by norm_num
          _ ≤ _ := Nat.pow_le_pow_right (by norm_num) (by omega)
      refine lt_of_lt_of_le (Nat.mul_lt_mul_of_pos_right he2 (by positivity)) (Nat.mul_le_mul_left _ ?_)
      rw [pow_succ 2 (f.pow2Size - e)]; omega
    rw [← pow_add] at hlt
    have h3 := hinj (lt_of_lt_of_le hlt (G.pow_le (by omega))) (lt_of_lt_of_le he2 (G.pow_le (by omega))) h
    have h4 : n * 2 ≤ n * (2 ^ 1 + 1 * 2 ^ (f.pow2Size - e)) := Nat.mul_le_mul_left _ (by omega)
    omega
  · obtain ⟨r', g1, g2⟩ := C27_toInt_complete (b := b) G ex (Or.inr ⟨by exact_mod_cast Nat.one_le_iff_ne_zero.2 h0, by
      have : n < 2 ^ f.pow2Size := hn.trans (Nat.pow_lt_pow_right (by norm_num) (by omega))
      exact_mod_cast this⟩)
    have g3 := g2 n 0 (by simp)
    rw [pow_zero, mul_one] at g3
    rw [g1, g3]

/-- Concrete case: `ToInt(1) = 2 + 2^32` at width 12, size 32. -/
example (st : Bool) : (fToInt f32 (w32 0x3F800000)).Sat 12 st (2 + 2 ^ 32) :=
  (C27_toInt_every_width (e := 0) (n := 1) (j := 0) (good_bn254_f32 ⟨by norm_num, by norm_num⟩) toInt32_one_encodes (by norm_num)
    (by norm_num) (by decide) (by norm_num)).2 ⟨1, by decide, by decide, by norm_num [signedNat, f32, Fmt.pow2Size]⟩

/-- What `ToInt` yields for the integral float `±n` below `2^(M+E+1)`: zero, or one of the multiples of `C27_toInt_every_width`. -/
def IntAnswer (b : ℕ) (f : Fmt) (s : Bool) (n : ℕ) (Y : ZMod p) : Prop :=
  (n = 0 ∧ Y = 0) ∨ (n ≠ 0 ∧ ∃ t, t < 2 ^ slack b f.pow2Size ∧ Nat.log 2 n + t < f.pow2Size ∧
    Y = signedNat s (n * (2 ^ t + t * 2 ^ (f.pow2Size - Nat.log 2 n))))

/-- At widths dividing the size only the integer itself. -/
theorem intAnswer_dvd {s : Bool} {n : ℕ} {Y : ZMod p} (hb : slack b f.pow2Size = 0) (hn : n < 2 ^ f.pow2Size) :
    IntAnswer b f s n Y ↔ Y = signedNat s n := by
  unfold IntAnswer
  by_cases h0 : n = 0
  · subst h0; simp [signedNat]
  · have hlog : Nat.log 2 n < f.pow2Size := Nat.log_lt_of_lt_pow h0 hn
    simp only [h0, false_and, false_or, ne_eq, not_false_eq_true, true_and, hb, pow_zero, Nat.lt_one_iff]
    constructor
    · rintro ⟨t, rfl, -, rfl⟩; simp
    · rintro rfl; exact ⟨0, rfl, by omega, by simp⟩

/-- A record with zero mantissa and exponent below the size converts to zero. -/
theorem toInt_zero (G : Good p b f) {x : Flt} (hx : x.Bdd f) (hm : x.man = 0) {k : ℕ} (hk : toIntExp f x = k) (hlt : k < f.pow2Size)
    {st : Bool} {r : ZMod p} : (fToInt f (x.toVar : FloatVar p)).Sat b st r ↔ r = 0 := by
  have hEM := G.hEM
  have hM2 := G.hM2
  have hE := G.hE
  have hps : f.pow2Size = f.M + f.E + 1 := rfl
  have hv : ∀ T : ZMod p, toIntVal f x T = 0 := fun T => by unfold toIntVal; rw [hm]; simp
  rw [fToInt_iff G hx, hk, Int.cast_natCast]
  constructor
  · rintro ⟨T, -, rfl⟩; exact hv T
  · rintro rfl
    exact ⟨_, (sat_queryPowerOf2_nat G.width (by omega) (G.pow_le (by omega)) (hlt.trans Nat.lt_two_pow_self) st _).2
      ⟨0, by positivity, by omega, rfl⟩, (hv _).symm⟩

/-- `ToInt` of an integral float, at every table width. -/
theorem toInt_integral_any (G : Good p b f) {x : FloatVar p} {s : Bool} {n : ℕ} (ex : Encodes f x (.fin s n))
    (hn : n < 2 ^ f.pow2Size) {st : Bool} {r : ZMod p} : (fToInt f x).Sat b st r ↔ IntAnswer b f s n r := by
  unfold IntAnswer
  by_cases h0 : n = 0
  · subst h0
    obtain ⟨x, hx, hd, rfl⟩ := encodes_iff.1 ex
    have hps : f.pow2Size = f.M + f.E + 1 := rfl
    rw [Nat.cast_zero] at hd
    have hz := valid_zero_eq hx hd
    rw [toInt_zero G (hx.bdd G) (by rw [hz]) (k := 0) (by rw [hz]; unfold toIntExp; simp) (by omega)]
    simp
  · have h1 : 2 ^ Nat.log 2 n ≤ n := Nat.pow_log_le_self 2 h0
    have h2 : n < 2 ^ (Nat.log 2 n + 1) := Nat.lt_pow_succ_log_self (by norm_num) n
    rw [C27_toInt_every_width G ex (e := Nat.log 2 n) (by exact_mod_cast h1) (by exact_mod_cast h2) (Nat.log_lt_of_lt_pow h0 hn)
      (n := n) (j := 0) (by simp)]
    simp [h0]

theorem trunc_forged' (G : Good p b f) {x : Flt} (hx : x.Valid f) {c : Bool} (hc2 : x.exp < 0 → c = false)
    {t : ℕ} (h0 : 0 < t) (ht : intShift f x c + t < f.pow2Size)
    (hd : 2 ^ (intShift f x c + t) + t * 2 ^ f.pow2Size ∣ x.man * 2 ^ (f.M + 1) * 2 ^ slack b (f.M + 1)) :
    truncZ0 f x c = truncZ f x c ∨ (x.man ≠ 0 ∧ x.abn = false ∧ c = true ∧ 0 ≤ x.exp) := by
  by_cases hm : x.man = 0
  · left; unfold truncZ0 truncZ intQuot dq; rw [hm]; simp
  cases c with
  | false =>
    left
    have h1 : intShift f x false = f.M + 1 := by unfold intShift; simp
    unfold truncZ0 truncZ intQuot dq
    rw [h1]
    have : x.man * 2 ^ (f.M + 1 - (f.M + 1)) / 2 ^ (f.M + 1) = 0 := by
      rw [Nat.sub_self, pow_zero, mul_one]; exact Nat.div_eq_of_lt hx.man_lt
    simp only [this, Bool.false_eq_true, if_false, zero_mul]
  | true =>
    right
    refine ⟨hm, ?_, rfl, by by_contra h; have := hc2 (by omega); cases this⟩
    cases ha : x.abn
    · rfl
    · exfalso
      have hman : x.man = 2 ^ f.M := by
        cases hx with
        | nan => simp at hm
        | inf => rfl
        | zero => simp at ha
        | fin => simp at ha
      rw [hman, ← pow_add, ← pow_add] at hd
      exact pow2Answer_not_dvd h0 ht hd

/-- **C41** Conversion to an integer after `Trunc`, every table width: accepted are exactly the answers of `ToInt` to the truncated number
(or to 0 if `1 ≤ |x| < 2`), and 0 for the numbers that a dishonest lookup answer divides. -/
theorem C41_conversion_trunc (G : Good p b f) (h64 : 1 + f.E + f.M ≤ 64) (hsz : (f.pow2Size : ℤ) ≤ 2 ^ (f.E - 1))
    (hp : 2 ^ (3 * f.M + f.E + 3 + 3 * b) ≤ p) (X Y : ZMod p) (st : Bool) :
    (conversionCircuit f (fTrunc f) X Y).Sat b st () ↔ IsPattern f X ∧
      ((∃ (s : Bool) (n : ℕ), n < 2 ^ f.pow2Size ∧
        (Ieee.Integral Ieee.truncZ (datumOf f X) (.fin s n) ∨ IntException (fun _ => 0) (datumOf f X) (.fin s n)) ∧ IntAnswer b f s n Y) ∨
      (∃ s a, datumOf f X = .fin s a ∧ FloorForge b f a ∧ a < 2 ^ f.pow2Size ∧ Y = 0)) := by
  unfold conversionCircuit
  simp only [Circ.bind_eq, Circ.sat_bind, newFloat_sat_iff G h64]
  have hEM := G.hEM
  have hM2 := G.hM2
  have hE := G.hE
  have hMz := G.hMz
  have hmn := f.eMin_eq
  have hps : f.pow2Size = f.M + f.E + 1 := rfl
  have hmx : f.eMax = 2 ^ (f.E - 1) := rfl
  have hgood : ∀ {r : FloatVar p} {d Y}, Encodes f r d →
      (Ieee.Integral Ieee.truncZ (datumOf f X) d ∨ IntException (fun _ => 0) (datumOf f X) d) → (fToInt f r).Sat b st Y →
      ∃ (s : Bool) (n : ℕ), n < 2 ^ f.pow2Size ∧
        (Ieee.Integral Ieee.truncZ (datumOf f X) (.fin s n) ∨ IntException (fun _ => 0) (datumOf f X) (.fin s n)) ∧ IntAnswer b f s n Y := by
    intro r d Y h4 h5 hr
    by_cases hd : ∀ s a, d = .fin s a → (2:ℝ) ^ f.pow2Size ≤ a
    · exact absurd hr (C27_toInt_rejects_large G h4 hd hsz)
    · push Not at hd
      obtain ⟨s, a, rfl, ha⟩ := hd
      obtain ⟨n, rfl⟩ : ∃ n : ℕ, a = n := by
        rcases h5 with h | ⟨t, c, _, _, _, h⟩
        · exact int_nat h
        · cases h; exact ⟨0, by simp⟩
      have hn : n < 2 ^ f.pow2Size := by exact_mod_cast ha
      exact ⟨s, n, hn, h5, (toInt_integral_any G h4 hn).1 hr⟩
  constructor
  · rintro ⟨_, ⟨hX, rfl⟩, r, hx, Y', hr, he⟩
    refine ⟨hX, ?_⟩
    simp only [assertIsEqual, Circ.Sat, decide_eq_true_eq, and_true] at he
    subst he
    have ex := wiresOf_encodes G h64 hX
    obtain ⟨x, hv, hd, hw⟩ := encodes_iff.1 ex
    rw [hw] at hx ex
    rcases ((fTrunc_spec_any (p := p) (b := b) (H := True) G (hv.bdd G) hp).sat trivial st r).1 hx with
      ⟨c, h1, h2, h3 | ⟨t, h3, h4, h5, h6, rfl⟩⟩
    · left
      rcases (trunc_outcome_exact G hv).1 ⟨c, h1, h2, h3⟩ with h | ⟨s, a, g1, g2, g3, g4⟩
      · obtain ⟨r', d, g1, g2, g3⟩ := C26_trunc_complete (b := b) G ex
        rw [(fTrunc_spec_any (p := p) (b := b) (H := True) G (hv.bdd G) hp).run, h] at g1
        cases g1
        exact hgood g2 (Or.inl g3) hr
      · exact hgood g4 (Or.inr ⟨s, a, by rw [← hd, g1], g2, g3, rfl⟩) hr
    · rcases trunc_forged' G hv h2 h3 h5 h6 with h7 | ⟨hm, ha, rfl, he⟩
      · left
        rcases (trunc_outcome_exact G hv).1 ⟨c, h1, h2, congrArg Flt.toVar h7⟩ with h | ⟨s, a, g1, g2, g3, g4⟩
        · obtain ⟨r', d, g1, g2, g3⟩ := C26_trunc_complete (b := b) G ex
          rw [(fTrunc_spec_any (p := p) (b := b) (H := True) G (hv.bdd G) hp).run, h] at g1
          cases g1
          exact hgood g2 (Or.inl g3) hr
        · exact hgood g4 (Or.inr ⟨s, a, by rw [← hd, g1], g2, g3, rfl⟩) hr
      · right
        have hle := hv.exp_le G
        have hb0 : (truncZ0 f x true).Bdd f := by
          have := (hv.bdd G)
          exact ⟨by simp [truncZ0], by simpa [truncZ0] using this.2, by simpa [truncZ0] using this.3⟩
        have hk : toIntExp f (truncZ0 f x true) = ((x.exp.toNat : ℕ) : ℤ) := by
          unfold toIntExp truncZ0; simp only [if_true]; rw [if_neg (by omega)]; omega
        have hlt : x.exp.toNat < f.pow2Size := by
          rw [fToInt_iff G hb0, hk, Int.cast_natCast] at hr
          obtain ⟨T, g1, -⟩ := hr
          obtain ⟨t', -, g2, -⟩ := (sat_queryPowerOf2_nat G.width (by omega) (G.pow_le (by omega)) (by
            have g2 : 2 ^ f.E ≤ 2 ^ f.pow2Size := Nat.pow_le_pow_right (by norm_num) (by omega)
            have g3 := G.zE
            have g4 : ((2 ^ f.E : ℕ) : ℤ) = 2 * f.eMax := by push_cast; exact g3
            omega) st T).1 g1
          omega
        refine ⟨x.sign, x.mag f, by rw [← hd, datum_fin ha], (floorForge_of G hv ha hm).2 ⟨he, t, h3, h4, h5, h6⟩, ?_,
          (toInt_zero G hb0 rfl hk hlt).1 hr⟩
        have h8 : x.mag f < 2 ^ (x.exp + 1) := pow_real_lt hv.man_lt
        refine lt_of_lt_of_le h8 ?_
        rw [← zpow_natCast]
        exact zpow_le_zpow_right₀ (by norm_num) (by omega)
  · rintro ⟨hX, h⟩
    have ex := wiresOf_encodes G h64 hX
    obtain ⟨x, hv, hd, hw⟩ := encodes_iff.1 ex
    rcases h with ⟨s, n, hn, h5, h6⟩ | ⟨s, a, h5, h6, h7, rfl⟩
    · obtain ⟨r, g1, g2⟩ : ∃ r, (fTrunc f (wiresOf f X)).Sat b st r ∧ Encodes f r (.fin s n) := by
        rcases h5 with h5 | ⟨t, c, g1, g2, g3, g4⟩
        · obtain ⟨r', d', g1, g2, g3⟩ := C26_trunc_complete (b := b) G ex
          rw [Ieee.Integral.unique h5 g3]
          exact ⟨r', (C26_trunc_every_width G hp ex).1 (Or.inl g1), g2⟩
        · obtain ⟨r, hr⟩ := (encodes_zero_one G t (p := p)).1
          rw [g4]
          exact ⟨r, (C26_trunc_every_width G hp ex).1 (Or.inr ⟨t, c, g1, g2, g3, hr⟩), hr⟩
      exact ⟨_, ⟨hX, rfl⟩, r, g1, Y, (toInt_integral_any G g2 hn).2 h6, by simp [assertIsEqual, Circ.Sat]⟩
    · rw [← hd] at h5
      obtain ⟨ha, rfl, rfl⟩ := datum_fin_iff.1 h5
      have hm : x.man ≠ 0 := by
        intro h0
        obtain ⟨m, e, t, h4, -, h5, -⟩ := h6
        rw [mag_eq_zero.2 h0] at h5
        have : 0 < (m:ℝ) := by exact_mod_cast lt_of_lt_of_le (Nat.two_pow_pos _) h4
        have : 0 < (m:ℝ) * (2:ℝ) ^ ((e:ℤ) - f.M) := by positivity
        linarith
      obtain ⟨he, t, g1, g2, g3, g4⟩ := (floorForge_of G hv ha hm).1 h6
      have hb0 : (truncZ0 f x true).Bdd f := by
        have := (hv.bdd G)
        exact ⟨by simp [truncZ0], by simpa [truncZ0] using this.2, by simpa [truncZ0] using this.3⟩
      have hk : toIntExp f (truncZ0 f x true) = ((x.exp.toNat : ℕ) : ℤ) := by
        unfold toIntExp truncZ0; simp only [if_true]; rw [if_neg (by omega)]; omega
      have hlt : x.exp.toNat < f.pow2Size := by
        have h8 : (2:ℝ) ^ x.exp ≤ x.mag f := pow_real_ge (hv.man_cases.resolve_left hm)
        have h9 := h8.trans_lt h7
        rw [← zpow_natCast] at h9
        have := (zpow_lt_zpow_iff_right₀ (by norm_num : (1:ℝ) < 2)).1 h9
        omega
      refine ⟨_, ⟨hX, rfl⟩, (truncZ0 f x true).toVar, ?_, 0, (toInt_zero G hb0 rfl hk hlt).2 rfl, by simp [assertIsEqual, Circ.Sat]⟩
      rw [hw, (fTrunc_spec_any (p := p) (b := b) (H := True) G (hv.bdd G) hp).sat trivial]
      exact ⟨true, fun _ => rfl, fun h => by omega, Or.inr ⟨t, g1, g2, g3, g4, rfl⟩⟩

/-- The automatic widths of the double-precision conversion circuits: 4 (which divides the size 64) in a rank-one system, 5 with PLONK. -/
def convWidth : Backend → ℕ
  | .scs => 5
  | _ => 4

/-- **C41** `F64ConversionCircuit` with `Trunc`, every back-end, at the width the code selects. -/
theorem C41_f64_conversion_trunc (hp : GoodField p f64) (be : Backend) (X Y : ZMod p) (st : Bool) :
    Accepts be st 0 f64.pow2Size (conversionCircuit f64 (fTrunc f64) X Y) () ↔ IsPattern f64 X ∧
      ((∃ (s : Bool) (n : ℕ), n < 2 ^ 64 ∧
        (Ieee.Integral Ieee.truncZ (datumOf f64 X) (.fin s n) ∨ IntException (fun _ => 0) (datumOf f64 X) (.fin s n)) ∧
          IntAnswer (convWidth be) f64 s n Y) ∨
      (∃ s a, datumOf f64 X = .fin s a ∧ FloorForge (convWidth be) f64 a ∧ a < 2 ^ 64 ∧ Y = 0)) := by
  rw [accepts_iff (shape_conversion shape_trunc X Y)]
  have hw : baseLength be 0 ((newFloatShape f64 ++ truncShape f64 ++ [(f64.pow2Size, Mode.loose)]).map Prod.fst) = convWidth be := by
    cases be <;> decide +kernel
  rw [hw]
  have hw' : convWidth be = 4 ∨ convWidth be = 5 ∨ convWidth be = 6 := by cases be <;> simp [convWidth]
  generalize convWidth be = w at *
  have hle : 2 ^ (3 * f64.M + f64.E + 3 + 3 * w) ≤ p := by
    refine le_trans (Nat.pow_le_pow_right (by norm_num) ?_) (goodField_pow64 hp)
    simp only [f64]; omega
  exact C41_conversion_trunc (hp w (width_le6 hw')) (by decide) (by decide) hle X Y st

/-- **C41** In a rank-one system the width 4 divides the size, and the double-precision conversions after `Trunc`, `Floor` and `Ceil` accept
exactly what they should (up to the exception for `1 ≤ |x| < 2`). -/
theorem C41_f64_conversion_r1cs (hp : GoodField p f64) (X Y : ZMod p) (st : Bool) :
    (Accepts .r1cs st 0 f64.pow2Size (conversionCircuit f64 (fTrunc f64) X Y) () ↔ IsPattern f64 X ∧ ∃ (s : Bool) (n : ℕ), n < 2 ^ 64 ∧
      (Ieee.Integral Ieee.truncZ (datumOf f64 X) (.fin s n) ∨ IntException (fun _ => 0) (datumOf f64 X) (.fin s n)) ∧
      Y = signedNat s n) ∧
    (Accepts .r1cs st 0 f64.pow2Size (conversionCircuit f64 (fFloor f64) X Y) () ↔ IsPattern f64 X ∧ ∃ (s : Bool) (n : ℕ), n < 2 ^ 64 ∧
      (Ieee.Integral (fun v => ⌊v⌋) (datumOf f64 X) (.fin s n) ∨
        IntException (fun s => if s then 1 else 0) (datumOf f64 X) (.fin s n)) ∧ Y = signedNat s n) ∧
    (Accepts .r1cs st 0 f64.pow2Size (conversionCircuit f64 (fCeil f64) X Y) () ↔ IsPattern f64 X ∧ ∃ (s : Bool) (n : ℕ), n < 2 ^ 64 ∧
      (Ieee.Integral (fun v => ⌈v⌉) (datumOf f64 X) (.fin s n) ∨
        IntException (fun s => if s then 0 else 1) (datumOf f64 X) (.fin s n)) ∧ Y = signedNat s n) := by
  have hw : baseLength .r1cs 0 ((newFloatShape f64 ++ truncShape f64 ++ [(f64.pow2Size, Mode.loose)]).map Prod.fst) = 4 := by decide +kernel
  rw [accepts_iff (shape_conversion shape_trunc X Y), accepts_iff (shape_conversion shape_floor X Y),
    accepts_iff (shape_conversion shape_ceil X Y), hw]
  exact ⟨C41_conversion_trunc_of_dvd (hp 4 width4) (by decide) (by decide) (by decide) X Y st,
    C41_conversion_floor_of_dvd (hp 4 width4) (by decide) (by decide) (by decide) X Y st,
    C41_conversion_ceil_of_dvd (hp 4 width4) (by decide) (by decide) (by decide) X Y st⟩

/-! ### Concrete cases -/

local instance decFloatVar' : DecidableEq (FloatVar bn254) := fun _ _ => decidable_of_iff _ FloatVar.ext_iff.symm

/-- `C26_floor_every_width`, `C26_ceil_every_width`, `C41_floor`, `C41_ceil`: -2.5 at width 9 gives -3 and -2. -/
example : (fFloor f32 (w32 0xC0200000)).Sat 9 true (w32 0xC0400000) ∧ (fCeil f32 (w32 0xC0200000)).Sat 9 true (w32 0xC0000000) ∧
    (unaryCircuit f32 (fFloor f32) (0xC0200000 : ZMod bn254) 0xC0400000).Sat 9 true () ∧ (unaryCircuit f32 (fCeil f32) (0xC0200000 : ZMod bn254) 0xC0000000).Sat 9 true () ∧
    2 ^ (3 * f32.M + f32.E + 4 + 3 * 9) ≤ bn254 :=
  ⟨Circ.sat_of_run _ _ (by decide +kernel), Circ.sat_of_run _ _ (by decide +kernel), Circ.sat_of_run _ _ (by decide +kernel), Circ.sat_of_run _ _ (by decide +kernel), by decide +kernel⟩

/-- `C41_f64_floor_ceil`: ⌊2.5⌋ = 2 under every back-end. -/
example (be : Backend) : Accepts be true 0 f64.pow2Size (unaryCircuit f64 (fFloor f64) (0x4004000000000000 : ZMod bn254) 0x4000000000000000) () := by
  have h := (C41_honest (good_bn254_f64 (b := 6) ⟨by norm_num, by norm_num⟩) (by decide) (0x4004000000000000 : ZMod bn254) 0x4000000000000000 0).2.2.2.2.1.1 (by decide +kernel)
  exact (C41_f64_floor_ceil goodField_bn254.2 be _ _ _).1.2 ⟨h.1, h.2.1, Or.inl h.2.2⟩

/-- `C41_mul`, `C41_div`, `C41_mul_div_auto`: 1.5 · 2.5 = 3.75 and 2.5 / 2 = 1.25 in double precision under every back-end, and the forged product of
`C41_f64_mul_forgeable` is one of `MulForged`. -/
example (be : Backend) : Accepts be true 0 f64.pow2Size (binaryCircuit f64 (fMul f64) (0x3FF8000000000000 : ZMod bn254) 0x4004000000000000 0x400E000000000000) () ∧
    Accepts be true 0 f64.pow2Size (binaryCircuit f64 (fDiv f64) (0x4004000000000000 : ZMod bn254) 0x4000000000000000 0x3FF4000000000000) () := by
  have G : Good bn254 6 f64 := good_bn254_f64 ⟨by norm_num, by norm_num⟩
  have h1 := (C41_honest G (by decide) (0x3FF8000000000000 : ZMod bn254) 0x4004000000000000 0x400E000000000000).1.1 (by decide +kernel)
  have h2 := (C41_honest G (by decide) (0x4004000000000000 : ZMod bn254) 0x4000000000000000 0x3FF4000000000000).2.1.1 (by decide +kernel)
  exact ⟨(C41_mul_div_auto f64 (Or.inr rfl) goodField_bn254.2 be _ _ _ _).1.2 ⟨h1.1, h1.2.1, h1.2.2.1, Or.inl h1.2.2.2⟩,
    (C41_mul_div_auto f64 (Or.inr rfl) goodField_bn254.2 be _ _ _ _).2.2 ⟨h2.1, h2.2.1, h2.2.2.1, Or.inl h2.2.2.2⟩⟩

/-- The product of two numbers near 1.15 and 1.2 at width 5: zero is accepted, and is no product, hence one of `MulForged`. -/
example : MulForged 5 f32 (datumOf f32 (0x3f932524 : ZMod bn254)) (datumOf f32 (0x3f99cb36 : ZMod bn254)) (datumOf f32 (0 : ZMod bn254)) := by
  have G : Good bn254 5 f32 := good_bn254_f32 ⟨by norm_num, by norm_num⟩
  have h : (binaryCircuit f32 (fMul f32) (0x3f932524 : ZMod bn254) 0x3f99cb36 0).Sat 5 true () := Circ.sat_of_forge (vs := cheat 17 (16 + 2 ^ 34)) (by decide +kernel)
  have h' := (C41_mul G (by decide) (by decide +kernel) _ _ _ _).1 h
  rcases h'.2.2.2 with hm | hm
  · have := (C41_honest G (by decide) _ _ _).1.2 ⟨h'.1, h'.2.1, h'.2.2.1, hm⟩
    exact absurd this (by decide +kernel)
  · exact hm

/-- `C27_toInt_forgeable_every_width`: the number 5 at width 12. -/
example : ∃ r, (fToInt f32 (w32 0x40A00000)).Sat 12 true r ∧ r ≠ signedNat false 5 ∧ (fToInt f32 (w32 0x40A00000)).run 12 = some (signedNat false 5) := by
  have e : Ieee.decodeBits ⟨8, 23⟩ 0x40A00000 = .fin false ((5 : ℕ) : ℝ) := by unfold Ieee.decodeBits; norm_num [Ieee.Format.bias]; decide
  have h := w32_encodes (v := 0x40A00000) (by norm_num)
  rw [e] at h
  exact C27_toInt_forgeable_every_width (good_bn254_f32 ⟨by norm_num, by norm_num⟩) (by decide) h (by norm_num) (by decide) true

/-- `C41_conversion_trunc`, `C41_f64_conversion_trunc`, `C41_f64_conversion_r1cs`: -2.5 to the field element -2. -/
example : (conversionCircuit f64 (fTrunc f64) (0xC004000000000000 : ZMod bn254) (-2)).Sat 6 true () ∧ 2 ^ (3 * f64.M + f64.E + 3 + 3 * 6) ≤ bn254 ∧ (f64.pow2Size : ℤ) ≤ 2 ^ (f64.E - 1) :=
  ⟨Circ.sat_of_run _ _ (by decide +kernel), by decide +kernel, by decide⟩

end ZkLoc
