import Verif.HintSpec
import Verif.Props.Precompute
import Verif.Props.Tolerance
import Verif.Props.Compare
import Verif.Props.Arith
import Verif.Props.Native

/-!
# Helper lemmas: the wires that the hint functions fill, and the checks on them
-/

namespace ZkLoc.Hints

open Ieee

variable {p : ℕ} [Fact p.Prime] {b : ℕ} {f : Fmt} {g : GeoConsts} {L : Libm} {ε : ℝ}

theorem Wires.encodes (hE : 2 ≤ f.E) (h64 : 1 + f.E + f.M ≤ 64) {d : Datum} {x : FloatVar p} (h : Wires f d x) : Encodes f x d := by
  obtain ⟨n, hn, rfl, rfl⟩ := h
  exact newConstant_encodes hE h64 hn

theorem hintArg_eq (hE : 2 ≤ f.E) (hM : 1 ≤ f.M) (h64 : 1 + f.E + f.M ≤ 64) {V : ZMod p} {φ : ℝ} (h : PatternOf f V.val φ) :
    ∃ s a, hintArg f V = some (.fin s a) ∧ signed s a = φ ∧ Representable ⟨f.E, f.M⟩ a := by
  obtain ⟨hv, s, a, h1, h2⟩ := h
  refine ⟨s, a, ?_, h2, decode_fin h1⟩
  have h3 : V.val < 2 ^ 64 := hv.trans_le (Nat.pow_le_pow_right (by norm_num) h64)
  have hn : ¬ IsNaNBits f.E f.M V.val := by
    intro hn
    unfold decodeBits at h1
    simp only at h1
    rw [if_pos hn.1, if_neg hn.2] at h1
    cases h1
  unfold hintArg
  rw [Nat.mod_eq_of_lt h3, C02_encode_decode hE hM h64 hv, if_neg hn, Option.map_some, Nat.mod_eq_of_lt hv, h1]

/-- The wires hold numbers near the tangent and so on of half the angle. -/
def Hinted (f : Fmt) (u w φ : ℝ) (h : Pre p) : Prop :=
  ∃ y sg sd A B C D, |y - φ / 2| ≤ 1 / 2 ^ 140 ∧ Encodes f h.alpha (.fin (xor sg sd) A) ∧ Encodes f h.beta (.fin (xor sg sd) B) ∧ Encodes f h.gamma (.fin sg C) ∧
    Encodes f h.delta (.fin sd D) ∧ Near (2 / 2 ^ 140) u w y sg sd A B C D

theorem repr_widen {a : ℝ} (h : Representable F32 a) : Representable F64 a := by
  obtain ⟨n, k, hn, hk, rfl⟩ := h
  rw [qmin32] at hk
  exact ⟨n, k, lt_of_lt_of_le hn (by norm_num), by rw [qmin64]; omega, rfl⟩

theorem hinted64_full (acc : L.Accurate ε) (h0 : 0 ≤ ε) (h1 : ε ≤ 1 / 2 ^ 10) {V : ZMod p} {φ : ℝ} (hV : PatternOf f64 V.val φ) (hφ : |φ| ≤ 4) {h : Pre p}
    (H : PrecomputeHint64 L V h) :
    ∃ y sg sd A B C D, |y - φ / 2| ≤ 1 / 2 ^ 140 ∧ Encodes f64 h.alpha (.fin (xor sg sd) A) ∧ Encodes f64 h.beta (.fin (xor sg sd) B) ∧ Encodes f64 h.gamma (.fin sg C) ∧
      Encodes f64 h.delta (.fin sd D) ∧ Near (2 / 2 ^ 140) ε (3 * ε + 5 / 2 ^ 53) y sg sd A B C D ∧ (φ = 0 → C = 0) ∧ IsRNE F64 (2 * (C * D)) B := by
  obtain ⟨s, x, e, rfl, hx⟩ := hintArg_eq (by decide) (by decide) (by decide) hV
  obtain ⟨x', a, b, c, d, e', Q, w1, w2, w3, w4⟩ := H
  obtain rfl : Datum.fin s x = x' := Option.some.inj (e.symm.trans e')
  rw [abs_signed, abs_of_nonneg hx.nonneg] at hφ
  obtain ⟨y, sg, sd, A, B, C, D, hy, rfl, rfl, rfl, rfl, hz, hB, hn⟩ := quad_near acc h0 h1 hx hφ Q
  refine ⟨y, sg, sd, A, B, C, D, hy, w1.encodes (by decide) (by decide), w2.encodes (by decide) (by decide), w3.encodes (by decide) (by decide),
    w4.encodes (by decide) (by decide), ⟨hn.tan_le, hn.cos_ne, hn.a0, hn.b0, hn.c0, hn.d0, hn.alpha.trans (by norm_num), hn.beta, hn.gamma.trans (by norm_num), hn.delta.trans (by norm_num)⟩, fun h => hz ?_, hB⟩
  cases s <;> simpa [signed] using h

theorem hinted64 (acc : L.Accurate ε) (h0 : 0 ≤ ε) (h1 : ε ≤ 1 / 2 ^ 10) {V : ZMod p} {φ : ℝ} (hV : PatternOf f64 V.val φ) (hφ : |φ| ≤ 4) {h : Pre p}
    (H : PrecomputeHint64 L V h) : Hinted f64 ε (3 * ε + 5 / 2 ^ 53) φ h := by
  obtain ⟨y, sg, sd, A, B, C, D, h1, h2, h3, h4, h5, h6, _⟩ := hinted64_full acc h0 h1 hV hφ H
  exact ⟨y, sg, sd, A, B, C, D, h1, h2, h3, h4, h5, h6⟩

/-- Narrowing a number of moderate size. -/
theorem narrow_near {s : Bool} {a v u : ℝ} {d : Datum} (h : Narrow (.fin s a) d) (ha0 : 0 ≤ a) (hu : 0 ≤ u) (hu1 : u ≤ 1 / 2 ^ 10) (hv : |v| ≤ 2 ^ 55)
    (ha : |signed s a - v| ≤ u * |v| + 1 / 2 ^ 140) :
    ∃ r, d = .fin s r ∧ 0 ≤ r ∧ |signed s r - v| ≤ (u + 1001 / 1000 / 2 ^ 24) * |v| + 2 / 2 ^ 140 := by
  have h1 : a ≤ (1 + u) * |v| + 1 / 2 ^ 140 := by
    have := abs_add_le (signed s a - v) v
    rw [sub_add_cancel, signed_abs _ ha0] at this
    linarith
  have h2 : u * |v| ≤ 1 / 2 ^ 10 * |v| := mul_le_mul_of_nonneg_right hu1 (abs_nonneg _)
  obtain ⟨r, rfl, _, r0, _, hr⟩ := round32 (k := 60) h ha0 (by norm_num) (by norm_num at *; linarith)
  refine ⟨r, rfl, r0, ?_⟩
  have h3 := abs_sub_le (signed s r) (signed s a) v
  rw [abs_signed_sub] at h3
  norm_num at *
  linarith

theorem hinted32 (acc : L.Accurate ε) (h0 : 0 ≤ ε) (h1 : ε ≤ 1 / 2 ^ 10) {V : ZMod p} {φ : ℝ} (hV : PatternOf f32 V.val φ) (hφ : |φ| ≤ 4) {h : Pre p}
    (H : PrecomputeHint32 L V h) : Hinted f32 (ε + 1001 / 1000 / 2 ^ 24) (4 * ε + 1001 / 1000 / 2 ^ 24) φ h := by
  obtain ⟨s, x, e, rfl, hx⟩ := hintArg_eq (by decide) (by decide) (by decide) hV
  obtain ⟨x', a, b, c, d, a', b', c', d', e', Q, n1, n2, n3, n4, w1, w2, w3, w4⟩ := H
  obtain rfl : Datum.fin s x = x' := Option.some.inj (e.symm.trans e')
  rw [abs_signed, abs_of_nonneg hx.nonneg] at hφ
  obtain ⟨y, sg, sd, A, B, C, D, hy, rfl, rfl, rfl, rfl, _, _, hn⟩ := quad_near acc h0 h1 (repr_widen hx) hφ Q
  have s1 := Real.abs_sin_le_one y
  have c1 := Real.abs_cos_le_one y
  have s2 := Real.abs_sin_le_one (2 * y)
  obtain ⟨A', rfl, A0, hA⟩ := narrow_near n1 hn.a0 h0 h1 hn.tan_le hn.alpha
  obtain ⟨C', rfl, C0, hC⟩ := narrow_near n3 hn.c0 h0 h1 (s1.trans (by norm_num)) hn.gamma
  obtain ⟨D', rfl, D0, hD⟩ := narrow_near n4 hn.d0 h0 h1 (c1.trans (by norm_num)) hn.delta
  have hb := hn.beta
  have hB2 : B ≤ 1 + (3 * ε + 5 / 2 ^ 53) := by
    have := abs_add_le (signed (xor sg sd) B - Real.sin (2 * y)) (Real.sin (2 * y))
    rw [sub_add_cancel, signed_abs _ hn.b0] at this
    linarith
  obtain ⟨B', rfl, _, B0, _, hB⟩ := round32 (k := 1) n2 hn.b0 (by norm_num) (by norm_num at *; linarith)
  refine ⟨y, sg, sd, A', B', C', D', hy, w1.encodes (by decide) (by decide), w2.encodes (by decide) (by decide), w3.encodes (by decide) (by decide),
    w4.encodes (by decide) (by decide), hn.tan_le, hn.cos_ne, A0, B0, C0, D0, hA, ?_, hC, hD⟩
  have h3 := abs_sub_le (signed (xor sg sd) B') (signed (xor sg sd) B) (Real.sin (2 * y))
  rw [abs_signed_sub] at h3
  norm_num at *
  linarith

/-! ### Nearness -/

theorem Hinted.near {u w φ τ : ℝ} {h : Pre p} (H : Hinted f u w φ h) (hu : 0 ≤ u) (h1 : u + 4 / 2 ^ 140 ≤ τ / 8) (h2 : w + 4 / 2 ^ 140 ≤ τ) : HintNear f τ φ h := by
  obtain ⟨y, sg, sd, A, B, C, D, hy, eA, eB, eC, eD, n⟩ := H
  have s1 : u * |Real.sin y| ≤ u := mul_le_of_le_one_right hu (Real.abs_sin_le_one y)
  have c1 : u * |Real.cos y| ≤ u := mul_le_of_le_one_right hu (Real.abs_cos_le_one y)
  have k1 := Real.abs_sin_sub_sin_le y (φ / 2)
  have k2 := Real.abs_cos_sub_cos_le y (φ / 2)
  have k3 := Real.abs_sin_sub_sin_le (2 * y) φ
  rw [show 2 * y - φ = 2 * (y - φ / 2) by ring, abs_mul, abs_two] at k3
  have g1 := n.gamma
  have g2 := n.delta
  have g3 := n.beta
  refine ⟨⟨_, ⟨_, _, eB, rfl⟩, ?_⟩, ⟨_, ⟨_, _, eC, rfl⟩, ?_⟩, ⟨_, ⟨_, _, eD, rfl⟩, ?_⟩⟩
  · refine (abs_sub_le _ (Real.sin (2 * y)) _).trans ?_
    norm_num at *; linarith
  · refine (abs_sub_le _ (Real.sin y) _).trans ?_
    norm_num at *; linarith
  · refine (abs_sub_le _ (Real.cos y) _).trans ?_
    norm_num at *; linarith

/-! ### The checks -/

/-- Rounding numbers of small size in the format. -/
def Tame (f : Fmt) : Prop := ∀ {s : Bool} {v : ℝ} {d : Datum}, RoundsTo ⟨f.E, f.M⟩ s v d → 0 ≤ v → v ≤ 4 → ∃ r, d = .fin s r ∧ IsRNE ⟨f.E, f.M⟩ v r ∧ 0 ≤ r ∧ |r - v| ≤ 1 / 1000

theorem tame32 : Tame f32 := fun h h0 h4 => by
  obtain ⟨r, h1, h2, h3, _, h5⟩ := round32 (k := 2) h h0 (by norm_num) (by norm_num; exact h4)
  exact ⟨r, h1, h2, h3, h5.trans (by norm_num at *; linarith)⟩

theorem tame64 : Tame f64 := fun h h0 h4 => by
  obtain ⟨r, h1, h2, h3, _, h5⟩ := round64 (k := 2) h h0 (by norm_num) (by norm_num; exact h4)
  exact ⟨r, h1, h2, h3, h5.trans (by norm_num at *; linarith)⟩

/-- The tolerance check accepts numbers of the same sign whose difference is at most the tolerance. -/
theorem customULP_passes (G : Good p b f) (h64 : f.E + f.M < 64) (ht : Tame f) {x y : FloatVar p} {s : Bool} {a c T : ℝ} {ulp : ℕ} (ex : Encodes f x (.fin s a))
    (ey : Encodes f y (.fin s c)) (hu : ulp < 2 ^ (1 + f.E + f.M)) (hT : decodeBits ⟨f.E, f.M⟩ ulp = .fin false T) (hT4 : T ≤ 4) (h : |a - c| ≤ T) :
    (fAssertIsEqualOrCustomULP f x y ulp).run b = some () := by
  rw [C30_customULP_honest G h64 ex ey hu, hT]
  refine ⟨rfl, ?_⟩
  by_cases hac : a = c
  · exact .inl (by rw [hac])
  · right
    have hne : signed s a - signed s c ≠ 0 := by
      intro h0
      apply hac
      cases s <;> simp [signed] at h0 <;> linarith
    have habs : |signed s a - signed s c| = |a - c| := abs_signed_sub s a c
    obtain ⟨d, hd⟩ := roundsTo_exists (F := ⟨f.E, f.M⟩) (by have := G.hE; have := G.hEM; simp only; omega) (decide (signed s a - signed s c < 0)) (abs_nonneg (a - c))
    obtain ⟨r, rfl, hr, r0, _⟩ := ht hd (abs_nonneg _) (h.trans hT4)
    refine ⟨_, ⟨fun h0 => absurd h0 hne, fun _ => by rw [habs]; exact hd⟩, _, _, rfl, rfl, ?_⟩
    have := hr.le_of_le (decode_fin hT) h
    simpa [signed] using this

/-- The constants 1 and 2 of the format. -/
structure OneTwo (f : Fmt) (g : GeoConsts) : Prop where
  one : g.one < 2 ^ (1 + f.E + f.M) ∧ decodeBits ⟨f.E, f.M⟩ g.one = .fin false 1
  two : g.two < 2 ^ (1 + f.E + f.M) ∧ decodeBits ⟨f.E, f.M⟩ g.two = .fin false 2

theorem oneTwo32 : OneTwo f32 geo32 :=
  ⟨⟨by decide, by unfold decodeBits; norm_num [Format.bias, f32, geo32]; decide⟩, ⟨by decide, by unfold decodeBits; norm_num [Format.bias, f32, geo32]; decide⟩⟩
theorem oneTwo64 : OneTwo f64 geo64 :=
  ⟨⟨by decide, by unfold decodeBits; norm_num [Format.bias, f64, geo64]; decide⟩, ⟨by decide, by unfold decodeBits; norm_num [Format.bias, f64, geo64]; decide⟩⟩

/-- The exact numbers satisfy the checked identities nearly. -/
theorem Near.identities {u w y : ℝ} {sg sd : Bool} {A B C D : ℝ} (n : Near (2 / 2 ^ 140) u w y sg sd A B C D) (hu : 0 ≤ u) (hu1 : u ≤ 1 / 2 ^ 9) (hw : w ≤ 1 / 2 ^ 7) :
    C ≤ 11 / 10 ∧ D ≤ 11 / 10 ∧ |C * C + D * D - 1| ≤ 1 / 50 ∧ A * D ≤ 2 ∧ |A * D - C| ≤ 1 / 50 ∧ |2 * (C * D) - B| ≤ 1 / 50 := by
  have s1 := Real.abs_sin_le_one y
  have c1 := Real.abs_cos_le_one y
  have us : u * |Real.sin y| ≤ 1 / 2 ^ 9 * 1 := mul_le_mul hu1 s1 (abs_nonneg _) (by positivity)
  have uc : u * |Real.cos y| ≤ 1 / 2 ^ 9 * 1 := mul_le_mul hu1 c1 (abs_nonneg _) (by positivity)
  have hC : C ≤ 11 / 10 := by
    have h := abs_add_le (signed sg C - Real.sin y) (Real.sin y)
    rw [sub_add_cancel, signed_abs _ n.c0] at h
    have := n.gamma
    norm_num at *; linarith
  have hD : D ≤ 11 / 10 := by
    have h := abs_add_le (signed sd D - Real.cos y) (Real.cos y)
    rw [sub_add_cancel, signed_abs _ n.d0] at h
    have := n.delta
    norm_num at *; linarith
  have hu2 : u ^ 2 ≤ 1 / 2 ^ 18 := by nlinarith
  have pr : ∀ {x z X Z : ℝ}, |x - X| ≤ u * |X| + 2 / 2 ^ 140 → |z - Z| ≤ u * |Z| + 2 / 2 ^ 140 → |X * Z| ≤ 1 → |X| + |Z| ≤ 2 ^ 56 → |x * z - X * Z| ≤ 1 / 200 := by
    intro x z X Z h1 h2 h3 h4
    refine (product_near h1 h2 hu (by positivity) h3).trans ?_
    have : 2 / 2 ^ 140 * (1 + u) * (|X| + |Z|) ≤ 2 / 2 ^ 140 * (1 + 1) * 2 ^ 56 := by
      gcongr
      exact hu1.trans (by norm_num)
    norm_num at *; linarith
  have one : ∀ {X Z : ℝ}, |X| ≤ 1 → |Z| ≤ 1 → |X * Z| ≤ 1 := fun h1 h2 => by rw [abs_mul]; exact mul_le_one₀ h1 (abs_nonneg _) h2
  have k1 := pr n.gamma n.gamma (one s1 s1) (by norm_num; linarith)
  have k2 := pr n.delta n.delta (one c1 c1) (by norm_num; linarith)
  have k3 := pr n.gamma n.delta (one s1 c1) (by norm_num; linarith)
  have e4 : Real.tan y * Real.cos y = Real.sin y := Real.tan_mul_cos n.cos_ne
  have k4 := pr n.alpha n.delta (by rw [e4]; exact s1) (by have := n.tan_le; norm_num at *; linarith)
  rw [signed_mul] at k1 k2 k3 k4
  simp only [Bool.xor_self] at k1 k2
  rw [Bool.xor_assoc, Bool.xor_self, Bool.xor_false, e4] at k4
  have e1 := Real.sin_sq_add_cos_sq y
  have ss : ∀ v, signed false v = v := fun v => by simp [signed]
  rw [ss] at k1 k2
  refine ⟨hC, hD, ?_, ?_, ?_, ?_⟩
  · rw [show C * C + D * D - 1 = (C * C - Real.sin y * Real.sin y) + (D * D - Real.cos y * Real.cos y) by linear_combination e1]
    refine (abs_add_le _ _).trans (by linarith)
  · have h := abs_add_le (signed sg (A * D) - Real.sin y) (Real.sin y)
    rw [sub_add_cancel, signed_abs _ (mul_nonneg n.a0 n.d0)] at h
    linarith
  · rw [← abs_signed_sub sg]
    have := abs_sub_le (signed sg (A * D)) (Real.sin y) (signed sg C)
    have g := n.gamma
    rw [abs_sub_comm] at g
    norm_num at *; linarith
  · rw [← abs_signed_sub (xor sg sd)]
    have h := abs_sub_le (signed (xor sg sd) (2 * (C * D))) (Real.sin (2 * y)) (signed (xor sg sd) B)
    have g := n.beta
    rw [abs_sub_comm] at g
    have e3 : signed (xor sg sd) (2 * (C * D)) = 2 * signed (xor sg sd) (C * D) := by cases xor sg sd <;> simp [signed]
    have h' : |signed (xor sg sd) (2 * (C * D)) - Real.sin (2 * y)| = 2 * |signed (xor sg sd) (C * D) - Real.sin y * Real.cos y| := by
      rw [e3, Real.sin_two_mul, show ∀ v : ℝ, 2 * v - 2 * Real.sin y * Real.cos y = 2 * (v - Real.sin y * Real.cos y) by intro v; ring, abs_mul, abs_two]
    norm_num at *; linarith

/-- What the three checks compare. -/
theorem checks_run (G : Good p b f) (ht : Tame f) (hg : OneTwo f g) {u w v : ℝ} {h : Pre p} {sg sd : Bool} {A B C D : ℝ} (eA : Encodes f h.alpha (.fin (xor sg sd) A))
    (eC : Encodes f h.gamma (.fin sg C)) (eD : Encodes f h.delta (.fin sd D)) (n : Near (2 / 2 ^ 140) u w v sg sd A B C D) (hu : 0 ≤ u) (hu1 : u ≤ 1 / 2 ^ 9)
    (hw : w ≤ 1 / 2 ^ 7) (hE : 2 ≤ f.E) (h64 : 1 + f.E + f.M ≤ 64) (cmp1 cmp2 cmp3 : FloatVar p → FloatVar p → Circ p Unit) :
    ∃ (x y z : FloatVar p) (i j k l : ℝ),
      Encodes f x (.fin false i) ∧ Encodes f (newConstant f g.one : FloatVar p) (.fin false 1) ∧ Encodes f y (.fin sg j) ∧ Encodes f z (.fin (xor sg sd) k) ∧
      Ieee.Mul ⟨f.E, f.M⟩ (.fin (xor sg sd) A) (.fin sd D) (.fin sg j) ∧ IsRNE ⟨f.E, f.M⟩ (C * D) l ∧ IsRNE ⟨f.E, f.M⟩ (2 * l) k ∧ |i - 1| ≤ 1 ∧ |j - C| ≤ 1 ∧ |k - B| ≤ 1 ∧
      ((preChecks f g cmp1 cmp2 cmp3 h).run b = some () ↔ (cmp1 x (newConstant f g.one)).run b = some () ∧ (cmp2 y h.gamma).run b = some () ∧ (cmp3 z h.beta).run b = some ()) := by
  obtain ⟨hC, hD, i1, hAD, i2, i3⟩ := n.identities hu hu1 hw
  have A0 := n.a0
  have B0 := n.b0
  have C0 := n.c0
  have D0 := n.d0
  have e1 := newConstant_encodes (p := p) hE h64 hg.one.1
  have e2 := newConstant_encodes (p := p) hE h64 hg.two.1
  rw [hg.one.2] at e1
  rw [hg.two.2] at e2
  obtain ⟨dd, d1, r1, ed1, m1⟩ := C18_mul_complete (b := b) G eD eD
  obtain ⟨gg, d2, r2, ed2, m2⟩ := C18_mul_complete (b := b) G eC eC
  obtain ⟨q1, rfl, n1, q10, b1⟩ := ht m1 (by positivity) (by nlinarith)
  obtain ⟨q2, rfl, n2, q20, b2⟩ := ht m2 (by positivity) (by nlinarith)
  rw [Bool.xor_self] at ed1 ed2
  obtain ⟨idn, r3, h3⟩ := C15_add_complete (b := b) G ed2 ed1
  obtain ⟨d3, ed3, m3⟩ := h3 (by rintro ⟨s, t, a, ha, hb, hst, _⟩; injection ha with ha; injection hb with hb; exact hst (ha.symm.trans hb))
  have b1' := abs_le.1 b1
  have b2' := abs_le.1 b2
  have i1' := abs_le.1 i1
  have hsum : signed false q2 + signed false q1 = q2 + q1 := rfl
  have hpos : 0 < q2 + q1 := by linarith
  have m3' := m3.2 (by rw [hsum]; exact hpos.ne')
  rw [hsum, abs_of_pos hpos, decide_eq_false (not_lt.2 hpos.le)] at m3'
  obtain ⟨q3, rfl, n3, q30, b3⟩ := ht m3' hpos.le (by linarith)
  obtain ⟨ad, d4, r4, ed4, m4⟩ := C18_mul_complete (b := b) G eA eD
  obtain ⟨q4, rfl, n4, q40, b4⟩ := ht m4 (by positivity) (by linarith)
  rw [Bool.xor_assoc, Bool.xor_self, Bool.xor_false] at ed4 m4
  obtain ⟨gd, d5, r5, ed5, m5⟩ := C18_mul_complete (b := b) G eC eD
  have hCD : C * D ≤ 11 / 10 * (11 / 10) := mul_le_mul hC hD D0 (by norm_num)
  obtain ⟨q5, rfl, n5, q50, b5⟩ := ht m5 (by positivity) (by linarith)
  have b5' := abs_le.1 b5
  obtain ⟨gd2, d6, r6, ed6, m6⟩ := C18_mul_complete (b := b) G e2 ed5
  obtain ⟨q6, rfl, n6, q60, b6⟩ := ht m6 (by positivity) (by linarith)
  rw [Bool.false_xor] at ed6
  refine ⟨idn, ad, gd2, q3, q4, q6, q5, ed3, e1, ed4, ed6, m4, n5, n6, ?_, ?_, ?_, ?_⟩
  · have b3' := abs_le.1 b3
    rw [abs_le]; constructor <;> linarith
  · have b4' := abs_le.1 b4
    have i2' := abs_le.1 i2
    rw [abs_le]; constructor <;> linarith
  · have b6' := abs_le.1 b6
    have i3' := abs_le.1 i3
    rw [abs_le]; constructor <;> linarith
  · unfold preChecks
    simp only [Circ.bind_eq, Circ.run_bind, r1, r2, r3, r4, r5, r6, Option.bind_some]
    constructor
    · intro hh
      obtain ⟨_, h1, hh⟩ := Option.bind_eq_some_iff.1 hh
      obtain ⟨_, h2, hh⟩ := Option.bind_eq_some_iff.1 hh
      exact ⟨h1, h2, hh⟩
    · rintro ⟨h1, h2, h3⟩
      rw [h1, Option.bind_some, h2, Option.bind_some, h3]

end ZkLoc.Hints
