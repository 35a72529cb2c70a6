import Verif.PolySpec
import Verif.PolyGen
import Verif.PolyGenSpec
import Verif.Props.TrigCircuits

/-!
# Property theorems C79 and C80: accuracy of the polynomial evaluation, and the tables of polynomial values
-/

namespace ZkLoc

variable {p : ℕ} [Fact p.Prime] {b : ℕ} {f : Fmt}

/-! ### C79: accuracy of `Eval` and `EvalK` -/

theorem underflow_le {a X : ℝ} (ha : 1 ≤ a) (hX : 0 ≤ X) : ∀ n : ℕ, underflow a X n ≤ n * a ^ (2 * n) * max 1 X ^ n
  | 0 => by simp [underflow]
  | n + 1 => by
    have ih := underflow_le ha hX n
    have h1 : (1:ℝ) ≤ max 1 X := le_max_left _ _
    have h2 : X ≤ max 1 X := le_max_right _ _
    have h3 : X * underflow a X n ≤ max 1 X * (n * a ^ (2 * n) * max 1 X ^ n) := mul_le_mul h2 ih (underflow_nonneg hX n) (by positivity)
    have h4 : (1:ℝ) ≤ a ^ (2 * n) * max 1 X ^ (n + 1) := by
      have := mul_le_mul (one_le_pow₀ (n := 2 * n) ha) (one_le_pow₀ (n := n + 1) h1) zero_le_one (by positivity)
      linarith
    have h5 : X * underflow a X n + 1 ≤ (n + 1) * (a ^ (2 * n) * max 1 X ^ (n + 1)) := by
      have e : max 1 X * (n * a ^ (2 * n) * max 1 X ^ n) = n * (a ^ (2 * n) * max 1 X ^ (n + 1)) := by rw [pow_succ]; ring
      rw [e] at h3; linarith
    rw [underflow]
    refine (mul_le_mul_of_nonneg_left h5 (by positivity)).trans (le_of_eq ?_)
    rw [show 2 * (n + 1) = 2 * n + 2 by ring, pow_add a]; push_cast; ring

theorem num_zero_const (G : Good p b f) (h64 : 1 + f.E + f.M ≤ 64) : Num f (newConstant f 0 : FloatVar p) 0 := by
  have hE := G.hE
  have h := num_const (p := p) (f := f) (v := 0) (by omega) h64 (by positivity) (by
    rw [Nat.zero_div, Nat.zero_mod]
    have : 2 ^ 1 ≤ 2 ^ f.E := Nat.pow_le_pow_right (by norm_num) (by omega)
    omega)
  have e : Ieee.patternVal ⟨f.E, f.M⟩ 0 = 0 := by
    unfold Ieee.patternVal Ieee.decodeBits
    have : 2 ^ 1 ≤ 2 ^ f.E := Nat.pow_le_pow_right (by norm_num) (by omega)
    simp [show ¬ (0 = 2 ^ f.E - 1) by omega, Ieee.signed]
  rwa [e] at h

/-- **C79** Accuracy of the polynomial evaluation, for every polynomial. `Eval` on coefficients that encode numbers (lowest degree first) and `EvalK` with `k = 1` on the reversed list (highest first)
give the value of the polynomial up to `(1 + u)^(2n) - 1` times the sum of the sizes of its terms (`u` is half a unit in the last place of one, `n` the number of coefficients) and an underflow
term, as long as that sum is not near the end of the range. For the honest prover at every width, and for all provers at widths that divide the lookup size. -/
theorem C79_eval_accuracy {m : Prover} (G : Good p b f) (hm : m.Fits b f) (h64 : 1 + f.E + f.M ≤ 64) {at' : FloatVar p} {x : ℝ} (hx : Num f at' x) {vs : List (FloatVar p)} {cs : List ℝ}
    (hc : List.Forall₂ (Num f) vs cs)
    (hbig : (1 + 2 ^ (-(f.M:ℤ) - 1)) ^ (2 * cs.length) * (Poly.size cs (max 1 |x|) + 2 * cs.length * max 1 |x| ^ cs.length * 2 ^ ((Ieee.Format.qmin ⟨f.E, f.M⟩) - 1)) <
      (2:ℝ) ^ (Ieee.Format.bias ⟨f.E, f.M⟩)) :
    Ok m b (polyEval f vs.reverse at') (fun r => ∃ w, Num f r w ∧ |w - Poly.value cs x| ≤ ((1 + 2 ^ (-(f.M:ℤ) - 1)) ^ (2 * cs.length) - 1) * Poly.size cs x +
      2 * cs.length * (1 + 2 ^ (-(f.M:ℤ) - 1)) ^ (2 * cs.length) * max 1 |x| ^ cs.length * 2 ^ ((Ieee.Format.qmin ⟨f.E, f.M⟩) - 1)) ∧
    polyEval f vs.reverse at' = evalK f vs at' 1 := by
  refine ⟨?_, by rw [(C33_eval_reverse f at' _).1, List.reverse_reverse]⟩
  have u0 := ulpHalf_pos (f := f)
  have n0 := eta_pos (f := f)
  change (1 + ulpHalf f) ^ (2 * cs.length) * (Poly.size cs (max 1 |x|) + 2 * cs.length * max 1 |x| ^ cs.length * eta f) < big f at hbig
  change Ok m b _ (fun r => ∃ w, Num f r w ∧ |w - Poly.value cs x| ≤ ((1 + ulpHalf f) ^ (2 * cs.length) - 1) * Poly.size cs x +
    2 * cs.length * (1 + ulpHalf f) ^ (2 * cs.length) * max 1 |x| ^ cs.length * eta f)
  unfold polyEval
  rw [List.reverse_reverse]
  have hu := underflow_le (a := 1 + ulpHalf f) (X := |x|) (by linarith) (abs_nonneg x) cs.length
  have hu' := underflow_le (a := 1 + ulpHalf f) (X := max 1 |x|) (by linarith) (by positivity) cs.length
  rw [max_eq_right (le_max_left 1 |x|)] at hu'
  have h1 := mul_le_mul_of_nonneg_left hu (show 0 ≤ 2 * eta f by positivity)
  have h2 := mul_le_mul_of_nonneg_left hu' (show 0 ≤ 2 * eta f by positivity)
  refine (hornerV_ok G hm hx hc (q := newConstant f 0) (r := 0) (R := 0) (P := 0) (n := 0) (num_zero_const G h64) (by simp) (by simp [underflow]) ?_).mono ?_
  · rw [zero_mul, zero_add, zero_add]
    linarith
  · rintro z ⟨w, hw, h⟩
    refine ⟨w, hw, ?_⟩
    rw [hornerV_eq, zero_mul, zero_mul, zero_add, zero_add, zero_add] at h
    linarith

theorem size_mono {x y : ℝ} (h : |x| ≤ |y|) : ∀ cs, Poly.size cs x ≤ Poly.size cs y
  | [] => le_rfl
  | c :: cs => by
    rw [size_cons, size_cons]
    have := size_mono h cs
    have := mul_le_mul_of_nonneg_left (pow_le_pow_left₀ (abs_nonneg x) h cs.length) (abs_nonneg c)
    linarith

theorem size_last {x : ℝ} : ∀ {cs : List ℝ} {c : ℝ}, |c| ≤ Poly.size (cs ++ [c]) x
  | [], c => by simp [Poly.size, Poly.value]
  | d :: cs, c => by
    rw [List.cons_append, size_cons]
    have := size_last (x := x) (cs := cs) (c := c)
    have : 0 ≤ |d| * |x| ^ (cs ++ [c]).length := by positivity
    linarith

/-- The bound for a polynomial in double precision with a constant term that is not tiny. -/
theorem poly64 {m : Prover} (G : Good p b f64) (hm : m.Fits b f64) {at' : FloatVar p} {x : ℝ} (hx : Num f64 at' x) {vs : List (FloatVar p)} {cs : List ℝ} (hc : List.Forall₂ (Num f64) vs cs)
    (hx2 : |x| ≤ 2 ^ 16) (hn : cs.length ≤ 11) (h1 : 1 ≤ Poly.size cs x) (h2 : Poly.size cs (2 ^ 16) ≤ 2 ^ 200) {k : ℝ} (hk : (1 + 1 / 2 ^ 53 : ℝ) ^ (2 * cs.length) - 1 ≤ (k - 1 / 2) / 2 ^ 53) :
    Ok m b (polyEval f64 vs.reverse at') (fun r => ∃ w, Num f64 r w ∧ |w - Poly.value cs x| ≤ k / 2 ^ 53 * Poly.size cs x) := by
  have hX : max 1 |x| ≤ 2 ^ 16 := max_le (by norm_num) hx2
  have hX1 : 1 ≤ max 1 |x| := le_max_left _ _
  have hXn : max 1 |x| ^ cs.length ≤ 2 ^ 176 := by
    have a := pow_le_pow_right₀ hX1 hn
    have b := pow_le_pow_left₀ (by positivity) hX 11
    rw [← pow_mul] at b
    exact a.trans b
  have hs : Poly.size cs (max 1 |x|) ≤ 2 ^ 200 := (size_mono (by rw [abs_of_pos (show 0 < max 1 |x| by positivity), abs_of_pos (show (0:ℝ) < 2 ^ 16 by positivity)]; exact hX) cs).trans h2
  have e1 : (2:ℝ) ^ (-(f64.M:ℤ) - 1) = 1 / 2 ^ 53 := by norm_num [f64]
  obtain ⟨η, n0, n1, e2⟩ : ∃ η : ℝ, 0 < η ∧ η ≤ 1 / 2 ^ 250 ∧ (2:ℝ) ^ ((Ieee.Format.qmin ⟨f64.E, f64.M⟩) - 1) = η := by
    refine ⟨_, by positivity, ?_, rfl⟩
    rw [show (Ieee.Format.qmin ⟨f64.E, f64.M⟩) - 1 = -((1075:ℕ):ℤ) by decide, zpow_neg, one_div, zpow_natCast]
    exact inv_anti₀ (by positivity) (pow_le_pow_right₀ (by norm_num) (by norm_num))
  have e3 : (2:ℝ) ^ 250 ≤ 2 ^ (Ieee.Format.bias ⟨f64.E, f64.M⟩) := by
    rw [show Ieee.Format.bias ⟨f64.E, f64.M⟩ = ((1023:ℕ):ℤ) by decide, zpow_natCast]
    exact pow_le_pow_right₀ (by norm_num) (by norm_num)
  have hp : (1 + 1 / 2 ^ 53 : ℝ) ^ (2 * cs.length) ≤ 2 := by
    have := pow_le_pow_right₀ (show (1:ℝ) ≤ 1 + 1 / 2 ^ 53 by norm_num) (show 2 * cs.length ≤ 22 by omega)
    exact this.trans (by norm_num)
  have hp1 : 1 ≤ (1 + 1 / 2 ^ 53 : ℝ) ^ (2 * cs.length) := one_le_pow₀ (by norm_num)
  have hl : (cs.length : ℝ) ≤ 11 := by exact_mod_cast hn
  have hl0 : (0:ℝ) ≤ cs.length := by positivity
  have hu : 2 * cs.length * max 1 |x| ^ cs.length * η ≤ 22 * 2 ^ 176 * (1 / 2 ^ 250 : ℝ) := by
    refine mul_le_mul ?_ n1 n0.le (by positivity)
    exact mul_le_mul (by linarith) hXn (by positivity) (by norm_num)
  have hu' : (22 * 2 ^ 176 * (1 / 2 ^ 250) : ℝ) ≤ 1 / 8 / 2 ^ 53 := by norm_num
  have H := (C79_eval_accuracy G hm (by decide) hx hc (by
    rw [e1, e2]
    refine lt_of_lt_of_le ?_ e3
    have : (1 + 1 / 2 ^ 53 : ℝ) ^ (2 * cs.length) * (Poly.size cs (max 1 |x|) + 2 * cs.length * max 1 |x| ^ cs.length * η) ≤ 2 * (2 ^ 200 + 1) := by
      refine mul_le_mul hp (add_le_add hs (hu.trans (hu'.trans (by norm_num)))) ?_ (by norm_num)
      have := size_nonneg (max 1 |x|) cs
      positivity
    exact lt_of_le_of_lt this (by norm_num))).1
  refine H.mono ?_
  rintro r ⟨w, hw, h⟩
  refine ⟨w, hw, h.trans ?_⟩
  rw [e1, e2]
  have s0 := size_nonneg x cs
  have t1 := mul_le_mul_of_nonneg_right hk s0
  have t2 : 2 * cs.length * (1 + 1 / 2 ^ 53 : ℝ) ^ (2 * cs.length) * max 1 |x| ^ cs.length * η ≤ 1 / 2 / 2 ^ 53 * Poly.size cs x := by
    have a1 : 2 * cs.length * (1 + 1 / 2 ^ 53 : ℝ) ^ (2 * cs.length) * max 1 |x| ^ cs.length * η =
        (1 + 1 / 2 ^ 53 : ℝ) ^ (2 * cs.length) * (2 * cs.length * max 1 |x| ^ cs.length * η) := by ring
    rw [a1]
    have a2 := mul_le_mul hp (hu.trans hu') (by positivity) (by norm_num)
    refine a2.trans ?_
    have : (1 / 2 / 2 ^ 53 : ℝ) * 1 ≤ 1 / 2 / 2 ^ 53 * Poly.size cs x := mul_le_mul_of_nonneg_left h1 (by positivity)
    refine le_trans ?_ this
    norm_num
  rw [sub_div] at t1
  linarith

theorem num_small (p : ℕ) [Fact p.Prime] {v n : ℕ} (hv : v < 2 ^ 64) (h : exactBits 11 52 false n 1 v = true) : Num f64 (newConstant f64 v : FloatVar p) (n : ℝ) := by
  refine num_exact (E := 11) (M := 52) (by norm_num) (by norm_num) hv h ?_
  simp [Ieee.signed]

theorem cubic_coeffs : List.Forall₂ (Num f64) ([0x4008000000000000, 0x4000000000000000, 0x3ff0000000000000, 0x4014000000000000].map (newConstant (p := p) f64)) Poly.cubic := by
  have h3 := num_small p (v := 0x4008000000000000) (n := 3) (by norm_num) (by decide +kernel)
  have h2 := num_small p (v := 0x4000000000000000) (n := 2) (by norm_num) (by decide +kernel)
  have h1 := num_small p (v := 0x3ff0000000000000) (n := 1) (by norm_num) (by decide +kernel)
  have h5 := num_small p (v := 0x4014000000000000) (n := 5) (by norm_num) (by decide +kernel)
  norm_num at h1 h2 h3 h5
  exact .cons h3 (.cons h2 (.cons h1 (.cons h5 .nil)))

theorem degTen_coeffs : List.Forall₂ (Num f64) (degTenCoeffs.map (newConstant (p := p) f64)) Poly.degTen := by
  have h1 := num_small p (v := 0x3ff0000000000000) (n := 1) (by norm_num) (by decide +kernel)
  have h2 := num_small p (v := 0x4000000000000000) (n := 2) (by norm_num) (by decide +kernel)
  have h3 := num_small p (v := 0x4008000000000000) (n := 3) (by norm_num) (by decide +kernel)
  have h4 := num_small p (v := 0x4010000000000000) (n := 4) (by norm_num) (by decide +kernel)
  have h5 := num_small p (v := 0x4014000000000000) (n := 5) (by norm_num) (by decide +kernel)
  have h6 := num_small p (v := 0x4018000000000000) (n := 6) (by norm_num) (by decide +kernel)
  have h7 := num_small p (v := 0x401c000000000000) (n := 7) (by norm_num) (by decide +kernel)
  have h8 := num_small p (v := 0x4020000000000000) (n := 8) (by norm_num) (by decide +kernel)
  have h9 := num_small p (v := 0x4022000000000000) (n := 9) (by norm_num) (by decide +kernel)
  norm_num at h1 h2 h3 h4 h5 h6 h7 h8 h9
  exact .cons h1 (.cons h9 (.cons h8 (.cons h7 (.cons h6 (.cons h5 (.cons h4 (.cons h3 (.cons h2 (.cons h1 (.cons h1 .nil))))))))))

theorem size_cubic (x : ℝ) : Poly.size Poly.cubic x = 3 * |x| ^ 3 + 2 * |x| ^ 2 + |x| + 5 := by
  simp [Poly.size, Poly.cubic, Poly.value]; ring

theorem size_degTen (x : ℝ) : Poly.size Poly.degTen x =
    |x| ^ 10 + 9 * |x| ^ 9 + 8 * |x| ^ 8 + 7 * |x| ^ 7 + 6 * |x| ^ 6 + 5 * |x| ^ 5 + 4 * |x| ^ 4 + 3 * |x| ^ 3 + 2 * |x| ^ 2 + |x| + 1 := by
  simp [Poly.size, Poly.degTen, Poly.value]; ring

/-- **C79** The two polynomials of /repo/math/math_test.go, for inputs up to `2^16`: `9` and `23` half units in the last place of the sum of the sizes of the terms. -/
theorem C79_polynomials {m : Prover} (G : Good p b f64) (hm : m.Fits b f64) {at' : FloatVar p} {x : ℝ} (hx : Num f64 at' x) (hx2 : |x| ≤ 2 ^ 16) :
    Ok m b (polyCubic at') (fun r => ∃ w, Num f64 r w ∧ |w - (3 * x ^ 3 + 2 * x ^ 2 + x + 5)| ≤ 9 / 2 ^ 53 * Poly.size Poly.cubic x) ∧
    Ok m b (polyDegTen at') (fun r => ∃ w, Num f64 r w ∧
      |w - (x ^ 10 + 9 * x ^ 9 + 8 * x ^ 8 + 7 * x ^ 7 + 6 * x ^ 6 + 5 * x ^ 5 + 4 * x ^ 4 + 3 * x ^ 3 + 2 * x ^ 2 + x + 1)| ≤ 23 / 2 ^ 53 * Poly.size Poly.degTen x) := by
  constructor
  · have h := poly64 G hm hx cubic_coeffs hx2 (by norm_num [Poly.cubic]) (by rw [size_cubic]; have := abs_nonneg x; nlinarith [pow_nonneg this 3, pow_nonneg this 2])
      (by rw [size_cubic]; norm_num) (k := 9) (by norm_num [Poly.cubic])
    rw [show Poly.value Poly.cubic x = 3 * x ^ 3 + 2 * x ^ 2 + x + 5 by simp [Poly.cubic, Poly.value]; ring] at h
    exact h
  · have h := poly64 G hm hx degTen_coeffs hx2 (by norm_num [Poly.degTen]) (by rw [size_degTen]; have := abs_nonneg x; exact le_add_of_nonneg_left (by positivity))
      (by rw [size_degTen]; norm_num) (k := 23) (by norm_num [Poly.degTen])
    rw [show Poly.value Poly.degTen x = x ^ 10 + 9 * x ^ 9 + 8 * x ^ 8 + 7 * x ^ 7 + 6 * x ^ 6 + 5 * x ^ 5 + 4 * x ^ 4 + 3 * x ^ 3 + 2 * x ^ 2 + x + 1 by
      simp [Poly.degTen, Poly.value]; ring, (C33_eval_reverse f64 at' _).1, List.reverse_reverse] at h
    exact h

/-- **C79** Whatever the hints and the back-end, `PolynomialEvalCircuitDegTen` accepts for a number up to `2^16` in magnitude only outputs whose magnitude is that of the polynomial, up to the
stated error. -/
theorem C79_degTen_sound (be : Backend) (st : Bool) {X P : ZMod bn254} {s : Bool} {a : ℝ} (hX : datumOf f64 X = .fin s a) (ha : a ≤ 2 ^ 16)
    (h : Accepts be st 0 f64.pow2Size (polyDegTenCircuit X P) ()) :
    ∃ t c, datumOf f64 P = .fin t c ∧ |c - (|Poly.value Poly.degTen (Ieee.signed s a)|)| ≤ 23 / 2 ^ 53 * Poly.size Poly.degTen (Ieee.signed s a) := by
  have G : Good bn254 8 f64 := goodField_bn254.2 8 ⟨by norm_num, by norm_num⟩
  rw [C59_width_degTen] at h
  obtain ⟨h1, h2, r, h3, h4, h5⟩ := (func_sat G (by decide)).1 h
  have ex := wiresOf_encodes G (by decide) h1
  rw [hX] at ex
  obtain ⟨w, h6, h7⟩ := (C79_polynomials (m := .any st) G (Or.inr (by decide)) ⟨s, a, ex, rfl⟩ (by rw [Num.abs_eq ex rfl]; exact ha)).2 r h3
  obtain ⟨t, h8⟩ := same_magnitude G (by decide) h6 h2 h4 h5
  refine ⟨t, _, h8, (abs_abs_sub_abs_le_abs_sub _ _).trans ?_⟩
  rw [show Poly.value Poly.degTen (Ieee.signed s a) = (Ieee.signed s a) ^ 10 + 9 * (Ieee.signed s a) ^ 9 + 8 * (Ieee.signed s a) ^ 8 + 7 * (Ieee.signed s a) ^ 7 + 6 * (Ieee.signed s a) ^ 6 +
    5 * (Ieee.signed s a) ^ 5 + 4 * (Ieee.signed s a) ^ 4 + 3 * (Ieee.signed s a) ^ 3 + 2 * (Ieee.signed s a) ^ 2 + (Ieee.signed s a) + 1 by simp [Poly.degTen, Poly.value]; ring]
  exact h7

/-- **C79** The honest prover is accepted for every such input with some output (which by `C79_degTen_sound` has the magnitude of the polynomial up to the stated error). -/
theorem C79_degTen_complete (be : Backend) (st : Bool) {X : ZMod bn254} (hp : IsPattern f64 X) {s : Bool} {a : ℝ} (hX : datumOf f64 X = .fin s a) (ha : a ≤ 2 ^ 16) :
    ∃ P, Accepts be st 0 f64.pow2Size (polyDegTenCircuit X P) () := by
  have G : Good bn254 8 f64 := goodField_bn254.2 8 ⟨by norm_num, by norm_num⟩
  have ex := wiresOf_encodes G (by decide) hp
  rw [hX] at ex
  obtain ⟨r, h1, w, h2, -⟩ := (C79_polynomials (m := .honest) G (Or.inl rfl) ⟨s, a, ex, rfl⟩ (by rw [Num.abs_eq ex rfl]; exact ha)).2
  obtain ⟨P, h3, rfl⟩ := exists_pattern G (by decide) h2
  exact ⟨P, (C59_width_degTen be X P st).2 (Circ.sat_of_run _ _ ((func_run G (by decide)).2 ⟨hp, h3, _, h1, rfl, rfl⟩))⟩

/-- The hypotheses of C79 are met by the input of the vector in /repo/math/math_test.go:136, about 74.0046, and the output the circuit accepts for it. -/
theorem vector74 : datumOf f64 (0x4052804B7BF6345E : ZMod bn254) = .fin false (5207611271427166 / 2 ^ 46) := by
  have e : (0x4052804B7BF6345E : ZMod bn254).val = 0x4052804B7BF6345E := by decide +kernel
  unfold datumOf; rw [e]
  norm_num [Ieee.decodeBits, Ieee.Format.bias, f64]
  decide

/-- `C79_degTen_sound` and `C79_degTen_complete` for that input. -/
example (be : Backend) (st : Bool) : (∃ t c, datumOf f64 (0x43d332c535aa3d94 : ZMod bn254) = .fin t c ∧
    |c - (|Poly.value Poly.degTen (5207611271427166 / 2 ^ 46)|)| ≤ 23 / 2 ^ 53 * Poly.size Poly.degTen (5207611271427166 / 2 ^ 46)) ∧
    ∃ P, Accepts be st 0 f64.pow2Size (polyDegTenCircuit (0x4052804B7BF6345E : ZMod bn254) P) () := by
  have h := C79_degTen_sound be st vector74 (by norm_num) (P := 0x43d332c535aa3d94) (by rw [C59_width_degTen]; exact Circ.sat_of_run _ _ (by decide +kernel))
  rw [show ∀ a, Ieee.signed false a = a from fun a => rfl] at h
  exact ⟨h, C79_degTen_complete be st (by unfold IsPattern; decide +kernel) vector74 (by norm_num)⟩

/-- `C79_eval_accuracy` for the straight line `2x + 3` at `x = 4` in single precision, any prover, width 8. -/
example : ∃ w, |w - 11| ≤ ((1 + 2 ^ (-24:ℤ)) ^ 4 - 1) * 11 + 4 * (1 + 2 ^ (-24:ℤ)) ^ 4 * 4 ^ 2 * 2 ^ (-150:ℤ) ∧
    ∃ r, Num f32 (r : FloatVar bn254) w ∧ (polyEval f32 [newConstant f32 0x40400000, newConstant f32 0x40000000] (newConstant f32 0x40800000 : FloatVar bn254)).run 8 = some r := by
  have n2 : Num f32 (newConstant f32 0x40000000 : FloatVar bn254) 2 := by
    refine num_exact (E := 8) (M := 23) (neg := false) (num := 2) (den := 1) (v := 0x40000000) (by norm_num) (by norm_num) (by norm_num) (by decide +kernel) ?_
    simp [Ieee.signed]
  have n3 : Num f32 (newConstant f32 0x40400000 : FloatVar bn254) 3 := by
    refine num_exact (E := 8) (M := 23) (neg := false) (num := 3) (den := 1) (v := 0x40400000) (by norm_num) (by norm_num) (by norm_num) (by decide +kernel) ?_
    simp [Ieee.signed]
  have n4 : Num f32 (newConstant f32 0x40800000 : FloatVar bn254) 4 := by
    refine num_exact (E := 8) (M := 23) (neg := false) (num := 4) (den := 1) (v := 0x40800000) (by norm_num) (by norm_num) (by norm_num) (by decide +kernel) ?_
    simp [Ieee.signed]
  have h := (C79_eval_accuracy (m := .honest) (b := 8) good8 (Or.inl rfl) (by decide) n4 (.cons n2 (.cons n3 .nil)) (by
    norm_num [Poly.size, Poly.value, f32, Ieee.Format.bias, Ieee.Format.qmin, Ieee.Format.emin])).1
  obtain ⟨r, hr, w, hw, he⟩ := h
  refine ⟨w, ?_, r, hw, hr⟩
  norm_num [Poly.size, Poly.value, f32, Ieee.Format.bias, Ieee.Format.qmin, Ieee.Format.emin] at he ⊢
  exact he

end ZkLoc

namespace ZkLoc.TableGen
open Ieee

/-! ### C80: the tables of polynomial values -/

theorem terms_cubic (x : ℝ) : termsValue x [(3, 3), (2, 2), (1, 1), (5, 0)] = Poly.value Poly.cubic x := by
  simp [termsValue, Poly.value, Poly.cubic]

theorem terms_degTen (x : ℝ) : termsValue x [(1, 10), (9, 9), (8, 8), (7, 7), (6, 6), (5, 5), (4, 4), (3, 3), (2, 2), (1, 1), (1, 0)] = Poly.value Poly.degTen x := by
  simp [termsValue, Poly.value, Poly.degTen]

theorem size_terms (x : ℝ) : Poly.size Poly.cubic x = Poly.value Poly.cubic |x| ∧ Poly.size Poly.degTen x = Poly.value Poly.degTen |x| := by
  constructor <;> simp [Poly.size, Poly.value, Poly.cubic, Poly.degTen]

theorem one_le_terms (x : ℝ) : 1 ≤ Poly.value Poly.cubic |x| ∧ 1 ≤ Poly.value Poly.degTen |x| := by
  have := abs_nonneg x
  rw [← (size_terms x).1, ← (size_terms x).2, size_cubic, size_degTen]
  constructor
  · have : 0 ≤ 3 * |x| ^ 3 + 2 * |x| ^ 2 + |x| := by positivity
    linarith
  · exact le_add_of_nonneg_left (by positivity)

/-- **C80** Rows of the double precision tables list the drawn number itself, and the value of the polynomial there up to `8` (cubic) and `15` (degree ten) half units in the last place of the sum
of the sizes of the terms, when the library's power is accurate to a unit in the last place. -/
theorem C80_double_rows {pw : ℝ → ℕ → ℝ → Prop} (hpw : PowAccurate pw) {x a y : ℝ} :
    (PolyRow double (CubicPolynomial pw) x a y → a = x ∧ |y - Poly.value Poly.cubic a| ≤ 8 / 2 ^ 53 * Poly.size Poly.cubic a) ∧
    (PolyRow double (Degree10Polynomial pw) x a y → a = x ∧ |y - Poly.value Poly.degTen a| ≤ 15 / 2 ^ 53 * Poly.size Poly.degTen a) := by
  constructor
  · intro h
    have := double_row hpw (t := (3, 3)) (ts := [(2, 2), (1, 1), (5, 0)]) (by decide) (by decide) (fun x => by rw [terms_cubic]; exact (one_le_terms x).1) h
    rw [terms_cubic, terms_cubic] at this
    refine ⟨this.1, this.2.trans ?_⟩
    rw [(size_terms a).1]
    exact mul_le_mul_of_nonneg_right (by norm_num) (zero_le_one.trans (one_le_terms a).1)
  · intro h
    have := double_row hpw (t := (1, 10)) (ts := [(9, 9), (8, 8), (7, 7), (6, 6), (5, 5), (4, 4), (3, 3), (2, 2), (1, 1), (1, 0)]) (by decide) (by decide)
      (fun x => by rw [terms_degTen]; exact (one_le_terms x).2) h
    rw [terms_degTen, terms_degTen] at this
    refine ⟨this.1, this.2.trans ?_⟩
    rw [(size_terms a).2]
    exact mul_le_mul_of_nonneg_right (by norm_num) (zero_le_one.trans (one_le_terms a).2)

/-- **C80** (partial: single precision rows are not correctly rounded at the input they list, `C80_single_rows_contradict`) Rows of the single precision tables list a number next to the drawn one,
and the value of the polynomial at the listed number up to `4.01` (cubic) and `11.01` (degree ten) half units in the last place of the sum of the sizes of the terms. -/
theorem C80_single_rows_partial {pw : ℝ → ℕ → ℝ → Prop} (hpw : PowAccurate pw) {x a y : ℝ} :
    (PolyRow single (CubicPolynomial pw) x a y → |y - Poly.value Poly.cubic a| ≤ 4.01 / 2 ^ 24 * Poly.size Poly.cubic a) ∧
    (PolyRow single (Degree10Polynomial pw) x a y → |y - Poly.value Poly.degTen a| ≤ 11.01 / 2 ^ 24 * Poly.size Poly.degTen a) := by
  constructor
  · intro h
    have := single_row hpw (t := (3, 3)) (ts := [(2, 2), (1, 1), (5, 0)]) (by decide) (d := 3) (by decide) (by decide) (fun x => by rw [terms_cubic]; exact (one_le_terms x).1) h
    rw [terms_cubic, terms_cubic] at this
    refine this.2.trans ?_
    rw [(size_terms a).1]
    exact mul_le_mul_of_nonneg_right (by norm_num) (zero_le_one.trans (one_le_terms a).1)
  · intro h
    have := single_row hpw (t := (1, 10)) (ts := [(9, 9), (8, 8), (7, 7), (6, 6), (5, 5), (4, 4), (3, 3), (2, 2), (1, 1), (1, 0)]) (by decide) (d := 10) (by decide) (by decide)
      (fun x => by rw [terms_degTen]; exact (one_le_terms x).2) h
    rw [terms_degTen, terms_degTen] at this
    refine this.2.trans ?_
    rw [(size_terms a).2]
    exact mul_le_mul_of_nonneg_right (by norm_num) (zero_le_one.trans (one_le_terms a).2)

/-- **C80** What the circuits compute for the input of a row of the double precision tables differs from the listed value by at most `17` (cubic) and `38` (degree ten) half units in the last place
of the sum of the sizes of the terms. -/
theorem C80_circuit_and_table {p b : ℕ} [Fact p.Prime] {pw : ℝ → ℕ → ℝ → Prop} (hpw : PowAccurate pw) {x a y : ℝ} {m : Prover} (G : Good p b f64) (hm : m.Fits b f64) {at' : FloatVar p}
    (hx : Num f64 at' a) :
    (PolyRow double (CubicPolynomial pw) x a y → Ok m b (polyCubic at') (fun r => ∃ w, Num f64 r w ∧ |w - y| ≤ 17 / 2 ^ 53 * Poly.size Poly.cubic a)) ∧
    (PolyRow double (Degree10Polynomial pw) x a y → Ok m b (polyDegTen at') (fun r => ∃ w, Num f64 r w ∧ |w - y| ≤ 38 / 2 ^ 53 * Poly.size Poly.degTen a)) := by
  have key : ∀ {fn : ℝ → ℝ → Prop}, PolyRow double fn x a y → a = x → |a| ≤ 2 ^ 16 := by
    rintro fn ⟨⟨k, hk⟩, -, -⟩ rfl
    exact (uniform_range hk).trans (by norm_num)
  constructor
  · intro h
    have h1 := (C80_double_rows hpw).1 h
    refine ((C79_polynomials G hm hx (key h h1.1)).1).mono ?_
    rintro r ⟨w, hw, he⟩
    refine ⟨w, hw, ?_⟩
    have e : Poly.value Poly.cubic a = 3 * a ^ 3 + 2 * a ^ 2 + a + 5 := by simp [Poly.cubic, Poly.value]; ring
    rw [← e] at he
    refine (abs_sub_le w (Poly.value Poly.cubic a) y).trans ?_
    rw [abs_sub_comm _ y]
    linarith [h1.2]
  · intro h
    have h1 := (C80_double_rows hpw).2 h
    refine ((C79_polynomials G hm hx (key h h1.1)).2).mono ?_
    rintro r ⟨w, hw, he⟩
    refine ⟨w, hw, ?_⟩
    have e : Poly.value Poly.degTen a = a ^ 10 + 9 * a ^ 9 + 8 * a ^ 8 + 7 * a ^ 7 + 6 * a ^ 6 + 5 * a ^ 5 + 4 * a ^ 4 + 3 * a ^ 3 + 2 * a ^ 2 + a + 1 := by
      simp [Poly.degTen, Poly.value]; ring
    rw [← e] at he
    refine (abs_sub_le w (Poly.value Poly.degTen a) y).trans ?_
    rw [abs_sub_comm _ y]
    linarith [h1.2]

/-- Numbers drawn from (-100, 100) come close to every number from 0 to 99. -/
theorem uniform_near_hundred {t : ℝ} (h1 : 0 ≤ t) (h2 : t ≤ 99) : ∃ k x, Uniform (-100) 100 k x ∧ |x - t| ≤ 1 / 2 ^ 40 := by
  have f200 : Rounds double (100 - -100 : ℝ) 200 := by
    rw [show (100:ℝ) - -100 = 200 by norm_num]
    apply Rounds.self
    rw [abs_of_pos (by norm_num)]
    exact ⟨200, 0, by norm_num [double, Convert.double], by decide, by norm_num⟩
  set z : ℝ := (t + 100) / 200 * 2 ^ 53 with hz
  have hz0 : 0 ≤ z := by positivity
  have hz1 : z < 2 ^ 53 := by rw [hz]; norm_num; linarith
  have g1 := Nat.floor_le hz0
  have g2 := Nat.lt_floor_add_one z
  set k := ⌊z⌋₊ with hk
  have hk53 : k < 2 ^ 53 := by
    have : (k:ℝ) < 2 ^ 53 := by linarith
    exact_mod_cast this
  obtain ⟨p, hp⟩ := exists_rounds (F := double) (by norm_num [double, Convert.double]) (200 * ((k:ℝ) / 2 ^ 53))
  obtain ⟨x, hx⟩ := exists_rounds (F := double) (by norm_num [double, Convert.double]) (-100 + p)
  refine ⟨k, x, ⟨hk53, 200, p, f200, hp, hx⟩, ?_⟩
  have e1 := double_err hp
  have e2 := double_err hx
  have k0 : (0:ℝ) ≤ k := by positivity
  generalize (k:ℝ) = K at *
  have hP0 : 0 ≤ 200 * (K / 2 ^ 53) := by positivity
  have hP1 : 200 * (K / 2 ^ 53) ≤ t + 100 := by
    have : 200 * (z / 2 ^ 53) = t + 100 := by rw [hz]; field_simp
    rw [← this]; gcongr
  have hP2 : t + 100 - 200 / 2 ^ 53 ≤ 200 * (K / 2 ^ 53) := by
    have : 200 * (z / 2 ^ 53) = t + 100 := by rw [hz]; field_simp
    rw [← this]
    have : z - 1 ≤ K := by linarith
    have : 200 * ((z - 1) / 2 ^ 53) ≤ 200 * (K / 2 ^ 53) := by gcongr
    refine le_trans (le_of_eq ?_) this
    ring
  generalize 200 * (K / 2 ^ 53) = P at *
  rw [abs_of_nonneg hP0] at e1
  have e3 : |-100 + p| ≤ 101 := by
    norm_num at e1
    rw [abs_le] at *
    constructor <;> linarith [e1.1, e1.2]
  norm_num at e1 e2 hP2 ⊢
  rw [abs_le] at e1 e2 ⊢
  constructor <;> linarith [e1.1, e1.2, e2.1, e2.2]

/-- From 64 on single precision numbers are at least `2^-17` apart. -/
theorem rounds_sixty_four {x : ℝ} (h1 : 64 ≤ x) (h2 : x < 64 + 1 / 2 ^ 18) : Rounds single x 64 := by
  have har : Representable single (64:ℝ) := ⟨64, 0, by norm_num [single], by decide, by norm_num⟩
  have key : ∀ q, Representable single q → q ≠ 64 → |x - 64| < |x - q| := by
    intro q hq hne
    rw [abs_of_nonneg (by linarith)]
    rcases le_or_gt 64 q with h | h
    · obtain ⟨m, hm⟩ := hq.multiple (k := -17) (Or.inr (by norm_num [single] at h ⊢; linarith))
      have h3 : 64 < q := lt_of_le_of_ne h (Ne.symm hne)
      rw [show (2:ℝ) ^ (-17:ℤ) = 1 / 131072 by norm_num] at hm
      have h4 : (8388608:ℝ) < m := by linarith
      have h5 : 8388608 + 1 ≤ m := by exact_mod_cast h4
      have h6 : (8388608:ℝ) + 1 ≤ m := by exact_mod_cast h5
      have h7 : 64 + 1 / 2 ^ 17 ≤ q := by
        rw [show (64:ℝ) + 1 / 2 ^ 17 = (8388608 + 1) * (1 / 131072) by norm_num, hm]
        exact mul_le_mul_of_nonneg_right h6 (by norm_num)
      norm_num at h2 h7
      rw [abs_of_nonpos (by linarith)]
      linarith
    · rw [abs_of_pos (by linarith)]
      linarith
  refine ⟨?_, fun _ => by norm_num, fun h => by linarith⟩
  rw [abs_of_nonneg (by linarith), abs_of_pos (by norm_num : (0:ℝ) < 64)]
  refine ⟨har, fun q hq => ?_, fun q hq hne he => ?_⟩
  · by_cases h : q = 64
    · rw [h]
    · exact (key q hq h).le
  · exact absurd he (ne_of_gt (key q hq hne))

/-- The script returns something when the library's power does. -/
theorem exists_script {pw : ℝ → ℕ → ℝ → Prop} (htot : ∀ x n, ∃ q, pw x n q) (x : ℝ) : ∃ r, CubicPolynomial pw x r := by
  have term : ∀ c n, ∃ v, Term pw x c n v := by
    intro c n
    match n with
    | 0 => exact ⟨_, rfl⟩
    | 1 => exact ⟨_, rfl⟩
    | n + 2 =>
      obtain ⟨q, hq⟩ := htot x (n + 2)
      by_cases hc : c = 1
      · exact ⟨q, q, hq, by rw [if_pos hc]⟩
      · obtain ⟨v, hv⟩ := exists_rounds (F := double) (by norm_num [double, Convert.double]) (c * q)
        exact ⟨v, q, hq, by rw [if_neg hc]; exact hv⟩
  have add : ∀ ts s, ∃ r, AddTerms pw x ts s r := by
    intro ts
    induction ts with
    | nil => exact fun s => ⟨s, rfl⟩
    | cons t ts ih =>
      intro s
      obtain ⟨v, hv⟩ := term t.1 t.2
      obtain ⟨s', hs⟩ := exists_rounds (F := double) (by norm_num [double, Convert.double]) (s + v)
      obtain ⟨r, hr⟩ := ih s'
      exact ⟨r, v, s', hv, hs, hr⟩
  obtain ⟨v, hv⟩ := term 3 3
  obtain ⟨r, hr⟩ := add [(2, 2), (1, 1), (5, 0)] v
  exact ⟨r, v, hv, hr⟩

/-- **C80** (negation for single precision) Rows of the single precision tables can contradict each other: for every accurate power function there are two draws for which the rows of the cubic
table list the same input, 64, and outputs more than `0.05` apart. The value of the polynomial at 64 is the integer 794693, a single precision number. -/
theorem C80_single_rows_contradict {pw : ℝ → ℕ → ℝ → Prop} (hpw : PowAccurate pw) (htot : ∀ x n, ∃ q, pw x n q) :
    Poly.value Poly.cubic 64 = 794693 ∧ ∃ x x' y y', PolyRow single (CubicPolynomial pw) x 64 y ∧ PolyRow single (CubicPolynomial pw) x' 64 y' ∧ |y - 794693| ≤ 0.01 ∧ y + 0.05 < y' := by
  have ev : ∀ z, Poly.value Poly.cubic z = 3 * z ^ 3 + 2 * z ^ 2 + z + 5 := by intro z; simp [Poly.cubic, Poly.value]; ring
  refine ⟨by rw [ev]; norm_num, ?_⟩
  have near : ∀ {x r lo hi : ℝ}, 64 ≤ lo → hi ≤ 65 → lo ≤ x → x ≤ hi → CubicPolynomial pw x r → Poly.value Poly.cubic lo - 1 / 10 ^ 6 ≤ r ∧ r ≤ Poly.value Poly.cubic hi + 1 / 10 ^ 6 := by
    intro x r lo hi h1 h2 h3 h4 h
    have x0 : 0 ≤ x := by linarith
    have e := script_err hpw (t := (3, 3)) (ts := [(2, 2), (1, 1), (5, 0)]) (by decide) (by decide) (by rw [terms_cubic]; exact (one_le_terms x).1) h
    rw [terms_cubic, terms_cubic, abs_of_nonneg x0] at e
    have m1 : Poly.value Poly.cubic lo ≤ Poly.value Poly.cubic x := by
      have : 0 ≤ lo := by linarith
      rw [ev, ev]; gcongr
    have m2 : Poly.value Poly.cubic x ≤ Poly.value Poly.cubic hi := by
      rw [ev, ev]; gcongr
    have m3 : Poly.value Poly.cubic hi ≤ Poly.value Poly.cubic 65 := by
      have : 0 ≤ hi := by linarith
      rw [ev, ev]; gcongr
    rw [ev 65] at m3
    norm_num at e m3
    rw [abs_le] at e
    norm_num
    constructor <;> linarith [e.1, e.2]
  obtain ⟨k, x, hx, e⟩ := uniform_near_hundred (t := 64 + 1 / 2 ^ 40) (by norm_num) (by norm_num)
  obtain ⟨k', x', hx', e'⟩ := uniform_near_hundred (t := 64 + 1 / 2 ^ 19) (by norm_num) (by norm_num)
  obtain ⟨r, hr⟩ := exists_script htot x
  obtain ⟨r', hr'⟩ := exists_script htot x'
  obtain ⟨y, hy⟩ := exists_rounds (F := single) (by norm_num [single]) r
  obtain ⟨y', hy'⟩ := exists_rounds (F := single) (by norm_num [single]) r'
  rw [abs_le] at e e'
  have b := near (lo := 64) (hi := 64 + 1 / 2 ^ 39) le_rfl (by norm_num) (by linarith [e.1]) (by norm_num at e ⊢; linarith [e.2]) hr
  have b' := near (lo := 64 + 1 / 2 ^ 19 - 1 / 2 ^ 40) (hi := 65) (by norm_num) (by norm_num) (by linarith [e'.1]) (by norm_num at e' ⊢; linarith [e'.2]) hr'
  rw [ev, ev] at b b'
  have y0 : 0 ≤ r := by norm_num at b; linarith [b.1]
  have y0' : 0 ≤ r' := by norm_num at b'; linarith [b'.1]
  have near1 : |r - y| ≤ |r - 794693| := by
    have := hy.rne.nearest 794693 ⟨794693, 0, by norm_num [single], by decide, by norm_num⟩
    rwa [abs_of_nonneg y0, abs_of_nonneg (hy.pos y0)] at this
  have near2 : |r' - y'| ≤ |r' - 794693.0625| := by
    have := hy'.rne.nearest 794693.0625 ⟨12715089, -4, by norm_num [single], by decide, by norm_num⟩
    rwa [abs_of_nonneg y0', abs_of_nonneg (hy'.pos y0')] at this
  have u' := near (lo := 64) (hi := 64 + 1 / 2 ^ 19 + 1 / 2 ^ 40) le_rfl (by norm_num) (by norm_num at e' ⊢; linarith [e'.1]) (by linarith [e'.2]) hr'
  rw [ev, ev] at u'
  have l1 : |r - 794693| ≤ 1 / 10 ^ 5 := by
    norm_num at b ⊢
    rw [abs_le]
    constructor <;> linarith [b.1, b.2]
  have l2 : |r' - 794693.0625| ≤ 9 / 10 ^ 3 := by
    norm_num at b' u' ⊢
    rw [abs_le]
    constructor <;> linarith [b'.1, u'.2]
  have z1 := near1.trans l1
  have z2 := near2.trans l2
  refine ⟨x, x', y, y', ⟨⟨k, hx⟩, rounds_sixty_four (by linarith [e.1]) (by norm_num at e ⊢; linarith [e.2]), r, hr, hy⟩,
    ⟨⟨k', hx'⟩, rounds_sixty_four (by norm_num at e' ⊢; linarith [e'.1]) (by norm_num at e' ⊢; linarith [e'.2]), r', hr', hy'⟩, ?_, ?_⟩
  · norm_num at l1 z1 ⊢
    rw [abs_le] at l1 z1 ⊢
    constructor <;> linarith [l1.1, l1.2, z1.1, z1.2]
  · norm_num at l1 z1 l2 z2 ⊢
    rw [abs_le] at l1 z1 l2 z2
    linarith [l1.1, l1.2, z1.1, z1.2, l2.1, l2.2, z2.1, z2.2]

/-- An accurate and total power function exists: the exact one. So the hypotheses of C80 are met, and rows exist. -/
example : PowAccurate (fun x n q => q = x ^ n) ∧ (∀ (x : ℝ) (n : ℕ), ∃ q, q = x ^ n) ∧ ∃ x a y, PolyRow double (CubicPolynomial (fun x n q => q = x ^ n)) x a y := by
  have hpw : PowAccurate (fun x n q => q = x ^ n) := by
    rintro x n q rfl
    rw [sub_self, abs_zero]
    positivity
  have htot : ∀ (x : ℝ) (n : ℕ), ∃ q, q = x ^ n := fun x n => ⟨_, rfl⟩
  refine ⟨hpw, htot, ?_⟩
  obtain ⟨k, x, hx, -⟩ := uniform_near_hundred (t := 12.5) (by norm_num) (by norm_num)
  obtain ⟨r, hr⟩ := exists_script htot x
  obtain ⟨y, hy⟩ := exists_rounds (F := double) (by norm_num [double, Convert.double]) r
  obtain ⟨a, ha⟩ := exists_rounds (F := double) (by norm_num [double, Convert.double]) x
  exact ⟨x, a, y, ⟨k, hx⟩, ha, r, hr, hy⟩

end ZkLoc.TableGen
