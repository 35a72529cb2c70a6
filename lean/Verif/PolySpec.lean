import Verif.Spec.Poly
import Verif.AtanSpec

/-!
# Helper lemmas: the accuracy of `Eval` and `EvalK` with `k = 1`
-/

namespace ZkLoc

variable {p : ℕ} [Fact p.Prime] {b : ℕ} {f : Fmt} {m : Prover}

/-- Error of `n` steps due to underflow, in units of `2 * eta`. -/
noncomputable def underflow (a X : ℝ) : ℕ → ℝ
  | 0 => 0
  | n + 1 => a ^ 2 * (X * underflow a X n + 1)

theorem underflow_nonneg {a X : ℝ} (hX : 0 ≤ X) : ∀ n, 0 ≤ underflow a X n
  | 0 => le_rfl
  | n + 1 => mul_nonneg (by positivity) (by have := mul_nonneg hX (underflow_nonneg (a := a) hX n); linarith)

theorem underflow_mono {a X Y : ℝ} (hX : 0 ≤ X) (h : X ≤ Y) : ∀ n, underflow a X n ≤ underflow a Y n
  | 0 => le_rfl
  | n + 1 => by
    have := mul_le_mul h (underflow_mono (a := a) hX h n) (underflow_nonneg hX n) (hX.trans h)
    exact mul_le_mul_of_nonneg_left (by linarith) (by positivity)

/-- Horner's rule on real coefficients. -/
noncomputable def hornerV (x : ℝ) : List ℝ → ℝ → ℝ
  | [], r => r
  | c :: cs, r => hornerV x cs (r * x + c)

theorem hornerV_eq (x : ℝ) : ∀ (cs : List ℝ) (r : ℝ), hornerV x cs r = r * x ^ cs.length + Poly.value cs x
  | [], r => by simp [hornerV, Poly.value]
  | c :: cs, r => by rw [hornerV, hornerV_eq x cs]; simp only [Poly.value, List.length_cons]; ring

/-- One step. `P` bounds the sizes of the terms so far, `T` the underflow. -/
theorem hornerV_step (G : Good p b f) (hm : m.Fits b f) {at' q cf : FloatVar p} {x r R c A P T : ℝ} (hx : Num f at' x) (hq : Num f q r) (hc : Num f cf c) (hA : 1 ≤ A) (hP : |R| ≤ P)
    (hT : 0 ≤ T) (he : |r - R| ≤ (A - 1) * P + 2 * eta f * T) (hbig : A * (1 + ulpHalf f) ^ 2 * (|x| * P + |c|) + 2 * eta f * ((1 + ulpHalf f) ^ 2 * (|x| * T + 1)) < big f) :
    Ok m b (Circ.bind (fMul f q at') (fun z => fAdd f z cf)) (fun z => ∃ w, Num f z w ∧
      |w - (R * x + c)| ≤ (A * (1 + ulpHalf f) ^ 2 - 1) * (|x| * P + |c|) + 2 * eta f * ((1 + ulpHalf f) ^ 2 * (|x| * T + 1))) := by
  have u0 := ulpHalf_pos (f := f)
  have n0 := eta_pos (f := f)
  have P0 : 0 ≤ P := (abs_nonneg _).trans hP
  have hXP : 0 ≤ |x| * P := by positivity
  have hXT : 0 ≤ |x| * T := by positivity
  have hC := abs_nonneg c
  have hr : |r| ≤ A * P + 2 * eta f * T := by
    have := abs_add_le (r - R) R
    rw [sub_add_cancel] at this
    linarith
  have hrx : |r * x| ≤ A * (|x| * P) + 2 * eta f * (|x| * T) := by
    rw [abs_mul]
    have := mul_le_mul_of_nonneg_right hr (abs_nonneg x)
    linarith
  have hAu : 0 ≤ A * (1 + ulpHalf f) ^ 2 - 1 - ulpHalf f := by nlinarith
  have ha1 : 1 ≤ (1 + ulpHalf f) ^ 2 := by nlinarith
  have hb0 : A * (|x| * P) ≤ A * (1 + ulpHalf f) ^ 2 * (|x| * P) := by
    have := mul_le_mul_of_nonneg_left ha1 (show 0 ≤ A * (|x| * P) by positivity)
    linarith
  have hb1 : 2 * eta f * (|x| * T) ≤ 2 * eta f * ((1 + ulpHalf f) ^ 2 * (|x| * T)) := by
    have := mul_le_mul_of_nonneg_left ha1 (show 0 ≤ 2 * eta f * (|x| * T) by positivity)
    linarith
  have hb2 : 0 ≤ A * (1 + ulpHalf f) ^ 2 * |c| := by positivity
  have hb3 : 0 ≤ 2 * eta f * (1 + ulpHalf f) ^ 2 := by positivity
  refine (ok_mul G hm hq hx (by linarith)).bind ?_
  rintro z ⟨w, hw, h1⟩
  have k1 := h1.err2
  have kw : |w| ≤ (1 + ulpHalf f) * (A * (|x| * P) + 2 * eta f * (|x| * T)) + eta f := by
    have := abs_sub_abs_le_abs_sub w (r * x)
    rw [abs_sub_comm] at this
    have t := mul_le_mul_of_nonneg_left hrx u0.le
    linarith
  have hwc : |w + c| ≤ (1 + ulpHalf f) * (A * (|x| * P) + 2 * eta f * (|x| * T)) + eta f + |c| := (abs_add_le _ _).trans (by linarith)
  have kd : |w - R * x| ≤ |x| * ((A - 1) * P + 2 * eta f * T) + ulpHalf f * (A * (|x| * P) + 2 * eta f * (|x| * T)) + eta f := by
    have e1 : |w - R * x| ≤ |r * x - w| + |r * x - R * x| := by
      rw [show w - R * x = -(r * x - w) + (r * x - R * x) by ring]
      refine (abs_add_le _ _).trans ?_
      rw [abs_neg]
    have e2 : |r * x - R * x| ≤ |x| * ((A - 1) * P + 2 * eta f * T) := by
      rw [← sub_mul, abs_mul, mul_comm]
      exact mul_le_mul_of_nonneg_left he (abs_nonneg x)
    have t := mul_le_mul_of_nonneg_left hrx u0.le
    linarith
  have hle : (1 + ulpHalf f) * (A * (|x| * P) + 2 * eta f * (|x| * T)) + eta f + |c| ≤
      A * (1 + ulpHalf f) ^ 2 * (|x| * P + |c|) + 2 * eta f * ((1 + ulpHalf f) ^ 2 * (|x| * T + 1)) := by
    have t1 : 0 ≤ ulpHalf f * (1 + ulpHalf f) * (A * (|x| * P) + 2 * eta f * (|x| * T)) := by positivity
    have t2 : 0 ≤ (A * (1 + ulpHalf f) ^ 2 - 1) * |c| := mul_nonneg (by linarith) hC
    have t3 : 0 ≤ (2 * (1 + ulpHalf f) ^ 2 - 1) * eta f := mul_nonneg (by linarith) n0.le
    nlinarith
  refine (ok_add G hm hw hc (by linarith) (by linarith)).mono ?_
  rintro z' ⟨w', hw', h2⟩
  refine ⟨w', hw', ?_⟩
  have k2 := h2.err2
  have e3 : |w' - (R * x + c)| ≤ |w + c - w'| + |w - R * x| := by
    rw [show w' - (R * x + c) = -(w + c - w') + (w - R * x) by ring]
    refine (abs_add_le _ _).trans ?_
    rw [abs_neg]
  have k3 := mul_le_mul_of_nonneg_left hwc u0.le
  have t2 : 0 ≤ (A * (1 + ulpHalf f) ^ 2 - 1 - ulpHalf f) * |c| := mul_nonneg hAu hC
  have t3 : 0 ≤ (3 + 2 * ulpHalf f) * ulpHalf f * eta f := by positivity
  nlinarith

theorem size_cons (c : ℝ) (cs : List ℝ) (x : ℝ) : Poly.size (c :: cs) x = |c| * |x| ^ cs.length + Poly.size cs x := by
  simp [Poly.size, Poly.value]

theorem size_nonneg (x : ℝ) : ∀ cs, 0 ≤ Poly.size cs x
  | [] => le_rfl
  | c :: cs => by rw [size_cons]; have := size_nonneg x cs; positivity

/-- Horner's loop from an intermediate result on. -/
theorem hornerV_ok (G : Good p b f) (hm : m.Fits b f) {at' : FloatVar p} {x : ℝ} (hx : Num f at' x) :
    ∀ {vs : List (FloatVar p)} {cs : List ℝ}, List.Forall₂ (Num f) vs cs → ∀ {q : FloatVar p} {r R P : ℝ} {n : ℕ}, Num f q r → |R| ≤ P →
      |r - R| ≤ ((1 + ulpHalf f) ^ (2 * n) - 1) * P + 2 * eta f * underflow (1 + ulpHalf f) |x| n →
      (1 + ulpHalf f) ^ (2 * (n + cs.length)) * (P * max 1 |x| ^ cs.length + Poly.size cs (max 1 |x|)) + 2 * eta f * underflow (1 + ulpHalf f) (max 1 |x|) (n + cs.length) < big f →
      Ok m b (horner f at' vs q) (fun z => ∃ w, Num f z w ∧ |w - hornerV x cs R| ≤
        ((1 + ulpHalf f) ^ (2 * (n + cs.length)) - 1) * (P * |x| ^ cs.length + Poly.size cs x) + 2 * eta f * underflow (1 + ulpHalf f) |x| (n + cs.length)) := by
  intro vs cs h
  have u0 := ulpHalf_pos (f := f)
  have n0 := eta_pos (f := f)
  have hX : 1 ≤ max 1 |x| := le_max_left _ _
  have hxX : |x| ≤ max 1 |x| := le_max_right _ _
  induction h with
  | nil =>
    intro q r R P n hq hP he _
    exact Ok.pure ⟨r, hq, by simpa [hornerV, Poly.size, Poly.value] using he⟩
  | @cons v c vs cs hc _ ih =>
    intro q r R P n hq hP he hbig
    have P0 : 0 ≤ P := (abs_nonneg _).trans hP
    have hlen : n + (c :: cs).length = (n + 1) + cs.length := by simp only [List.length_cons]; omega
    have hsz : ∀ X : ℝ, 0 ≤ X → P * X ^ (c :: cs).length + Poly.size (c :: cs) X = (X * P + |c|) * X ^ cs.length + Poly.size cs X := by
      intro X h0
      rw [size_cons, abs_of_nonneg h0, List.length_cons, pow_succ]; ring
    have hsz' : P * |x| ^ (c :: cs).length + Poly.size (c :: cs) x = (|x| * P + |c|) * |x| ^ cs.length + Poly.size cs x := by
      rw [size_cons, List.length_cons, pow_succ]; ring
    rw [hlen, hsz _ (by positivity)] at hbig
    have hpow : (1 + ulpHalf f) ^ (2 * (n + 1)) = (1 + ulpHalf f) ^ (2 * n) * (1 + ulpHalf f) ^ 2 := by rw [← pow_add]; ring_nf
    have hA : 1 ≤ (1 + ulpHalf f) ^ (2 * n) := one_le_pow₀ (by linarith)
    have T0 := underflow_nonneg (a := 1 + ulpHalf f) (abs_nonneg x) n
    have mono1 : (1 + ulpHalf f) ^ (2 * (n + 1)) ≤ (1 + ulpHalf f) ^ (2 * (n + 1 + cs.length)) := pow_le_pow_right₀ (by linarith) (by omega)
    have under : ∀ k, underflow (1 + ulpHalf f) (max 1 |x|) (n + 1) ≤ underflow (1 + ulpHalf f) (max 1 |x|) (n + 1 + k) := by
      intro k
      induction k with
      | zero => exact le_rfl
      | succ k ihk =>
        refine ihk.trans ?_
        rw [← add_assoc, underflow]
        have t := underflow_nonneg (a := 1 + ulpHalf f) (zero_le_one.trans hX) (n + 1 + k)
        have t2 : underflow (1 + ulpHalf f) (max 1 |x|) (n + 1 + k) ≤ max 1 |x| * underflow (1 + ulpHalf f) (max 1 |x|) (n + 1 + k) := le_mul_of_one_le_left t hX
        have t3 : (1:ℝ) ≤ (1 + ulpHalf f) ^ 2 := one_le_pow₀ (by linarith)
        have t4 : 0 ≤ max 1 |x| * underflow (1 + ulpHalf f) (max 1 |x|) (n + 1 + k) + 1 := by positivity
        have := le_mul_of_one_le_left t4 t3
        linarith
    have hstep : (1 + ulpHalf f) ^ (2 * n) * (1 + ulpHalf f) ^ 2 * (|x| * P + |c|) + 2 * eta f * ((1 + ulpHalf f) ^ 2 * (|x| * underflow (1 + ulpHalf f) |x| n + 1)) < big f := by
      refine lt_of_le_of_lt (add_le_add ?_ ?_) hbig
      · rw [← hpow]
        have s0 := size_nonneg (max 1 |x|) cs
        have e1 : |x| * P + |c| ≤ (max 1 |x| * P + |c|) * max 1 |x| ^ cs.length + Poly.size cs (max 1 |x|) := by
          have a1 : |x| * P ≤ max 1 |x| * P := mul_le_mul_of_nonneg_right hxX P0
          have a2 : max 1 |x| * P + |c| ≤ (max 1 |x| * P + |c|) * max 1 |x| ^ cs.length :=
            le_mul_of_one_le_right (by positivity) (one_le_pow₀ hX)
          linarith
        exact mul_le_mul mono1 e1 (by positivity) (by positivity)
      · refine mul_le_mul_of_nonneg_left ?_ (by positivity)
        have : (1 + ulpHalf f) ^ 2 * (|x| * underflow (1 + ulpHalf f) |x| n + 1) = underflow (1 + ulpHalf f) |x| (n + 1) := rfl
        rw [this]
        exact (underflow_mono (abs_nonneg x) hxX _).trans (under _)
    have hloop : horner f at' (v :: vs) q = Circ.bind (Circ.bind (fMul f q at') (fun z => fAdd f z v)) (fun y => horner f at' vs y) := by
      simp only [horner, Circ.bind_eq, Circ.bind_assoc]
    rw [hloop]
    refine (hornerV_step G hm hx hq hc hA hP T0 he hstep).bind ?_
    rintro y ⟨w, hw, h1⟩
    have hP' : |R * x + c| ≤ |x| * P + |c| := by
      refine (abs_add_le _ _).trans ?_
      rw [abs_mul]
      have := mul_le_mul_of_nonneg_right hP (abs_nonneg x)
      linarith
    refine (ih hw hP' (n := n + 1) (by rw [hpow]; exact h1) ?_).mono ?_
    · refine lt_of_le_of_lt (add_le_add (mul_le_mul_of_nonneg_left ?_ (by positivity)) le_rfl) hbig
      have : (|x| * P + |c|) * max 1 |x| ^ cs.length ≤ (max 1 |x| * P + |c|) * max 1 |x| ^ cs.length :=
        mul_le_mul_of_nonneg_right (by have := mul_le_mul_of_nonneg_right hxX P0; linarith) (by positivity)
      linarith
    · rintro z ⟨w, hw, h⟩
      refine ⟨w, hw, ?_⟩
      rw [hlen, hsz']
      exact h

end ZkLoc
