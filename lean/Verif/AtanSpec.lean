import Verif.PolyBound
import Verif.SinSpec

/-!
# Helper lemmas: the accuracy of `AtanRemez32`, `AtanRemez64` and `Atan2`
-/

namespace ZkLoc

variable {p : ℕ} [Fact p.Prime] {b : ℕ} {f : Fmt} {m : Prover}

/-- Horner's rule in exact arithmetic, highest coefficient first. -/
noncomputable def hornerR (x : ℝ) : List ℚ → ℝ → ℝ
  | [], r => r
  | c :: cs, r => hornerR x cs (r * x + c)

/-- Bounds for the exact values (`l`, `h`) and for the error (`e`, in half units of the last place of 1) on `[lo, hi]`. -/
def hornerE (lo hi : ℚ) : List ℚ → ℚ → ℚ → ℚ → ℚ
  | [], _, _, e => e
  | c :: cs, l, h, e =>
    let l' := min (l * lo) (l * hi) + c
    let h' := max (h * lo) (h * hi) + c
    hornerE lo hi cs l' h' (e * hi + (max |l| |h| + 1 / 1000) * hi + 1 / 1000 + max |l'| |h'| + 2 / 1000)

def hornerFine (lo hi : ℚ) : List ℚ → ℚ → ℚ → ℚ → Bool
  | [], _, _, _ => true
  | c :: cs, l, h, e =>
    let l' := min (l * lo) (l * hi) + c
    let h' := max (h * lo) (h * hi) + c
    decide (0 ≤ e ∧ e ≤ 100 ∧ max |l| |h| ≤ 100 ∧ max |l'| |h'| ≤ 100) &&
    hornerFine lo hi cs l' h' (e * hi + (max |l| |h| + 1 / 1000) * hi + 1 / 1000 + max |l'| |h'| + 2 / 1000)

theorem abs_le_max_of {l h R : ℝ} (h1 : l ≤ R) (h2 : R ≤ h) : |R| ≤ max |l| |h| := abs_le_max_abs_abs h1 h2

/-- One step of Horner's rule. -/
theorem horner_step (G : Good p b f) (hm : m.Fits b f) (hf : Fine f) {at' q cf : FloatVar p} {x r R : ℝ} {lo hi c l h e : ℚ} (hx : Num f at' x) (hq : Num f q r)
    (hc : Num f cf c) (x0 : (lo:ℝ) ≤ x) (x1 : x ≤ hi) (lo0 : 0 ≤ lo) (hi1 : hi ≤ 1) (hl : (l:ℝ) ≤ R) (hh : R ≤ h) (he : |r - R| ≤ e * ulpHalf f)
    (e0 : 0 ≤ e) (e1 : e ≤ 100) (A1 : max |l| |h| ≤ 100) (A2 : max |min (l * lo) (l * hi) + c| |max (h * lo) (h * hi) + c| ≤ 100) :
    Ok m b (Circ.bind (fMul f q at') (fun z => fAdd f z cf)) (fun z => ∃ w, Num f z w ∧ ((min (l * lo) (l * hi) + c : ℚ) : ℝ) ≤ R * x + c ∧
      R * x + c ≤ ((max (h * lo) (h * hi) + c : ℚ) : ℝ) ∧ |w - (R * x + c)| ≤ ((e * hi + (max |l| |h| + 1 / 1000) * hi + 1 / 1000 +
        max |min (l * lo) (l * hi) + c| |max (h * lo) (h * hi) + c| + 2 / 1000 : ℚ) : ℝ) * ulpHalf f) := by
  have hbig := big_ge G
  have hu := hf.hu
  have u0 := ulpHalf_pos (f := f)
  have hη := eta_le_u1000 hf
  have lo0' : (0:ℝ) ≤ lo := by exact_mod_cast lo0
  have hi1' : (hi:ℝ) ≤ 1 := by exact_mod_cast hi1
  have e0' : (0:ℝ) ≤ e := by exact_mod_cast e0
  have e1' : (e:ℝ) ≤ 100 := by exact_mod_cast e1
  have A1' : ((max |l| |h| : ℚ) : ℝ) ≤ 100 := by exact_mod_cast A1
  have A2' : ((max |min (l * lo) (l * hi) + c| |max (h * lo) (h * hi) + c| : ℚ) : ℝ) ≤ 100 := by exact_mod_cast A2
  have xx : 0 ≤ x := lo0'.trans x0
  have hR : |R| ≤ ((max |l| |h| : ℚ) : ℝ) := by push_cast; exact abs_le_max_abs_abs hl hh
  have hL : ((min (l * lo) (l * hi) + c : ℚ) : ℝ) ≤ R * x + c := by
    push_cast
    have h1 : (l:ℝ) * x ≤ R * x := mul_le_mul_of_nonneg_right hl xx
    have h2 : min ((l:ℝ) * lo) (l * hi) ≤ l * x := by
      rcases le_total 0 (l:ℝ) with h0 | h0
      · exact (min_le_left _ _).trans (mul_le_mul_of_nonneg_left x0 h0)
      · exact (min_le_right _ _).trans (mul_le_mul_of_nonpos_left x1 h0)
    linarith
  have hH : R * x + c ≤ ((max (h * lo) (h * hi) + c : ℚ) : ℝ) := by
    push_cast
    have h1 : R * x ≤ h * x := mul_le_mul_of_nonneg_right hh xx
    have h2 : (h:ℝ) * x ≤ max ((h:ℝ) * lo) (h * hi) := by
      rcases le_total 0 (h:ℝ) with h0 | h0
      · exact (mul_le_mul_of_nonneg_left x1 h0).trans (le_max_right _ _)
      · exact (mul_le_mul_of_nonpos_left x0 h0).trans (le_max_left _ _)
    linarith
  have hR' : |R * x + c| ≤ ((max |min (l * lo) (l * hi) + c| |max (h * lo) (h * hi) + c| : ℚ) : ℝ) := by
    have := abs_le_max_abs_abs hL hH
    push_cast at this ⊢; exact this
  generalize hA : (max |l| |h| : ℚ) = A at *
  generalize hA' : (max |min (l * lo) (l * hi) + c| |max (h * lo) (h * hi) + c| : ℚ) = A' at *
  have A0 : (0:ℝ) ≤ A := (abs_nonneg _).trans hR
  have eu : (e:ℝ) * ulpHalf f ≤ 1 / 1000 := by
    have : (e:ℝ) * ulpHalf f ≤ 100 * (1 / 2 ^ 20) := mul_le_mul e1' hu u0.le (by norm_num)
    norm_num at this ⊢; linarith
  have hr : |r| ≤ A + 1 / 1000 := by
    have : |r| ≤ |r - R| + |R| := by simpa using abs_add_le (r - R) R
    linarith
  have hrx : |r * x| ≤ (A + 1 / 1000) * hi := by
    rw [abs_mul, abs_of_nonneg xx]
    exact mul_le_mul hr x1 xx (by linarith)
  have hrx' : |r * x| ≤ 101 := by
    refine hrx.trans ?_
    have : ((A:ℝ) + 1 / 1000) * hi ≤ (A + 1 / 1000) * 1 := mul_le_mul_of_nonneg_left hi1' (by linarith)
    linarith
  refine (ok_mul G hm hq hx (by linarith)).bind ?_
  rintro z ⟨w, hw, hr1⟩
  have k1 := hr1.err2
  have k2 : |w - R * x| ≤ (e * hi + (A + 1 / 1000) * hi + 1 / 1000) * ulpHalf f := by
    have t : |w - R * x| ≤ |r * x - w| + |r * x - R * x| := by
      rw [show w - R * x = -(r * x - w) + (r * x - R * x) by ring]
      refine (abs_add_le _ _).trans ?_
      rw [abs_neg]
    have t2 : |r * x - R * x| ≤ e * ulpHalf f * hi := by
      rw [← sub_mul, abs_mul, abs_of_nonneg xx]
      exact mul_le_mul he x1 xx (by positivity)
    have t3 : ulpHalf f * |r * x| ≤ ulpHalf f * ((A + 1 / 1000) * hi) := mul_le_mul_of_nonneg_left hrx u0.le
    nlinarith
  have hi0 : (0:ℝ) ≤ hi := xx.trans x1
  have k3 : ((e:ℝ) * hi + (A + 1 / 1000) * hi + 1 / 1000) ≤ 201 := by
    have t1 : (e:ℝ) * hi ≤ 100 * 1 := mul_le_mul e1' hi1' hi0 (by norm_num)
    have t2 : ((A:ℝ) + 1 / 1000) * hi ≤ (A + 1 / 1000) * 1 := mul_le_mul_of_nonneg_left hi1' (by linarith)
    linarith
  have k4 : ((e:ℝ) * hi + (A + 1 / 1000) * hi + 1 / 1000) * ulpHalf f ≤ 1 / 1000 := by
    have : ((e:ℝ) * hi + (A + 1 / 1000) * hi + 1 / 1000) * ulpHalf f ≤ 201 * (1 / 2 ^ 20) := mul_le_mul k3 hu u0.le (by norm_num)
    norm_num at this ⊢; linarith
  have k5 : |w + c - (R * x + c)| ≤ (e * hi + (A + 1 / 1000) * hi + 1 / 1000) * ulpHalf f := by
    rwa [show w + c - (R * x + c) = w - R * x by ring]
  have k6 : |w + c| ≤ A' + 1 / 1000 := by
    have := abs_add_le (w + c - (R * x + c)) (R * x + c)
    rw [sub_add_cancel] at this
    linarith
  have kw : |w| ≤ 128 := by
    have := hr1.abs_le_pow G 7 (hrx'.trans (by norm_num))
    norm_num at this; exact this
  refine (ok_add G hm hw hc (by linarith) (by linarith)).mono ?_
  rintro z' ⟨w', hw', hr2⟩
  refine ⟨w', hw', hL, hH, ?_⟩
  have k7 := hr2.err2
  have k8 : ulpHalf f * |w + c| ≤ ulpHalf f * (A' + 1 / 1000) := mul_le_mul_of_nonneg_left k6 u0.le
  have k9 : |w' - (R * x + c)| ≤ |w + c - w'| + |w + c - (R * x + c)| := by
    rw [show w' - (R * x + c) = -(w + c - w') + (w + c - (R * x + c)) by ring]
    refine (abs_add_le _ _).trans ?_
    rw [abs_neg]
  push_cast
  nlinarith

/-- `EvalK` with `k = 1`. -/
theorem evalKLoop_ok (G : Good p b f) (hm : m.Fits b f) (hf : Fine f) {at' : FloatVar p} {x : ℝ} {lo hi : ℚ} (hx : Num f at' x) (x0 : (lo:ℝ) ≤ x) (x1 : x ≤ hi)
    (lo0 : 0 ≤ lo) (hi1 : hi ≤ 1) : ∀ {vs : List ℕ} {cs : List ℚ}, List.Forall₂ (fun v (c : ℚ) => Num f (newConstant f v : FloatVar p) c) vs cs →
    ∀ {q : FloatVar p} {r R : ℝ} {l h e : ℚ}, Num f q r → (l:ℝ) ≤ R → R ≤ h → |r - R| ≤ e * ulpHalf f → hornerFine lo hi cs l h e = true →
    Ok m b (evalKLoop f at' (vs.map (newConstant f)) [q]) (fun z => ∃ y w, z = [y] ∧ Num f y w ∧ |w - hornerR x cs R| ≤ (hornerE lo hi cs l h e : ℚ) * ulpHalf f) := by
  intro vs cs hD
  induction hD with
  | nil =>
    intro q r R l h e hq _ _ he _
    exact Ok.pure ⟨q, r, rfl, hq, he⟩
  | @cons v c vs cs hc _ ih =>
    intro q r R l h e hq hl hh he hfine
    simp only [hornerFine, Bool.and_eq_true, decide_eq_true_eq] at hfine
    obtain ⟨⟨e0, e1, A1, A2⟩, hfine⟩ := hfine
    have hloop : evalKLoop f at' ((v :: vs).map (newConstant f)) [q] = Circ.bind (Circ.bind (fMul f q at') (fun z => fAdd f z (newConstant f v)))
        (fun y => evalKLoop f at' (vs.map (newConstant f)) [y]) := by
      simp only [List.map_cons, evalKLoop, evalKStep, Circ.bind_eq, Circ.pure_eq, Circ.bind_assoc, Circ.bind]
    rw [hloop]
    refine (horner_step G hm hf hx hq hc x0 x1 lo0 hi1 hl hh he e0 e1 A1 A2).bind ?_
    rintro y ⟨w, hw, h1, h2, h3⟩
    exact ih hw h1 h2 h3 hfine

theorem hornerR_eval (x : ℝ) : ∀ (cs : List ℚ) (as : List ℚ), hornerR x cs (pEval as x) = pEval (cs.reverse ++ as) x
  | [], as => by simp [hornerR]
  | c :: cs, as => by
    rw [hornerR, show pEval as x * x + (c:ℝ) = pEval (c :: as) x by simp only [pEval]; ring, hornerR_eval x cs (c :: as)]
    simp

/-- What is used of the constants of `AtanRemez`: `cs` are the exact values of the coefficients, `δ` bounds the distance of the polynomial from the arc tangent
and `ε` the rounding errors of its evaluation, both in half units of the last place of `1`. -/
structure AtanConsts (p : ℕ) [Fact p.Prime] (f : Fmt) (k : TrigConsts) (cs : List ℚ) (δ ε : ℚ) : Prop where
  fine : Fine f
  zero : Num f (newConstant f 0 : FloatVar p) 0
  one : Num f (newConstant f k.one : FloatVar p) 1
  half : ∃ h, Num f (newConstant f k.halfPi : FloatVar p) h ∧ |h - Real.pi / 2| ≤ ulpHalf f
  pi : ∃ h, Num f (newConstant f k.pi : FloatVar p) h ∧ |h - Real.pi| ≤ 2 * ulpHalf f
  coeffs : List.Forall₂ (fun v (c : ℚ) => Num f (newConstant f v : FloatVar p) c) k.atanCoeffs cs
  close : ∀ x : ℝ, 0 ≤ x → x ≤ 1 → |pEval cs.reverse x - Real.arctan x| ≤ δ * ulpHalf f
  eval : ∀ x : ℝ, 0 ≤ x → x ≤ 1 → ∃ lo hi : ℚ, 0 ≤ lo ∧ hi ≤ 1 ∧ (lo:ℝ) ≤ x ∧ x ≤ hi ∧ hornerFine lo hi cs 0 0 0 = true ∧ hornerE lo hi cs 0 0 0 ≤ ε
  small : 0 ≤ δ + ε ∧ δ + ε ≤ 100

variable {k : TrigConsts} {cs : List ℚ} {δ ε : ℚ}

theorem atanPoly_ok (G : Good p b f) (hm : m.Fits b f) (K : AtanConsts p f k cs δ ε) {x : FloatVar p} {v : ℝ} (hx : Num f x v) (v0 : 0 ≤ v) (v1 : v ≤ 1) :
    Ok m b (evalK f (k.atanCoeffs.map (newConstant f)) x 1) (fun z => ∃ w, Num f z w ∧ |w - Real.arctan v| ≤ ((δ + ε : ℚ) : ℝ) * ulpHalf f) := by
  have u0 := ulpHalf_pos (f := f)
  obtain ⟨lo, hi, lo0, hi1, h1, h2, hfine, hE⟩ := K.eval v v0 v1
  unfold evalK
  simp only [Circ.bind_eq, Circ.pure_eq, List.replicate]
  refine (evalKLoop_ok G hm K.fine hx h1 h2 lo0 hi1 K.coeffs K.zero (R := 0) (by simp) (by simp) (by simp) hfine).bind ?_
  rintro _ ⟨y, w, rfl, hw, he⟩
  refine Ok.pure ⟨w, hw, ?_⟩
  have e : hornerR v cs 0 = pEval cs.reverse v := by simpa [pEval] using hornerR_eval v cs []
  rw [e] at he
  have hE' := mul_le_mul_of_nonneg_right ((Rat.cast_le (K := ℝ)).2 hE) u0.le
  have := K.close v v0 v1
  have := abs_sub_le w (pEval cs.reverse v) (Real.arctan v)
  push_cast
  linarith

/-- Division never stops the honest prover. -/
theorem ok_div_any (G : Good p b f) {x y : FloatVar p} {u v : ℝ} (hx : Num f x u) (hy : Num f y v) : Ok m b (fDiv f x y) (fun _ => True) := by
  cases m with
  | any st => exact fun _ _ => trivial
  | honest =>
    obtain ⟨d, hd⟩ := hx.enc
    obtain ⟨e, he⟩ := hy.enc
    obtain ⟨r, _, h, _⟩ := C20_div_complete (b := b) G hd he
    exact ⟨r, h, trivial⟩

/-- `AtanRemez` on every finite number. -/
theorem atanRemez_ok (G : Good p b f) (hm : m.Fits b f) (K : AtanConsts p f k cs δ ε) {x : FloatVar p} {v : ℝ} (hx : Num f x v) :
    Ok m b (atanRemez f k x) (fun z => ∃ w, Num f z w ∧ z.sign = x.sign ∧ |w - Real.arctan v| ≤ ((δ + ε : ℚ) + 38 / 10 : ℝ) * ulpHalf f) := by
  have hbig := big_ge G
  have hu := K.fine.hu
  have u0 := ulpHalf_pos (f := f)
  have hη := eta_le_u1000 K.fine
  obtain ⟨h, hh, hpi⟩ := K.half
  have pi1 := Real.pi_gt_d6
  have pi2 := Real.pi_lt_d6
  norm_num at pi1 pi2
  norm_num at hu
  have s0 : (0:ℝ) ≤ ((δ + ε : ℚ) : ℝ) := by exact_mod_cast K.small.1
  have s1 : ((δ + ε : ℚ) : ℝ) ≤ 100 := by exact_mod_cast K.small.2
  have sm : ((δ + ε : ℚ) : ℝ) * ulpHalf f ≤ 1 / 1000 := by
    have : ((δ + ε : ℚ) : ℝ) * ulpHalf f ≤ 100 * (1 / 1048576) := mul_le_mul s1 hu u0.le (by norm_num)
    linarith
  have hpi' := abs_le.1 hpi
  have hab : Num f ({ x with sign := 0 } : FloatVar p) |v| := hx.abs
  obtain ⟨sg, hsg, hneg, hpos⟩ := hx.sign
  have fin : ∀ {e n : ZMod p} {w : ℝ}, Num f (⟨0, e, n, 0⟩ : FloatVar p) w → |w - Real.arctan (|v|)| ≤ ((δ + ε : ℚ) + 38 / 10 : ℝ) * ulpHalf f →
      ∃ w', Num f (⟨x.sign, e, n, 0⟩ : FloatVar p) w' ∧ x.sign = x.sign ∧ |w' - Real.arctan v| ≤ ((δ + ε : ℚ) + 38 / 10 : ℝ) * ulpHalf f := by
    intro e n w hw he
    have hat : 0 ≤ Real.arctan |v| := Real.arctan_nonneg.2 (abs_nonneg v)
    have he' := abs_sin_err he (δ := 0) (by simpa using hat) le_rfl
    refine ⟨_, by rw [hsg]; exact num_setSign hw sg, rfl, ?_⟩
    rcases lt_trichotomy v 0 with h0 | h0 | h0
    · rw [hneg h0]
      rw [abs_of_neg h0, Real.arctan_neg] at he'
      simp only [if_true]
      rw [show -|w| - Real.arctan v = -(|w| - -Real.arctan v) by ring, abs_neg]
      linarith
    · subst h0
      rw [abs_zero, Real.arctan_zero, sub_zero] at he
      rw [Real.arctan_zero, sub_zero]
      cases sg
      · simpa only [Bool.false_eq_true, if_false, abs_abs] using he
      · simpa only [if_true, abs_neg, abs_abs] using he
    · rw [hpos h0]
      rw [abs_of_pos h0] at he'
      simp only [Bool.false_eq_true, if_false]
      linarith
  unfold atanRemez atanMag
  simp only [Circ.bind_eq, Circ.pure_eq, Circ.bind_assoc]
  refine (ok_gt G hab K.one).bind ?_
  rintro _ rfl
  by_cases hc : 1 < |v|
  · simp only [hc, decide_true]
    have hv0 : 0 < |v| := by linarith
    have r0 : 0 ≤ 1 / |v| := by positivity
    have r1 : 1 / |v| ≤ 1 := by rw [div_le_one hv0]; exact hc.le
    refine (ok_div G hm K.one hab hv0.ne' (by rw [abs_of_nonneg r0]; linarith)).bind ?_
    rintro rc ⟨w1, hw1, hr1⟩
    have w0 : 0 ≤ w1 := hr1.nonneg r0
    have w1' : w1 ≤ 1 := by
      have := hr1.abs_le_pow G 0 (by rw [abs_of_nonneg r0]; simpa using r1)
      rw [abs_of_nonneg w0] at this; simpa using this
    have k1 : |w1 - 1 / (|v|)| ≤ 1001 / 1000 * ulpHalf f := by
      have := hr1.err2
      rw [abs_sub_comm, abs_of_nonneg r0] at this
      have : ulpHalf f * (1 / |v|) ≤ ulpHalf f := mul_le_of_le_one_right u0.le r1
      linarith
    refine (Ok.select _ _ _).bind ?_
    rintro _ rfl
    refine (Ok.select _ _ _).bind ?_
    rintro _ rfl
    simp only [if_true]
    have hm1 := num_magnitude hw1
    rw [abs_of_nonneg w0] at hm1
    rw [hx.normal]
    refine (atanPoly_ok G hm K hm1 w0 w1').bind ?_
    rintro res ⟨w, hw, he⟩
    have he' := abs_le.1 he
    have at0 := Real.arctan_nonneg.2 w0
    have at1 := Real.arctan_lt_pi_div_two w1
    have at2 : Real.arctan w1 ≤ Real.arctan 1 := Real.arctan_strictMono.monotone w1'
    rw [Real.arctan_one] at at2
    have hh1 : |h| < 2 := by rw [abs_lt]; constructor <;> linarith
    have hhw : |h - w| ≤ 158 / 100 := by rw [abs_le]; constructor <;> linarith
    refine (ok_sub G hm hh hw (by linarith) (by linarith)).bind ?_
    rintro sub ⟨z, hz, hrz⟩
    refine (Ok.select _ _ _).bind ?_
    rintro _ rfl
    refine (Ok.select _ _ _).bind ?_
    rintro _ rfl
    simp only [if_true, Circ.bind]
    have z0 : 0 ≤ z := hrz.nonneg (by linarith)
    have hz' := num_magnitude hz
    rw [abs_of_nonneg z0] at hz'
    refine Ok.pure (fin hz' ?_)
    have hinv : Real.arctan |v| = Real.pi / 2 - Real.arctan (1 / |v|) := by
      have := Real.arctan_inv_of_pos hv0
      rw [one_div]; linarith
    have k2 := abs_le.1 ((abs_arctan_sub_le w1 (1 / |v|)).trans k1)
    have k3 := hrz.err2
    have k4 : ulpHalf f * |h - w| ≤ ulpHalf f * (158 / 100) := mul_le_mul_of_nonneg_left hhw u0.le
    have k5 := abs_le.1 (k3.trans (add_le_add k4 hη))
    rw [hinv, add_mul]
    generalize ((δ + ε : ℚ) : ℝ) * ulpHalf f = D at *
    rw [abs_le]
    constructor <;> linarith
  · simp only [hc, decide_false]
    refine (ok_div_any G K.one hab).bind ?_
    rintro rc -
    refine (Ok.select _ _ _).bind ?_
    rintro _ rfl
    refine (Ok.select _ _ _).bind ?_
    rintro _ rfl
    simp only [Bool.false_eq_true, if_false]
    refine (atanPoly_ok G hm K hab (abs_nonneg v) (not_lt.1 hc)).bind ?_
    rintro res ⟨w, hw, he⟩
    have he' := abs_le.1 he
    have at0 := Real.arctan_nonneg.2 (abs_nonneg v)
    have at1 := Real.arctan_lt_pi_div_two |v|
    have hh1 : |h| < 2 := by rw [abs_lt]; constructor <;> linarith
    have hhw : |h - w| ≤ 2 := by rw [abs_le]; constructor <;> linarith
    refine (ok_sub G hm hh hw (by linarith) (by linarith)).bind ?_
    rintro sub -
    refine (Ok.select _ _ _).bind ?_
    rintro _ rfl
    refine (Ok.select _ _ _).bind ?_
    rintro _ rfl
    simp only [Bool.false_eq_true, if_false, Circ.bind]
    have hz' := num_magnitude hw
    have he2 := abs_sin_err he (δ := 0) (by simpa using at0) le_rfl
    refine Ok.pure (fin hz' ?_)
    rw [add_mul]
    linarith

/-! ### The constants -/

/-- Sign, numerator and binary exponent of the denominator of the coefficients, /repo/math/math.go:100-124 and 169-179 after rounding to the formats. -/
def atanTable32 : List (Bool × ℕ × ℕ) := [
    (false, 2955899, 27), (true, 4487745, 25), (false, 5527531, 24), (true, 3179781, 23),
    (false, 3533681, 25), (false, 11396473, 26), (false, 2940209, 29), (true, 5602423, 24),
    (false, 606877, 34), (false, 1048575, 20), (false, 16446219, 51)]
def atanTable64 : List (Bool × ℕ × ℕ) := [
    (true, 8696583915057071, 63), (false, 7396742978044865, 59), (true, 365440164555337, 52), (false, 5678486360754713, 54),
    (true, 3768053698169035, 52), (false, 7179328038516601, 52), (true, 1252912790066351, 49), (false, 1285237935727683, 49),
    (true, 7729433523052535, 52), (false, 276256444006667, 48), (true, 4625467608679119, 53), (false, 5045254114834251, 54),
    (true, 4680369910440413, 56), (true, 2672530013015305, 55), (true, 7948359625965039, 61), (false, 2011715433999607, 54),
    (true, 5251106047353977, 66), (true, 2573361858451031, 54), (true, 4617433731956179, 73), (false, 7205760293151715, 55),
    (true, 8061623171756365, 83), (true, 6004799502849965, 54), (true, 7484755208902903, 95), (false, 1125899906842625, 50),
    (true, 1087904376186913, 111)]

def tableQ (t : Bool × ℕ × ℕ) : ℚ := (if t.1 then -1 else 1) * ((t.2.1 : ℚ) / 2 ^ t.2.2)

theorem tableQ_real (t : Bool × ℕ × ℕ) : Ieee.signed t.1 ((t.2.1 : ℝ) / ((2 ^ t.2.2 : ℕ) : ℝ)) = (tableQ t : ℚ) := by
  obtain ⟨s, n, e⟩ := t
  cases s <;> simp [tableQ, Ieee.signed]

theorem forall₂_map {α β γ : Type} {R : α → γ → Prop} (g : β → γ) : ∀ {l : List α} {l' : List β}, l.length = l'.length → (∀ q ∈ l.zip l', R q.1 (g q.2)) →
    List.Forall₂ R l (l'.map g)
  | [], [], _, _ => .nil
  | a :: l, c :: l', h, hq => .cons (hq (a, c) (by simp)) (forall₂_map g (by simpa using h) (fun q hq' => hq q (by simp [hq'])))

theorem atanTable32_exact : ∀ q ∈ consts32.atanCoeffs.zip atanTable32, q.1 < 2 ^ 32 ∧ exactBits 8 23 q.2.1 q.2.2.1 (2 ^ q.2.2.2) q.1 = true := by decide +kernel
theorem atanTable64_exact : ∀ q ∈ consts64.atanCoeffs.zip atanTable64, q.1 < 2 ^ 64 ∧ exactBits 11 52 q.2.1 q.2.2.1 (2 ^ q.2.2.2) q.1 = true := by decide +kernel

def atanCs32 : List ℚ := atanTable32.map tableQ
def atanCs64 : List ℚ := atanTable64.map tableQ

/-- The distance of the polynomial from the reference polynomial. -/
def atanDiff (cs : List ℚ) : List ℚ := pAdd cs.reverse (pScale (-1) atanRef)

theorem atanDiff32 : covers (fun a c => decide (pBound (atanDiff atanCs32) a c ≤ 3 / 4 / 2 ^ 24)) 0 [1/8, 1/4, 1/2, 3/4, 7/8, 15/16, 31/32, 63/64, 1] = true := by
  decide +kernel
theorem atanDiff64 : covers (fun a c => decide (pBound (atanDiff atanCs64) a c ≤ 5 / 2 / 2 ^ 53)) 0 grid = true := by decide +kernel

def hornerCheck (cs : List ℚ) (ε a c : ℚ) : Bool := decide (0 ≤ a ∧ c ≤ 1 ∧ hornerE a c cs 0 0 0 ≤ ε) && hornerFine a c cs 0 0 0

theorem hornerCheck32 : covers (hornerCheck atanCs32 (51 / 10)) 0 grid = true := by decide +kernel
theorem hornerCheck64 : covers (hornerCheck atanCs64 (186 / 10)) 0 grid = true := by decide +kernel

theorem hornerCheck_eval {cs : List ℚ} {ε : ℚ} (h : covers (hornerCheck cs ε) 0 grid = true) (x : ℝ) (x0 : 0 ≤ x) (x1 : x ≤ 1) :
    ∃ lo hi : ℚ, 0 ≤ lo ∧ hi ≤ 1 ∧ (lo:ℝ) ≤ x ∧ x ≤ hi ∧ hornerFine lo hi cs 0 0 0 = true ∧ hornerE lo hi cs 0 0 0 ≤ ε := by
  obtain ⟨l, h, hc, h1, h2⟩ := grid_covers h x0 x1
  simp only [hornerCheck, Bool.and_eq_true, decide_eq_true_eq] at hc
  exact ⟨l, h, hc.1.1, hc.1.2.1, h1, h2, hc.2, hc.1.2.2⟩

theorem atanDiff_close {cs : List ℚ} {l h : ℚ} {δ : ℚ} {x : ℝ} (hc : pBound (atanDiff cs) l h ≤ δ) (h1 : (l:ℝ) ≤ x) (h2 : x ≤ h) (x0 : 0 ≤ x) (x1 : x ≤ 1) :
    |pEval cs.reverse x - Real.arctan x| ≤ δ + 1 / 2 ^ 61 := by
  have k1 := (pEval_bound (as := atanDiff cs) h1 h2).trans ((Rat.cast_le (K := ℝ)).2 hc)
  have k2 := atanRef_close x0 x1
  unfold atanDiff at k1
  rw [pEval_add, pEval_scale] at k1
  have k3 := abs_add_le (pEval cs.reverse x + ((-1 : ℚ) : ℝ) * pEval atanRef x) (pEval atanRef x - Real.arctan x)
  rw [show pEval cs.reverse x + ((-1 : ℚ) : ℝ) * pEval atanRef x + (pEval atanRef x - Real.arctan x) = pEval cs.reverse x - Real.arctan x by push_cast; ring] at k3
  linarith

theorem atanConsts32 : AtanConsts p f32 consts32 atanCs32 (76 / 100) (51 / 10) where
  fine := fine32
  zero := num_zero (by decide) (by decide)
  one := num_exact (E := 8) (M := 23) (neg := false) (num := 1) (den := 1) (by norm_num) (by norm_num) (by decide) (by decide +kernel) (by simp [Ieee.signed])
  half := by
    obtain ⟨h, h1, _, h2⟩ := (sinConsts32 (p := p)).half
    exact ⟨h, h1, h2⟩
  pi := by
    obtain ⟨h, _, h1, h2⟩ := (sinConsts32 (p := p)).half
    refine ⟨_, h1, ?_⟩
    rw [abs_le] at h2 ⊢; constructor <;> linarith
  coeffs := forall₂_map tableQ rfl (fun q hq => num_exact (E := 8) (M := 23) (by norm_num) (by norm_num) (atanTable32_exact q hq).1 (atanTable32_exact q hq).2
    (tableQ_real q.2))
  close := by
    intro x x0 x1
    obtain ⟨l, h, hc, h1, h2⟩ := covers_spec atanDiff32 (by simpa using x0) (by simpa using x1)
    rw [decide_eq_true_eq] at hc
    refine (atanDiff_close hc h1 h2 x0 x1).trans ?_
    rw [ulpHalf32]; norm_num
  eval := hornerCheck_eval hornerCheck32
  small := by norm_num

theorem atanConsts64 : AtanConsts p f64 consts64 atanCs64 (26 / 10) (186 / 10) where
  fine := fine64
  zero := num_zero (by decide) (by decide)
  one := num_exact (E := 11) (M := 52) (neg := false) (num := 1) (den := 1) (by norm_num) (by norm_num) (by decide) (by decide +kernel) (by simp [Ieee.signed])
  half := by
    obtain ⟨h, h1, _, h2⟩ := (sinConsts64 (p := p)).half
    exact ⟨h, h1, h2⟩
  pi := by
    obtain ⟨h, _, h1, h2⟩ := (sinConsts64 (p := p)).half
    refine ⟨_, h1, ?_⟩
    rw [abs_le] at h2 ⊢; constructor <;> linarith
  coeffs := forall₂_map tableQ rfl (fun q hq => num_exact (E := 11) (M := 52) (by norm_num) (by norm_num) (atanTable64_exact q hq).1 (atanTable64_exact q hq).2
    (tableQ_real q.2))
  close := by
    intro x x0 x1
    obtain ⟨l, h, hc, h1, h2⟩ := grid_covers atanDiff64 x0 x1
    rw [decide_eq_true_eq] at hc
    refine (atanDiff_close hc h1 h2 x0 x1).trans ?_
    rw [ulpHalf64]; norm_num
  eval := hornerCheck_eval hornerCheck64
  small := by norm_num

/-! ### `Atan2` -/

theorem arg_right {x y : ℝ} (hx : 0 < x) : Complex.arg (x + y * Complex.I) = Real.arctan (y / x) := by
  have hs : 0 < Real.sqrt (1 + (y / x) ^ 2) := Real.sqrt_pos.2 (by positivity)
  have h1 := Real.neg_pi_div_two_lt_arctan (y / x)
  have h2 := Real.arctan_lt_pi_div_two (y / x)
  have pi0 := Real.pi_pos
  have := Complex.arg_mul_cos_add_sin_mul_I (r := x * Real.sqrt (1 + (y / x) ^ 2)) (by positivity) (θ := Real.arctan (y / x)) ⟨by linarith, by linarith⟩
  rw [← this, ← Complex.ofReal_cos, ← Complex.ofReal_sin, Real.cos_arctan, Real.sin_arctan]
  congr 1
  have e1 : x * Real.sqrt (1 + (y / x) ^ 2) * (1 / Real.sqrt (1 + (y / x) ^ 2)) = x := by field_simp
  have e2 : x * Real.sqrt (1 + (y / x) ^ 2) * (y / x / Real.sqrt (1 + (y / x) ^ 2)) = y := by field_simp
  rw [mul_add, ← mul_assoc, ← Complex.ofReal_mul, ← Complex.ofReal_mul, e1, e2]

theorem arg_left {x y : ℝ} (hx : x < 0) : Complex.arg (x + y * Complex.I) = if y < 0 then Real.arctan (y / x) - Real.pi else Real.arctan (y / x) + Real.pi := by
  have hs : 0 < Real.sqrt (1 + (y / x) ^ 2) := Real.sqrt_pos.2 (by positivity)
  have h1 := Real.neg_pi_div_two_lt_arctan (y / x)
  have h2 := Real.arctan_lt_pi_div_two (y / x)
  have pi0 := Real.pi_pos
  have e1 : -x * Real.sqrt (1 + (y / x) ^ 2) * -(1 / Real.sqrt (1 + (y / x) ^ 2)) = x := by field_simp
  have x0 := hx.ne
  have e2 : -x * Real.sqrt (1 + (y / x) ^ 2) * -(y / x / Real.sqrt (1 + (y / x) ^ 2)) = y := by field_simp
  have r0 : 0 < -x * Real.sqrt (1 + (y / x) ^ 2) := mul_pos (by linarith) hs
  split_ifs with hy
  · have h3 : 0 < Real.arctan (y / x) := Real.arctan_pos.2 (div_pos_of_neg_of_neg hy hx)
    have := Complex.arg_mul_cos_add_sin_mul_I r0 (θ := Real.arctan (y / x) - Real.pi) ⟨by linarith, by linarith⟩
    rw [← this, ← Complex.ofReal_cos, ← Complex.ofReal_sin, Real.cos_sub_pi, Real.sin_sub_pi, Real.cos_arctan, Real.sin_arctan]
    congr 1
    rw [mul_add, ← mul_assoc, ← Complex.ofReal_mul, ← Complex.ofReal_mul, e1, e2]
  · have h3 : Real.arctan (y / x) ≤ 0 := Real.arctan_le_zero.2 (div_nonpos_of_nonneg_of_nonpos (not_lt.1 hy) hx.le)
    have := Complex.arg_mul_cos_add_sin_mul_I r0 (θ := Real.arctan (y / x) + Real.pi) ⟨by linarith, by linarith⟩
    rw [← this, ← Complex.ofReal_cos, ← Complex.ofReal_sin, Real.cos_add_pi, Real.sin_add_pi, Real.cos_arctan, Real.sin_arctan]
    congr 1
    rw [mul_add, ← mul_assoc, ← Complex.ofReal_mul, ← Complex.ofReal_mul, e1, e2]

/-- A relative error of the argument does not matter to the arc tangent. -/
theorem arctan_rel {t q u η : ℝ} (u0 : 0 ≤ u) (hη : 0 ≤ η) (h : |q - t| ≤ u * |t| + η) (h1 : 1 ≤ |t| → 1 ≤ |q|) (hs : 0 ≤ q * t) :
    |Real.arctan q - Real.arctan t| ≤ u + η := by
  rcases le_total |t| 1 with ht | ht
  · have := mul_le_of_le_one_right u0 ht
    exact (abs_arctan_sub_le q t).trans (by linarith)
  · have hq := h1 ht
    have t0 : t ≠ 0 := by rintro rfl; norm_num at ht
    have q0 : q ≠ 0 := by rintro rfl; norm_num at hq
    have hinv : |q⁻¹ - t⁻¹| ≤ u + η := by
      rw [show q⁻¹ - t⁻¹ = -((q - t) / (q * t)) by field_simp; ring, abs_neg, abs_div, abs_mul, div_le_iff₀ (by positivity)]
      have k1 : u * |t| ≤ u * (|q| * |t|) := mul_le_mul_of_nonneg_left (by nlinarith) u0
      have k2 : η ≤ η * (|q| * |t|) := le_mul_of_one_le_right hη (by nlinarith)
      linarith
    have key : |Real.arctan q⁻¹ - Real.arctan t⁻¹| ≤ u + η := (abs_arctan_sub_le _ _).trans hinv
    rcases lt_or_gt_of_ne t0 with ht' | ht'
    · have hq' : q < 0 := by
        rcases lt_or_gt_of_ne q0 with h | h
        · exact h
        · nlinarith
      rw [Real.arctan_inv_of_neg hq', Real.arctan_inv_of_neg ht'] at key
      rw [abs_sub_comm]; convert key using 2; ring
    · have hq' : 0 < q := by
        rcases lt_or_gt_of_ne q0 with h | h
        · nlinarith
        · exact h
      rw [Real.arctan_inv_of_pos hq', Real.arctan_inv_of_pos ht'] at key
      rw [abs_sub_comm]; convert key using 2; ring

/-- The components of a number that is selected component by component. -/
theorem Num.mk0 {z : FloatVar p} {w : ℝ} (h : Num f z w) : Num f (⟨z.sign, z.exponent, z.mantissa, 0⟩ : FloatVar p) w := by
  have := h.normal
  rw [← this]; exact h

/-- The angle of the point `(x, y)`; on the negative abscissa axis `s` tells from which side (`s` is the sign of `y`, also of a zero). -/
noncomputable def sideArg (s : Bool) (x y : ℝ) : ℝ := if s then -Complex.arg (x - y * Complex.I) else Complex.arg (x + y * Complex.I)

theorem sideArg_right {s : Bool} {x y : ℝ} (hx : 0 < x) : sideArg s x y = Real.arctan (y / x) := by
  unfold sideArg
  cases s
  · simp only [Bool.false_eq_true, if_false]; exact arg_right hx
  · simp only [if_true]
    have := arg_right (y := -y) hx
    rw [neg_div, Real.arctan_neg] at this
    rw [show (x:ℂ) - y * Complex.I = (x:ℂ) + ((-y : ℝ) : ℂ) * Complex.I by push_cast; ring, this, neg_neg]

theorem sideArg_left {s : Bool} {x y : ℝ} (hx : x < 0) (hn : y < 0 → s = true) (hp : 0 < y → s = false) :
    sideArg s x y = if s then Real.arctan (y / x) - Real.pi else Real.arctan (y / x) + Real.pi := by
  unfold sideArg
  cases s
  · have : ¬ y < 0 := fun h => absurd (hn h) (by decide)
    simp only [Bool.false_eq_true, if_false]
    rw [arg_left hx, if_neg this]
  · have : ¬ -y < 0 := fun h => absurd (hp (neg_lt_zero.1 h)) (by decide)
    simp only [if_true]
    have h := arg_left (y := -y) hx
    rw [if_neg this, neg_div, Real.arctan_neg] at h
    rw [show (x:ℂ) - y * Complex.I = (x:ℂ) + ((-y : ℝ) : ℂ) * Complex.I by push_cast; ring, h]
    ring

/-- Off the negative axis the side does not matter. -/
theorem sideArg_eq {s : Bool} {x y : ℝ} (hn : y < 0 → s = true) (hp : 0 < y → s = false) (h : y ≠ 0 ∨ 0 < x) : sideArg s x y = Complex.arg (x + y * Complex.I) := by
  rcases lt_trichotomy x 0 with hx | rfl | hx
  · rcases h with h | h
    · rw [sideArg_left hx hn hp, arg_left hx]
      rcases lt_or_gt_of_ne h with h' | h'
      · rw [hn h', if_pos rfl, if_pos h']
      · rw [hp h', if_neg (by decide), if_neg (not_lt.2 h'.le)]
    · exact absurd h (by linarith)
  · rcases h with h | h
    · unfold sideArg
      rcases lt_or_gt_of_ne h with h' | h'
      · rw [hn h', if_pos rfl]
        have := Complex.arg_conj (x := ((0:ℝ):ℂ) + y * Complex.I)
        have e : (starRingEnd ℂ) (((0:ℝ):ℂ) + y * Complex.I) = ((0:ℝ):ℂ) - y * Complex.I := by simp
        rw [e] at this
        rw [this, if_neg, neg_neg]
        rw [Complex.arg_eq_pi_iff]
        simp
      · rw [hp h', if_neg (by decide)]
    · exact absurd h (lt_irrefl 0)
  · rw [sideArg_right hx, arg_right hx]

theorem sideArg_cases {σ : ZMod p} {s : Bool} {x y w c : ℝ} (hs : σ = B s) (hn : y < 0 → s = true) (hp : 0 < y → s = false) (h : |w - sideArg s x y| ≤ c) :
    (y ≠ 0 ∨ σ = 0 ∨ 0 < x → |w - Complex.arg (x + y * Complex.I)| ≤ c) ∧ (y = 0 → σ = 1 → x < 0 → |w + Real.pi| ≤ c) := by
  subst hs
  constructor
  · rintro (h1 | h1 | h1)
    · rwa [sideArg_eq hn hp (Or.inl h1)] at h
    · have : s = false := by cases s <;> simp_all [B]
      subst this
      simpa [sideArg] using h
    · rwa [sideArg_eq hn hp (Or.inr h1)] at h
  · intro h1 h2 h3
    have : s = true := by cases s <;> simp_all [B]
    subst this h1
    rw [sideArg_left h3 hn hp] at h
    simpa using h

theorem atan2_ok (G : Good p b f) (hm : m.Fits b f) (K : AtanConsts p f k cs δ ε) {y x : FloatVar p} {v t : ℝ} (hy : Num f y v) (hx : Num f x t) (t0 : t ≠ 0)
    (hq : |v / t| ≤ big f) {s : Bool} (hs : y.sign = B s) (hsn : v < 0 → s = true) (hsp : 0 < v → s = false) :
    Ok m b (atan2 f k y x) (fun z => ∃ w, Num f z w ∧ |w - sideArg s t v| ≤ ((δ + ε : ℚ) + 11 : ℝ) * ulpHalf f) := by
  have hbig := big_ge G
  have hu := K.fine.hu
  have u0 := ulpHalf_pos (f := f)
  have hη := eta_le_u1000 K.fine
  have hη0 : 0 ≤ eta f := by unfold eta; positivity
  obtain ⟨P, hP, hpi⟩ := K.pi
  have pi1 := Real.pi_gt_d6
  have pi2 := Real.pi_lt_d6
  norm_num at pi1 pi2
  norm_num at hu
  have s0 : (0:ℝ) ≤ ((δ + ε : ℚ) : ℝ) := by exact_mod_cast K.small.1
  have s1 : ((δ + ε : ℚ) : ℝ) ≤ 100 := by exact_mod_cast K.small.2
  have sm : ((δ + ε : ℚ) : ℝ) * ulpHalf f ≤ 1 / 1000 := by
    have : ((δ + ε : ℚ) : ℝ) * ulpHalf f ≤ 100 * (1 / 1048576) := mul_le_mul s1 hu u0.le (by norm_num)
    linarith
  have hpi' := abs_le.1 hpi
  unfold atan2
  simp only [Circ.bind_eq, Circ.pure_eq]
  refine (ok_div G hm hy hx t0 hq).bind ?_
  rintro qv ⟨q, hqv, hrq⟩
  have hrel : |Real.arctan q - Real.arctan (v / t)| ≤ ulpHalf f + eta f := by
    refine arctan_rel u0.le hη0 (by rw [abs_sub_comm]; exact hrq.err2) (fun h => ?_) ?_
    · exact hrq.rne.ge_of_ge (by simpa using powRepr G 0) h
    · rcases le_total 0 (v / t) with h | h
      · exact mul_nonneg (hrq.pos h) h
      · exact mul_nonneg_of_nonpos_of_nonpos (hrq.neg h) h
  have hrel' := abs_le.1 hrel
  refine (atanRemez_ok G hm K hqv).bind ?_
  rintro res ⟨w, hw, -, he⟩
  rw [add_mul] at he ⊢
  generalize ((δ + ε : ℚ) : ℝ) * ulpHalf f = D at *
  have he' := abs_le.1 he
  have a1 := Real.neg_pi_div_two_lt_arctan (v / t)
  have a2 := Real.arctan_lt_pi_div_two (v / t)
  have hw1 : |w| < 2 := by rw [abs_lt]; constructor <;> linarith
  have hadd : |w + P| ≤ 5 := by rw [abs_le]; constructor <;> linarith
  have hsub : |w - P| ≤ 5 := by rw [abs_le]; constructor <;> linarith
  refine (ok_add G hm hw hP (by linarith) (by linarith)).bind ?_
  rintro ad ⟨wa, hwa, hra⟩
  refine (ok_sub G hm hw hP (by linarith) (by linarith)).bind ?_
  rintro sb ⟨ws, hws, hrs⟩
  obtain ⟨sx, hsx, hneg, hpos⟩ := hx.sign
  rw [hs, hsx]
  refine (Ok.select _ _ _).bind ?_
  rintro _ rfl
  refine (Ok.select _ _ _).bind ?_
  rintro _ rfl
  refine (Ok.select _ _ _).bind ?_
  rintro _ rfl
  refine (Ok.select _ _ _).bind ?_
  rintro _ rfl
  refine (Ok.select _ _ _).bind ?_
  rintro _ rfl
  refine (Ok.select _ _ _).bind ?_
  rintro _ rfl
  rcases lt_or_gt_of_ne t0 with h | h
  · rw [hneg h, sideArg_left h hsn hsp]
    cases hsv : s
    case true =>
      have hv : v ≤ 0 := by by_contra hc; rw [hsp (not_le.1 hc)] at hsv; exact absurd hsv (by decide)
      simp only [if_true]
      refine Ok.pure ⟨ws, hws.mk0, ?_⟩
      have t3 : 0 ≤ Real.arctan (v / t) := Real.arctan_nonneg.2 (div_nonneg_of_nonpos hv h.le)
      have k1 := hrs.err2
      have k2 : |w - P| ≤ 32 / 10 := by rw [abs_le]; constructor <;> linarith
      have k3 : ulpHalf f * |w - P| ≤ ulpHalf f * (32 / 10) := mul_le_mul_of_nonneg_left k2 u0.le
      have k4 := abs_le.1 k1
      rw [abs_le]; constructor <;> linarith
    case false =>
      have hv : 0 ≤ v := by by_contra hc; rw [hsn (not_le.1 hc)] at hsv; exact absurd hsv (by decide)
      simp only [if_true, Bool.false_eq_true, if_false]
      refine Ok.pure ⟨wa, hwa.mk0, ?_⟩
      have t3 : Real.arctan (v / t) ≤ 0 := Real.arctan_le_zero.2 (div_nonpos_of_nonneg_of_nonpos hv h.le)
      have k1 := hra.err2
      have k2 : |w + P| ≤ 32 / 10 := by rw [abs_le]; constructor <;> linarith
      have k3 : ulpHalf f * |w + P| ≤ ulpHalf f * (32 / 10) := mul_le_mul_of_nonneg_left k2 u0.le
      have k4 := abs_le.1 k1
      rw [abs_le]; constructor <;> linarith
  · rw [hpos h, sideArg_right h]
    simp only [Bool.false_eq_true, if_false]
    refine Ok.pure ⟨w, hw.mk0, ?_⟩
    rw [abs_le]; constructor <;> linarith

end ZkLoc
