import Verif.CellConsts
import Verif.TrigBound
import Verif.Math
import Mathlib.Analysis.SpecialFunctions.Trigonometric.Bounds

/-!
# Helper lemmas: the accuracy of `SinTaylor32` and `SinTaylor64`
-/

namespace ZkLoc

variable {p : ℕ} [Fact p.Prime] {b : ℕ} {f : Fmt} {m : Prover}

/-- The denominators `2i(2i+1)`. -/
def sinDens : List ℕ := [6, 20, 42, 72, 110, 156, 210, 272, 342, 420, 506, 600, 702, 812, 930]

/-- The sum that the loop adds to its accumulator, in exact arithmetic. -/
noncomputable def sinSum (q : ℝ) : List ℕ → Bool → ℝ → ℝ
  | [], _, _ => 0
  | d :: ds, even, T => (if even then -T else T) + sinSum q ds (!even) (T * q / d)

/-- Bounds for the terms (`c`), for their errors (`a`) and for the error of the accumulator (`r`), in half units in the last place. -/
def sinTail : ℚ → List ℕ → ℚ
  | _, [] => 0
  | c, d :: ds => c + sinTail (c * (987 / 100) / d) ds
def nextA (a c : ℚ) (d : ℕ) : ℚ := (988 / 100 * a + 1988 / 100 * c + 1 / 100) / d + c * (987 / 100) / d + 1 / 100
def sinErr : ℚ → ℚ → ℚ → List ℕ → ℚ
  | r, _, _, [] => r
  | r, a, c, d :: ds => sinErr (r + a + 102 / 100 + sinTail (c * (987 / 100) / d) ds) (nextA a c d) (c * (987 / 100) / d) ds
def sinFine : ℚ → ℚ → ℚ → List ℕ → Bool
  | _, _, _, [] => true
  | r, a, c, d :: ds => decide (0 ≤ r ∧ r ≤ 100 ∧ 0 ≤ a ∧ a ≤ 20 ∧ 0 ≤ c ∧ c ≤ 6 ∧ sinTail (c * (987 / 100) / d) ds ≤ 20 ∧ 0 < d) &&
    sinFine (r + a + 102 / 100 + sinTail (c * (987 / 100) / d) ds) (nextA a c d) (c * (987 / 100) / d) ds

theorem sinSum_le {q : ℝ} (h0 : 0 ≤ q) (h1 : q ≤ 987 / 100) : ∀ (ds : List ℕ) (even : Bool) {T : ℝ} {c : ℚ}, |T| ≤ c → |sinSum q ds even T| ≤ (sinTail c ds : ℚ)
  | [], _, _, _, _ => by simp [sinSum, sinTail]
  | d :: ds, even, T, c, h => by
    simp only [sinSum, sinTail]
    push_cast
    have hc : (0:ℝ) ≤ c := (abs_nonneg T).trans h
    have ih := sinSum_le h0 h1 ds (!even) (T := T * q / d) (c := c * (987 / 100) / d) (by
      push_cast
      rw [abs_div, abs_mul, abs_of_nonneg h0, Nat.abs_cast]
      exact div_le_div_of_nonneg_right (mul_le_mul h h1 h0 hc) (Nat.cast_nonneg d))
    refine (abs_add_le _ _).trans (add_le_add ?_ ih)
    split
    · rwa [abs_neg]
    · exact h

theorem sin_term_err {u η t T s q n w A C d : ℝ} (u0 : 0 < u) (hu : u ≤ 1 / 2 ^ 20) (hη : η ≤ u / 1000) (a0 : 0 ≤ A) (a1 : A ≤ 20) (c1 : C ≤ 6) (d1 : 1 ≤ d)
    (hT : |T| ≤ C) (h1 : |t - T| ≤ A * u) (q0 : 0 ≤ q) (q1 : q ≤ 987 / 100) (h2 : |s - q| ≤ 10 * u) (h3 : |t * s - n| ≤ u * |t * s| + η)
    (h4 : |n / d - w| ≤ u * |n / d| + η) : |w - T * q / d| ≤ ((988 / 100 * A + 1988 / 100 * C + 1 / 100) / d + C * (987 / 100) / d + 1 / 100) * u ∧
      |t * s| ≤ 100 ∧ |n / d| ≤ 100 := by
  have c0 : 0 ≤ C := (abs_nonneg T).trans hT
  have e1 : |s| ≤ 9871 / 1000 := by
    have : |s| ≤ |s - q| + |q| := by simpa using abs_add_le (s - q) q
    rw [abs_of_nonneg q0] at this; norm_num at hu; linarith
  have e2 : |t * s - T * q| ≤ (9871 / 1000 * A + 10 * C) * u := by
    rw [show t * s - T * q = (t - T) * s + T * (s - q) by ring]
    refine (abs_add_le _ _).trans ?_
    rw [abs_mul, abs_mul]
    have k1 : |t - T| * |s| ≤ A * u * (9871 / 1000) := mul_le_mul h1 e1 (abs_nonneg _) (by positivity)
    have k2 : |T| * |s - q| ≤ C * (10 * u) := mul_le_mul hT h2 (abs_nonneg _) c0
    linarith
  have eTq : |T * q| ≤ C * (987 / 100) := by rw [abs_mul, abs_of_nonneg q0]; exact mul_le_mul hT q1 q0 c0
  have b1 : (9871 / 1000 * A + 10 * C) * u ≤ 1 / 1000 := by
    calc (9871 / 1000 * A + 10 * C) * u ≤ 260 * (1 / 2 ^ 20) := mul_le_mul (by linarith) hu u0.le (by norm_num)
      _ ≤ 1 / 1000 := by norm_num
  have e3 : |t * s| ≤ C * (987 / 100) + 1 / 1000 := by
    have : |t * s| ≤ |t * s - T * q| + |T * q| := by simpa using abs_add_le (t * s - T * q) (T * q)
    linarith
  have e4 : |n - T * q| ≤ (988 / 100 * A + 1988 / 100 * C + 1 / 100) * u := by
    have k : |n - T * q| ≤ |t * s - n| + |t * s - T * q| := by
      rw [show n - T * q = -(t * s - n) + (t * s - T * q) by ring]
      refine (abs_add_le _ _).trans ?_
      rw [abs_neg]
    have k2 : u * |t * s| ≤ u * (C * (987 / 100) + 1 / 1000) := mul_le_mul_of_nonneg_left e3 u0.le
    have := mul_nonneg a0 u0.le
    have := mul_nonneg c0 u0.le
    nlinarith
  have d0 : 0 < d := by linarith
  have b2 : (988 / 100 * A + 1988 / 100 * C + 1 / 100) * u ≤ 1 / 1000 := by
    calc (988 / 100 * A + 1988 / 100 * C + 1 / 100) * u ≤ 320 * (1 / 2 ^ 20) := mul_le_mul (by linarith) hu u0.le (by norm_num)
      _ ≤ 1 / 1000 := by norm_num
  have e5 : |n / d - T * q / d| ≤ (988 / 100 * A + 1988 / 100 * C + 1 / 100) / d * u := by
    rw [← sub_div, abs_div, abs_of_pos d0, div_mul_eq_mul_div]
    exact div_le_div_of_nonneg_right e4 d0.le
  have e6 : |n / d - T * q / d| ≤ 1 / 1000 := by
    rw [← sub_div, abs_div, abs_of_pos d0]
    exact (div_le_self (abs_nonneg _) d1).trans (e4.trans b2)
  have e7 : |T * q / d| ≤ C * (987 / 100) / d := by
    rw [abs_div, abs_of_pos d0]; exact div_le_div_of_nonneg_right eTq d0.le
  have e8 : |n / d| ≤ C * (987 / 100) / d + 1 / 1000 := by
    have : |n / d| ≤ |n / d - T * q / d| + |T * q / d| := by simpa using abs_add_le (n / d - T * q / d) (T * q / d)
    linarith
  have hcd : C * (987 / 100) / d ≤ 60 := (div_le_self (by positivity) d1).trans (by linarith)
  refine ⟨?_, by linarith, by linarith⟩
  have k : |w - T * q / d| ≤ |n / d - w| + |n / d - T * q / d| := by
    rw [show w - T * q / d = -(n / d - w) + (n / d - T * q / d) by ring]
    refine (abs_add_le _ _).trans ?_
    rw [abs_neg]
  have k2 : u * |n / d| ≤ u * (C * (987 / 100) / d + 1 / 1000) := mul_le_mul_of_nonneg_left e8 u0.le
  generalize (988 / 100 * A + 1988 / 100 * C + 1 / 100) / d = Y at *
  generalize C * (987 / 100) / d = Z at *
  nlinarith

theorem eta_le_u1000 (hf : Fine f) : eta f ≤ ulpHalf f / 1000 := by
  have h1 := hf.tiny
  have h2 := hf.hu
  have u0 := ulpHalf_pos (f := f)
  generalize ulpHalf f = u at *
  nlinarith

/-- One step of the terms. -/
theorem sin_term (G : Good p b f) (hm : m.Fits b f) (hf : Fine f) {term sq dv : FloatVar p} {t T s q : ℝ} {d : ℕ} {a c : ℚ} (ht : Num f term t) (hs : Num f sq s)
    (hd : Num f dv d) (d0 : 0 < d) (a0 : 0 ≤ a) (a1 : a ≤ 20) (c1 : c ≤ 6) (hT : |T| ≤ c) (h1 : |t - T| ≤ a * ulpHalf f)
    (q0 : 0 ≤ q) (q1 : q ≤ 987 / 100) (h2 : |s - q| ≤ 10 * ulpHalf f) :
    Ok m b (Circ.bind (fMul f term sq) (fun n => fDiv f n dv)) (fun r => ∃ w, Num f r w ∧ |w - T * q / d| ≤ (nextA a c d : ℚ) * ulpHalf f) := by
  have hbig := big_ge G
  have hu := hf.hu
  have u0 := ulpHalf_pos (f := f)
  have hη := eta_le_u1000 hf
  have a0' : (0:ℝ) ≤ a := by exact_mod_cast a0
  have a1' : (a:ℝ) ≤ 20 := by exact_mod_cast a1
  have c1' : (c:ℝ) ≤ 6 := by exact_mod_cast c1
  have d1 : (1:ℝ) ≤ d := by exact_mod_cast d0
  have key := fun n w => sin_term_err (n := n) (w := w) (d := d) u0 hu hη a0' a1' c1' d1 hT h1 q0 q1 h2
  have e1 : |t * s| ≤ 100 := by
    have k : |t| ≤ 7 := by
      have : |t| ≤ |t - T| + |T| := by simpa using abs_add_le (t - T) T
      have k1 : (a:ℝ) * ulpHalf f ≤ 20 * (1 / 2 ^ 20) := mul_le_mul a1' hu u0.le (by norm_num)
      norm_num at k1; linarith
    have k2 : |s| ≤ 10 := by
      have : |s| ≤ |s - q| + |q| := by simpa using abs_add_le (s - q) q
      rw [abs_of_nonneg q0] at this; norm_num at hu; linarith
    rw [abs_mul]; nlinarith [abs_nonneg t, abs_nonneg s]
  refine (ok_mul G hm ht hs (by linarith)).bind ?_
  rintro n ⟨nv, hn, hr⟩
  have e2 : |nv| ≤ 128 := by
    have := hr.abs_le_pow G 7 (e1.trans (by norm_num))
    norm_num at this; exact this
  have e3 : |nv / d| ≤ 128 := by
    rw [abs_div, Nat.abs_cast]; exact (div_le_self (abs_nonneg _) d1).trans e2
  refine (ok_div G hm hn hd (by positivity) (by linarith)).mono ?_
  rintro r ⟨w, hw, hr'⟩
  refine ⟨w, hw, ?_⟩
  have := (key nv w hr.err2 hr'.err2).1
  unfold nextA
  push_cast
  exact this

/-- One step of the accumulator. -/
theorem sin_acc (G : Good p b f) (hm : m.Fits b f) (hf : Fine f) {ret term : FloatVar p} {x t R T V : ℝ} {a r B : ℚ} (even : Bool) (hx : Num f ret x) (ht : Num f term t)
    (r0 : 0 ≤ r) (r1 : r ≤ 100) (a0 : 0 ≤ a) (a1 : a ≤ 20) (B1 : B ≤ 20) (h1 : |x - R| ≤ r * ulpHalf f) (h2 : |t - T| ≤ a * ulpHalf f)
    (hR : |R| ≤ 100) (hV : |V| ≤ 101 / 100) (hB : |V - (R + if even then -T else T)| ≤ B) :
    Ok m b (if even then fSub f ret term else fAdd f ret term) (fun z => ∃ w, Num f z w ∧ |w - (R + if even then -T else T)| ≤ ((r + a + 102 / 100 + B : ℚ) : ℝ) * ulpHalf f) := by
  have hbig := big_ge G
  have hu := hf.hu
  have u0 := ulpHalf_pos (f := f)
  have hη := eta_le_u1000 hf
  have a0' : (0:ℝ) ≤ a := by exact_mod_cast a0
  have a1' : (a:ℝ) ≤ 20 := by exact_mod_cast a1
  have r0' : (0:ℝ) ≤ r := by exact_mod_cast r0
  have r1' : (r:ℝ) ≤ 100 := by exact_mod_cast r1
  have B1' : (B:ℝ) ≤ 20 := by exact_mod_cast B1
  have main : ∀ {E w : ℝ}, Rn f E w → |E - (R + if even then -T else T)| ≤ (r + a) * ulpHalf f →
      |w - (R + if even then -T else T)| ≤ ((r + a + 102 / 100 + B : ℚ) : ℝ) * ulpHalf f := by
    intro E w hr hE
    generalize (R + if even then -T else T) = N at *
    have k1 := hr.err2
    have k2 : (r + a) * ulpHalf f ≤ 120 * (1 / 2 ^ 20) := mul_le_mul (by linarith) hu u0.le (by norm_num)
    have k3 : |E| ≤ 102 / 100 - 1 / 1000 + B := by
      have : |E| ≤ |E - N| + |N| := by simpa using abs_add_le (E - N) N
      have k4 : |N| ≤ |V - N| + |V| := by
        rw [show N = -(V - N) + V by ring]
        refine (abs_add_le _ _).trans ?_
        rw [abs_neg]; simp
      norm_num at k2; linarith
    have k5 : ulpHalf f * |E| ≤ ulpHalf f * (102 / 100 - 1 / 1000 + B) := mul_le_mul_of_nonneg_left k3 u0.le
    have k6 : |w - N| ≤ |E - w| + |E - N| := by
      rw [show w - N = -(E - w) + (E - N) by ring]
      refine (abs_add_le _ _).trans ?_
      rw [abs_neg]
    push_cast
    nlinarith
  have hx1 : |x| ≤ 101 := by
    have : |x| ≤ |x - R| + |R| := by simpa using abs_add_le (x - R) R
    have k1 : (r:ℝ) * ulpHalf f ≤ 100 * (1 / 2 ^ 20) := mul_le_mul r1' hu u0.le (by norm_num)
    norm_num at k1; linarith
  have hN : |R + if even then -T else T| ≤ 22 := by
    generalize (R + if even then -T else T) = N at *
    have k4 : |N| ≤ |V - N| + |V| := by
      rw [show N = -(V - N) + V by ring]
      refine (abs_add_le _ _).trans ?_
      rw [abs_neg]; simp
    linarith
  have sm : (r + a) * ulpHalf f ≤ 1 := by
    have : (r + a) * ulpHalf f ≤ 120 * (1 / 2 ^ 20) := mul_le_mul (by linarith) hu u0.le (by norm_num)
    norm_num at this; linarith
  have tri : ∀ {E N : ℝ}, |E - N| ≤ (r + a) * ulpHalf f → |N| ≤ 22 → |E| ≤ big f := by
    intro E N h h'
    have : |E| ≤ |E - N| + |N| := by simpa using abs_add_le (E - N) N
    linarith
  cases even with
  | true =>
    simp only [if_true] at *
    have hE : |x - t - (R + -T)| ≤ (r + a) * ulpHalf f := by
      rw [show x - t - (R + -T) = (x - R) - (t - T) by ring]
      refine (abs_sub _ _).trans ?_
      linarith
    refine (ok_sub G hm hx ht (by linarith) (tri hE hN)).mono ?_
    rintro z ⟨w, hw, hr⟩
    exact ⟨w, hw, main hr hE⟩
  | false =>
    simp only [Bool.false_eq_true, if_false] at *
    have hE : |x + t - (R + T)| ≤ (r + a) * ulpHalf f := by
      rw [show x + t - (R + T) = (x - R) + (t - T) by ring]
      refine (abs_add_le _ _).trans ?_
      linarith
    refine (ok_add G hm hx ht (by linarith) (tri hE hN)).mono ?_
    rintro z ⟨w, hw, hr⟩
    exact ⟨w, hw, main hr hE⟩

/-- The loop: `V` is the exact value of the whole sum. -/
theorem sinLoop_ok (G : Good p b f) (hm : m.Fits b f) (hf : Fine f) {sq : FloatVar p} {s q V : ℝ} (hs : Num f sq s) (q0 : 0 ≤ q) (q1 : q ≤ 987 / 100)
    (h2 : |s - q| ≤ 10 * ulpHalf f) (hV : |V| ≤ 101 / 100) : ∀ {ds Ds : List ℕ}, List.Forall₂ (fun v (d : ℕ) => Num f (newConstant f v : FloatVar p) d) ds Ds →
    ∀ (even : Bool) {ret term : FloatVar p} {x t R T : ℝ} {a r c : ℚ}, Num f ret x → Num f term t → sinFine r a c Ds = true → |x - R| ≤ r * ulpHalf f →
    |t - T| ≤ a * ulpHalf f → |T| ≤ c → |R| ≤ 100 → V = R + sinSum q Ds even T →
    Ok m b (sinLoop f sq ds even ret term) (fun z => ∃ w, Num f z w ∧ |w - V| ≤ (sinErr r a c Ds : ℚ) * ulpHalf f) := by
  intro ds Ds hD
  induction hD with
  | nil =>
    intro even ret term x t R T a r c hx ht _ h1 _ _ _ hv
    refine Ok.pure ⟨x, hx, ?_⟩
    simpa [hv, sinSum, sinErr] using h1
  | @cons v d ds Ds hd _ ih =>
    intro even ret term x t R T a r c hx ht hfine h1 h3 hT hR hv
    simp only [sinFine, Bool.and_eq_true, decide_eq_true_eq] at hfine
    obtain ⟨⟨r0, r1, a0, a1, c0, c1, B1, d0⟩, hfine⟩ := hfine
    simp only [sinSum] at hv
    have hTq : |T * q / d| ≤ ((c * (987 / 100) / d : ℚ) : ℝ) := by
      push_cast
      rw [abs_div, abs_mul, abs_of_nonneg q0, Nat.abs_cast]
      exact div_le_div_of_nonneg_right (mul_le_mul hT q1 q0 ((abs_nonneg T).trans hT)) (Nat.cast_nonneg d)
    have hB := sinSum_le q0 q1 Ds (!even) hTq
    have hB' : |V - (R + if even then -T else T)| ≤ (sinTail (c * (987 / 100) / d) Ds : ℚ) := by
      rwa [show V - (R + if even then -T else T) = sinSum q Ds (!even) (T * q / d) by rw [hv]; ring]
    have hloop : sinLoop f sq (v :: ds) even ret term = Circ.bind (if even then fSub f ret term else fAdd f ret term) (fun ret' =>
        Circ.bind (fMul f term sq) (fun n => Circ.bind (fDiv f n (newConstant f v)) (fun term' => sinLoop f sq ds (!even) ret' term'))) := by
      cases even <;> rfl
    rw [hloop]
    refine (sin_acc G hm hf even hx ht r0 r1 a0 a1 B1 h1 h3 hR hV hB').bind ?_
    rintro ret' ⟨x', hx', h1'⟩
    rw [← Circ.bind_assoc]
    refine (sin_term G hm hf ht hs hd d0 a0 a1 c1 hT h3 q0 q1 h2).bind ?_
    rintro term' ⟨t', ht', h3'⟩
    refine ih (!even) hx' ht' hfine h1' h3' hTq ?_ (by rw [hv]; ring)
    have B1' : ((sinTail (c * (987 / 100) / d) Ds : ℚ) : ℝ) ≤ 20 := by exact_mod_cast B1
    generalize (R + if even then -T else T) = N at *
    have k4 : |N| ≤ |V - N| + |V| := by
      rw [show N = -(V - N) + V by ring]
      refine (abs_add_le _ _).trans ?_
      rw [abs_neg]; simp
    linarith

theorem sinErr_value : sinFine 0 0 (31416 / 10000) sinDens = true ∧ sinErr 0 0 (31416 / 10000) sinDens ≤ 655 / 10 := by
  constructor <;> decide +kernel

theorem sinSum_eq (y : ℝ) : sinSum (y ^ 2) sinDens false y = ∑ k ∈ Finset.range 31, imPow k * y ^ k / k.factorial := by
  simp only [sinSum, sinDens, Finset.sum_range_succ, Finset.sum_range_zero, imPow, Nat.factorial]
  norm_num
  ring

/-- What is used of the constants of `SinTaylor32` and `SinTaylor64`. -/
structure SinConsts (p : ℕ) [Fact p.Prime] (f : Fmt) (k : TrigConsts) (ds : List ℕ) : Prop where
  fine : Fine f
  low : 1 / 2 ^ 58 ≤ ulpHalf f
  zero : Num f (newConstant f 0 : FloatVar p) 0
  half : ∃ h, Num f (newConstant f k.halfPi : FloatVar p) h ∧ Num f (newConstant f k.pi : FloatVar p) (2 * h) ∧ |h - Real.pi / 2| ≤ ulpHalf f
  dens : List.Forall₂ (fun v (d : ℕ) => Num f (newConstant f v : FloatVar p) d) ds sinDens

variable {k : TrigConsts} {ds : List ℕ}

/-- The series for a non-negative argument. -/
theorem sinMag_ok (G : Good p b f) (hm : m.Fits b f) (K : SinConsts p f k ds) {e n : ZMod p} {y : ℝ} (hy : Num f (⟨0, e, n, 0⟩ : FloatVar p) y) (y0 : 0 ≤ y)
    (y1 : y ≤ 31416 / 10000) : Ok m b (sinMag f ds e n) (fun z => ∃ w, Num f z w ∧ |w - Real.sin y| ≤ 66 * ulpHalf f) := by
  have hbig := big_ge G
  have hu := K.fine.hu
  have u0 := ulpHalf_pos (f := f)
  have hη := eta_le_u1000 K.fine
  have q1 : y ^ 2 ≤ 987 / 100 := by nlinarith
  have tb := (taylor_bound y (n := 31) (by rw [abs_of_nonneg y0, div_le_iff₀ (by norm_num)]; norm_num; linarith)).1
  rw [← sinSum_eq] at tb
  have tb2 : |y| ^ 31 / (Nat.factorial 31 : ℝ) * 2 ≤ 1 / 2 ^ 60 := by
    rw [abs_of_nonneg y0]
    have : y ^ 31 ≤ (31416 / 10000) ^ 31 := pow_le_pow_left₀ y0 y1 31
    have h2 : ((Nat.factorial 31 : ℕ) : ℝ) = 8222838654177922817725562880000000 := by norm_num [Nat.factorial]
    rw [h2]
    calc y ^ 31 / 8222838654177922817725562880000000 * 2 ≤ (31416 / 10000) ^ 31 / 8222838654177922817725562880000000 * 2 := by gcongr
      _ ≤ 1 / 2 ^ 60 := by norm_num
  unfold sinMag
  simp only [Circ.bind_eq]
  have hsq : |y * y| ≤ 10 := by rw [abs_of_nonneg (mul_nonneg y0 y0)]; nlinarith
  refine (ok_mul G hm hy hy (by linarith)).bind ?_
  rintro sq ⟨s, hs, hr⟩
  have h2 : |s - y ^ 2| ≤ 10 * ulpHalf f := by
    have k1 := hr.err2
    rw [abs_of_nonneg (mul_nonneg y0 y0), abs_sub_comm] at k1
    rw [pow_two] at q1 ⊢
    have : ulpHalf f * (y * y) ≤ ulpHalf f * (987 / 100) := mul_le_mul_of_nonneg_left q1 u0.le
    linarith
  have hV : |sinSum (y ^ 2) sinDens false y| ≤ 101 / 100 := by
    have h1 := Real.abs_sin_le_one y
    have : |sinSum (y ^ 2) sinDens false y| ≤ |Real.sin y - sinSum (y ^ 2) sinDens false y| + |Real.sin y| := by
      rw [abs_sub_comm]
      simpa using abs_add_le (sinSum (y ^ 2) sinDens false y - Real.sin y) (Real.sin y)
    have h60 : (1:ℝ) / 2 ^ 60 ≤ 1 / 100 := by norm_num
    linarith
  refine (sinLoop_ok G hm K.fine hs (sq_nonneg y) q1 h2 hV K.dens false (R := 0) (T := y) (a := 0) (r := 0) (c := 31416 / 10000) K.zero hy sinErr_value.1
    (by simp) (by simp) (by rw [abs_of_nonneg y0]; push_cast; exact y1) (by simp) (by simp)).mono ?_
  rintro z ⟨w, hw, he⟩
  refine ⟨w, hw, ?_⟩
  have hE : ((sinErr 0 0 (31416 / 10000) sinDens : ℚ) : ℝ) ≤ 655 / 10 := by
    have h := (Rat.cast_le (K := ℝ)).2 sinErr_value.2
    push_cast at h
    exact h
  have k2 := mul_le_mul_of_nonneg_right hE u0.le
  have k3 : |w - Real.sin y| ≤ |w - sinSum (y ^ 2) sinDens false y| + |Real.sin y - sinSum (y ^ 2) sinDens false y| := by
    rw [abs_sub_comm (Real.sin y)]
    exact abs_sub_le _ _ _
  have hl := K.low
  norm_num at hl tb2
  linarith

/-- Overwriting the sign. -/
theorem num_setSign {x : FloatVar p} {v : ℝ} (h : Num f x v) (s : Bool) : Num f { x with sign := B s } (if s then -|v| else |v|) := by
  cases s with
  | false => simpa [fAbs, B] using h.abs
  | true => simpa [fAbs, fNeg, B] using h.abs.neg

theorem Num.normal {x : FloatVar p} {v : ℝ} (h : Num f x v) : x.isAbnormal = 0 := by
  obtain ⟨s, a, h1, _⟩ := h
  obtain ⟨x, hx, hd, rfl⟩ := encodes_iff.1 h1
  obtain ⟨ha, _, _⟩ := datum_fin_iff.1 hd
  change B x.abn = 0
  rw [ha]; rfl

theorem num_magnitude {x : FloatVar p} {v : ℝ} (h : Num f x v) : Num f (⟨0, x.exponent, x.mantissa, 0⟩ : FloatVar p) |v| := by
  have h' := h.abs
  have ha := h.normal
  rw [show (⟨0, x.exponent, x.mantissa, 0⟩ : FloatVar p) = fAbs x by unfold fAbs; rw [ha]]
  exact h'

theorem abs_sin_err {w s ε δ : ℝ} (h : |w - s| ≤ ε) (hs : -δ ≤ s) (δ0 : 0 ≤ δ) : |(|w|) - s| ≤ ε + 2 * δ := by
  have h1 := abs_abs_sub_abs_le w s
  have h2 : |(|s|) - s| ≤ 2 * δ := by
    rcases le_total 0 s with h0 | h0
    · rw [abs_of_nonneg h0]; simpa using δ0
    · rw [abs_of_nonpos h0, abs_of_nonneg (by linarith)]; linarith
  have := abs_sub_le (|w|) (|s|) s
  linarith

/-- `SinTaylor` on `[-π, π]` (as far as the constant of the format reaches). -/
theorem sinTaylor_ok (G : Good p b f) (hm : m.Fits b f) (K : SinConsts p f k ds) {x : FloatVar p} {v P : ℝ} (hx : Num f x v)
    (hP : Num f (newConstant f k.pi : FloatVar p) P) (hv : |v| ≤ P) :
    Ok m b (sinTaylor f k ds x) (fun z => ∃ w, Num f z w ∧ |w - Real.sin v| ≤ 72 * ulpHalf f) := by
  have hbig := big_ge G
  have hu := K.fine.hu
  have u0 := ulpHalf_pos (f := f)
  have hη := eta_le_u1000 K.fine
  obtain ⟨h, hh, hP', hpi⟩ := K.half
  obtain rfl : P = 2 * h := hP.unique G hP'
  have pi1 := Real.pi_gt_d6
  have pi2 := Real.pi_lt_d6
  rw [abs_le] at hpi hv
  norm_num at pi1 pi2
  norm_num at hu
  unfold sinTaylor
  simp only [Circ.bind_eq, Circ.pure_eq]
  refine (ok_gt G hx hh).bind ?_
  rintro _ rfl
  refine (ok_sub G hm hP hx ?_ ?_).bind ?_
  · rw [abs_of_pos (by linarith)]; linarith
  · rw [abs_le]; constructor <;> linarith
  rintro fold ⟨w, hw, hr⟩
  refine (Ok.select _ _ _).bind ?_
  rintro _ rfl
  refine (Ok.select _ _ _).bind ?_
  rintro _ rfl
  obtain ⟨sg, hsg, hneg, hpos⟩ := hx.sign
  by_cases hc : h < v
  · simp only [hc, decide_true, if_true]
    have k0 : |2 * h - v| = 2 * h - v := abs_of_nonneg (by linarith)
    have k1 := hr.err2
    rw [k0, abs_sub_comm] at k1
    have k2 : ulpHalf f * (2 * h - v) ≤ ulpHalf f * (158 / 100) := mul_le_mul_of_nonneg_left (by linarith) u0.le
    have k3 : |w - (Real.pi - v)| ≤ 4 * ulpHalf f := by
      have : |w - (Real.pi - v)| ≤ |w - (2 * h - v)| + |(2 * h - v) - (Real.pi - v)| := abs_sub_le _ _ _
      have k4 : |(2 * h - v) - (Real.pi - v)| ≤ 2 * ulpHalf f := by rw [abs_le]; constructor <;> linarith
      linarith
    have w0 : 0 ≤ w := hr.nonneg (by linarith)
    have k5 := abs_le.1 k3
    refine (sinMag_ok G hm K (num_magnitude hw) (abs_nonneg _) ?_).bind ?_
    · rw [abs_of_nonneg w0]; linarith
    rintro ret ⟨z, hz, hze⟩
    rw [abs_of_nonneg w0] at hze
    rw [hsg]
    refine Ok.pure ⟨_, num_setSign hz sg, ?_⟩
    rw [hpos (by linarith)]
    simp only [Bool.false_eq_true, if_false]
    have hs0 : 0 ≤ Real.sin w := Real.sin_nonneg_of_nonneg_of_le_pi w0 (by linarith)
    have := abs_sin_err hze (δ := 0) (by simpa using hs0) le_rfl
    have l1 : |Real.sin w - Real.sin (Real.pi - v)| ≤ |w - (Real.pi - v)| := Real.abs_sin_sub_sin_le _ _
    rw [Real.sin_pi_sub] at l1
    have := abs_sub_le (|z|) (Real.sin w) (Real.sin v)
    linarith
  · simp only [hc, decide_false, Bool.false_eq_true, if_false]
    refine (sinMag_ok G hm K (num_magnitude hx) (abs_nonneg _) ?_).bind ?_
    · rw [abs_le]; constructor <;> linarith
    rintro ret ⟨z, hz, hze⟩
    rw [hsg]
    refine Ok.pure ⟨_, num_setSign hz sg, ?_⟩
    have hs0 : -(2 * ulpHalf f) ≤ Real.sin |v| := by
      by_cases hl : |v| ≤ Real.pi
      · have := Real.sin_nonneg_of_nonneg_of_le_pi (abs_nonneg v) hl; linarith
      · have e : Real.sin |v| = - Real.sin (|v| - Real.pi) := by rw [Real.sin_sub_pi]; ring
        have h1 : |v| ≤ 2 * h := abs_le.2 ⟨by linarith, by linarith⟩
        have h2 := Real.sin_le (x := |v| - Real.pi) (by linarith)
        linarith
    have he := abs_sin_err hze hs0 (by linarith)
    rcases lt_trichotomy v 0 with h0 | h0 | h0
    · rw [hneg h0]
      rw [abs_of_neg h0, Real.sin_neg] at he
      simp only [if_true]
      rw [show -|z| - Real.sin v = -(|z| - -Real.sin v) by ring, abs_neg]
      linarith
    · subst h0
      rw [abs_zero, Real.sin_zero] at hze
      rw [Real.sin_zero] 
      rw [sub_zero] at hze ⊢
      cases sg <;> simp <;> linarith
    · rw [hpos h0]
      rw [abs_of_pos h0] at he
      simp only [Bool.false_eq_true, if_false]
      linarith

theorem forall₂_of_all {α β : Type} {R : α → β → Prop} : ∀ {l : List α} {l' : List β}, l.length = l'.length → (∀ q ∈ l.zip l', R q.1 q.2) → List.Forall₂ R l l'
  | [], [], _, _ => .nil
  | a :: l, c :: l', h, hq => .cons (hq (a, c) (by simp)) (forall₂_of_all (by simpa using h) (fun q hq' => hq q (by simp [hq'])))

theorem num_zero (hE : 2 ≤ f.E) (h64 : 1 + f.E + f.M ≤ 64) : Num f (newConstant f 0 : FloatVar p) 0 := by
  have h0 : (0:ℕ) ≠ 2 ^ f.E - 1 := by
    have : 2 ^ 2 ≤ 2 ^ f.E := Nat.pow_le_pow_right (by norm_num) hE
    omega
  have h := num_const (p := p) (f := f) (v := 0) hE h64 (by positivity) (by simpa using h0)
  have e : Ieee.patternVal ⟨f.E, f.M⟩ 0 = 0 := by
    simp only [Ieee.patternVal, Ieee.decodeBits]
    simp [h0, Ieee.signed]
  rwa [e] at h

theorem sinDens32 : ∀ q ∈ sinDenoms32.zip sinDens, q.1 < 2 ^ 32 ∧ exactBits 8 23 false q.2 1 q.1 = true := by decide +kernel
theorem sinDens64 : ∀ q ∈ sinDenoms64.zip sinDens, q.1 < 2 ^ 64 ∧ exactBits 11 52 false q.2 1 q.1 = true := by decide +kernel

theorem sinConsts32 : SinConsts p f32 consts32 sinDenoms32 where
  fine := fine32
  low := by rw [ulpHalf32]; norm_num
  zero := num_zero (by decide) (by decide)
  half := by
    refine ⟨13176795 / 2 ^ 23, num_exact (E := 8) (M := 23) (neg := false) (num := 13176795) (den := 2 ^ 23) (by norm_num) (by norm_num) (by decide)
      (by decide +kernel) (by norm_num [Ieee.signed]), num_exact (E := 8) (M := 23) (neg := false) (num := 13176795) (den := 2 ^ 22) (by norm_num)
      (by norm_num) (by decide) (by decide +kernel) (by norm_num [Ieee.signed]), ?_⟩
    have h1 := Real.pi_gt_d20
    have h2 := Real.pi_lt_d20
    rw [ulpHalf32, abs_le]
    constructor <;> norm_num at * <;> linarith
  dens := forall₂_of_all rfl (fun q hq => num_exact (E := 8) (M := 23) (by norm_num) (by norm_num) (sinDens32 q hq).1 (sinDens32 q hq).2 (by simp [Ieee.signed]))

theorem sinConsts64 : SinConsts p f64 consts64 sinDenoms64 where
  fine := fine64
  low := by rw [ulpHalf64]; norm_num
  zero := num_zero (by decide) (by decide)
  half := by
    refine ⟨7074237752028440 / 2 ^ 52, num_exact (E := 11) (M := 52) (neg := false) (num := 7074237752028440) (den := 2 ^ 52) (by norm_num) (by norm_num)
      (by decide) (by decide +kernel) (by norm_num [Ieee.signed]), num_exact (E := 11) (M := 52) (neg := false) (num := 7074237752028440) (den := 2 ^ 51)
      (by norm_num) (by norm_num) (by decide) (by decide +kernel) (by norm_num [Ieee.signed]), ?_⟩
    have h1 := Real.pi_gt_d20
    have h2 := Real.pi_lt_d20
    rw [ulpHalf64, abs_le]
    constructor <;> norm_num at * <;> linarith
  dens := forall₂_of_all rfl (fun q hq => num_exact (E := 11) (M := 52) (by norm_num) (by norm_num) (sinDens64 q hq).1 (sinDens64 q hq).2 (by simp [Ieee.signed]))

end ZkLoc
