import Verif.PolyGen
import Verif.TableGenSpec
import Verif.PolySpec

/-!
# Helper lemmas: errors of the generator of polynomial tables
-/

namespace ZkLoc.TableGen
open Ieee

theorem tiny (n : ℕ) (h : 250 ≤ n) : (2:ℝ) ^ (-(n:ℤ)) ≤ 1 / 2 ^ 250 := by
  rw [zpow_neg, one_div, zpow_natCast]
  exact inv_anti₀ (by positivity) (pow_le_pow_right₀ (by norm_num) h)

theorem double_err {e w : ℝ} (h : Rounds double e w) : |e - w| ≤ 1 / 2 ^ 53 * |e| + 1 / 2 ^ 250 := by
  have h1 := h.err
  have m1 : (2:ℝ) ^ (-(double.M : ℤ) - 1) = 1 / 2 ^ 53 := by norm_num [double, Convert.double]
  have m2 : (2:ℝ) ^ (double.qmin - 1) ≤ 1 / 2 ^ 250 := by
    rw [show double.qmin - 1 = -((1075:ℕ):ℤ) by decide]
    exact tiny _ (by norm_num)
  rw [m1] at h1
  linarith

theorem single_err {e w : ℝ} (h : Rounds single e w) : |e - w| ≤ 1 / 2 ^ 24 * |e| + 1 / 2 ^ 150 := by
  have h1 := h.err
  have m1 : (2:ℝ) ^ (-(single.M : ℤ) - 1) = 1 / 2 ^ 24 := by norm_num [single]
  have m2 : (2:ℝ) ^ (single.qmin - 1) = 1 / 2 ^ 150 := by
    rw [show single.qmin - 1 = -(150:ℤ) by decide]
    norm_num
  rw [m1, m2] at h1
  exact h1

theorem uniform_range {k : ℕ} {x : ℝ} (h : Uniform (-100) 100 k x) : |x| ≤ 100 := by
  obtain ⟨hk, d, p, h1, h2, h3⟩ := h
  have f100 : Rounds double (100:ℝ) 100 := Rounds.self (by
    rw [abs_of_pos (by norm_num)]
    exact ⟨100, 0, by norm_num [double, Convert.double], by decide, by norm_num⟩)
  have f200 : Rounds double (200:ℝ) 200 := Rounds.self (by
    rw [abs_of_pos (by norm_num)]
    exact ⟨200, 0, by norm_num [double, Convert.double], by decide, by norm_num⟩)
  have hd : d = 200 := h1.unique (by rw [show (100:ℝ) - -100 = 200 by norm_num]; exact f200)
  subst hd
  have hk' : (k:ℝ) / 2 ^ 53 ≤ 1 := by
    rw [div_le_one (by positivity)]
    exact_mod_cast hk.le
  have hk0 : (0:ℝ) ≤ k / 2 ^ 53 := by positivity
  have p0 : 0 ≤ p := h2.pos (by positivity)
  have p1 : p ≤ 200 := h2.mono f200 (by linarith)
  have x1 : x ≤ 100 := h3.mono f100 (by linarith)
  have x0 : -100 ≤ x := f100.neg'.mono h3 (by linarith)
  exact abs_le.2 ⟨x0, x1⟩

theorem term_err {pw : ℝ → ℕ → ℝ → Prop} (hpw : PowAccurate pw) {x v : ℝ} {c n : ℕ} (hc : c ≤ 9) (hc1 : n = 1 → c = 1) (h : Term pw x c n v) :
    |v - c * x ^ n| ≤ 3.01 / 2 ^ 53 * (c * |x| ^ n) + 1 / 2 ^ 240 := by
  have hcn : (c:ℝ) ≤ 9 := by exact_mod_cast hc
  have hc0 : (0:ℝ) ≤ c := by positivity
  match n, h, hc1 with
  | 0, h, _ => rw [Term] at h; subst h; simp; positivity
  | 1, h, hc1 => rw [Term] at h; subst h; rw [hc1 rfl]; simp; positivity
  | n + 2, h, _ =>
    obtain ⟨q, h1, h2⟩ := h
    have e1 := hpw _ _ _ h1
    rw [abs_pow] at e1
    have t := tiny 1074 (by norm_num)
    norm_num only at t
    have e52 : (2:ℝ) ^ (-52 : ℤ) = 2 / 2 ^ 53 := by norm_num
    rw [e52] at e1
    have X0 : 0 ≤ |x| ^ (n + 2) := by positivity
    generalize hX : |x| ^ (n + 2) = X at *
    have hXx : |x ^ (n + 2)| = X := by rw [abs_pow, hX]
    generalize x ^ (n + 2) = y at *
    have e1' : |q - y| ≤ 2 / 2 ^ 53 * X + 1 / 2 ^ 250 := e1.trans (by linarith)
    clear e1 t
    split_ifs at h2 with h3
    · subst h2 h3
      rw [Nat.cast_one, one_mul, one_mul]
      refine e1'.trans ?_
      norm_num at X0 ⊢
      linarith
    · have e2 := double_err h2
      rw [abs_mul, abs_of_nonneg hc0] at e2
      have hq : |q| ≤ X + (2 / 2 ^ 53 * X + 1 / 2 ^ 250) := by
        have := abs_sub_abs_le_abs_sub q y
        linarith
      have a1 : |c * q - c * y| ≤ c * (2 / 2 ^ 53 * X + 1 / 2 ^ 250) := by
        rw [← mul_sub, abs_mul, abs_of_nonneg hc0]
        exact mul_le_mul_of_nonneg_left e1' hc0
      have a2 : (c:ℝ) * |q| ≤ c * (X + (2 / 2 ^ 53 * X + 1 / 2 ^ 250)) := mul_le_mul_of_nonneg_left hq hc0
      have a3 : |v - c * y| ≤ |c * q - v| + |c * q - c * y| := by
        rw [show v - c * y = -(c * q - v) + (c * q - c * y) by ring]
        refine (abs_add_le _ _).trans ?_
        rw [abs_neg]
      have hcX : 0 ≤ c * X := by positivity
      generalize hcXd : (c:ℝ) * X = Z at *
      have a1' : |c * q - c * y| ≤ 2 / 2 ^ 53 * Z + 9 / 2 ^ 250 := by
        rw [← hcXd]
        refine a1.trans ?_
        have : (c:ℝ) * (1 / 2 ^ 250) ≤ 9 * (1 / 2 ^ 250) := mul_le_mul_of_nonneg_right hcn (by positivity)
        linarith
      have a2' : (c:ℝ) * |q| ≤ Z + (2 / 2 ^ 53 * Z + 9 / 2 ^ 250) := by
        rw [← hcXd]
        refine a2.trans ?_
        have : (c:ℝ) * (1 / 2 ^ 250) ≤ 9 * (1 / 2 ^ 250) := mul_le_mul_of_nonneg_right hcn (by positivity)
        linarith
      norm_num at a1' a2' e2 ⊢
      linarith

/-- The exact sum of terms, and the sum of their sizes. -/
noncomputable def termsValue (x : ℝ) : List (ℕ × ℕ) → ℝ
  | [] => 0
  | t :: ts => t.1 * x ^ t.2 + termsValue x ts

theorem addTerms_err {pw : ℝ → ℕ → ℝ → Prop} (hpw : PowAccurate pw) {x A : ℝ} (hA : 1 ≤ A) : ∀ {ts : List (ℕ × ℕ)}, (∀ t ∈ ts, t.1 ≤ 9 ∧ (t.2 = 1 → t.1 = 1)) → ∀ {s r S B k : ℝ}, 0 ≤ k →
    AddTerms pw x ts s r → k + ts.length ≤ 11.5 → |S| ≤ B → B + termsValue |x| ts ≤ A → |s - S| ≤ 3.01 / 2 ^ 53 * B + 1.02 * k / 2 ^ 53 * A →
    |r - (S + termsValue x ts)| ≤ 3.01 / 2 ^ 53 * A + 1.02 * (k + ts.length) / 2 ^ 53 * A
  | [], _, s, r, S, B, k, _, h, _, _, hB, he => by
    rw [AddTerms] at h; subst h
    simp only [termsValue, add_zero, List.length_nil, Nat.cast_zero] at hB ⊢
    have : 3.01 / 2 ^ 53 * B ≤ 3.01 / 2 ^ 53 * A := mul_le_mul_of_nonneg_left hB (by positivity)
    linarith
  | t :: ts, ht, s, r, S, B, k, hk0, h, hk, hS, hB, he => by
    obtain ⟨v, s', h1, h2, h3⟩ := h
    have e1 := term_err hpw (ht t (by simp)).1 (ht t (by simp)).2 h1
    have e2 := double_err h2
    have hT : |(t.1:ℝ) * x ^ t.2| = t.1 * |x| ^ t.2 := by rw [abs_mul, abs_pow, abs_of_nonneg (by positivity : (0:ℝ) ≤ t.1)]
    have T0 : 0 ≤ (t.1:ℝ) * |x| ^ t.2 := by positivity
    have tv0 : ∀ ts : List (ℕ × ℕ), 0 ≤ termsValue |x| ts := by
      intro ts
      induction ts with
      | nil => exact le_rfl
      | cons t ts ih => rw [termsValue]; positivity
    have tv := tv0 ts
    have B0 : 0 ≤ B := (abs_nonneg _).trans hS
    rw [termsValue] at hB ⊢
    rw [List.length_cons] at hk ⊢
    generalize (t.1:ℝ) * |x| ^ t.2 = T at *
    generalize (t.1:ℝ) * x ^ t.2 = y at *
    have hlen : (0:ℝ) ≤ ts.length := by positivity
    push_cast at hk
    have hkr : k ≤ 10.5 := by linarith
    have hS' : |S + y| ≤ B + T := (abs_add_le _ _).trans (by linarith)
    have hkA : 1.02 * k / 2 ^ 53 * A ≤ 10.8 / 2 ^ 53 * A := by
      refine mul_le_mul_of_nonneg_right (div_le_div_of_nonneg_right (by linarith) (by positivity)) (by linarith)
    have d1 : |s + v - (S + y)| ≤ 3.01 / 2 ^ 53 * (B + T) + 1.02 * k / 2 ^ 53 * A + 1 / 2 ^ 240 := by
      rw [show s + v - (S + y) = (s - S) + (v - y) by ring]
      refine (abs_add_le _ _).trans ?_
      linarith
    have d2 : |s + v| ≤ A + (3.01 / 2 ^ 53 * A + 10.8 / 2 ^ 53 * A + 1 / 2 ^ 240) := by
      have a := abs_sub_abs_le_abs_sub (s + v) (S + y)
      have b : 3.01 / 2 ^ 53 * (B + T) ≤ 3.01 / 2 ^ 53 * A := mul_le_mul_of_nonneg_left (by linarith) (by positivity)
      linarith
    have d3 : |s' - (S + y)| ≤ 3.01 / 2 ^ 53 * (B + T) + 1.02 * (k + 1) / 2 ^ 53 * A := by
      have a : |s' - (S + y)| ≤ |s + v - s'| + |s + v - (S + y)| := by
        rw [show s' - (S + y) = -(s + v - s') + (s + v - (S + y)) by ring]
        refine (abs_add_le _ _).trans ?_
        rw [abs_neg]
      have c : 1.02 * (k + 1) / 2 ^ 53 * A = 1.02 * k / 2 ^ 53 * A + 1.02 / 2 ^ 53 * A := by ring
      rw [c]
      generalize 1.02 * k / 2 ^ 53 * A = K at *
      generalize 3.01 / 2 ^ 53 * (B + T) = K' at *
      norm_num at *
      linarith
    have := addTerms_err hpw hA (fun t h => ht t (by simp [h])) (k := k + 1) (by linarith) h3 (by linarith) hS' (by linarith) d3
    rw [← add_assoc]
    refine this.trans (le_of_eq ?_)
    push_cast; ring

/-- The functions of the script: a first term and further terms added to it. -/
def Script (pw : ℝ → ℕ → ℝ → Prop) (t : ℕ × ℕ) (ts : List (ℕ × ℕ)) (x r : ℝ) : Prop := ∃ v, Term pw x t.1 t.2 v ∧ AddTerms pw x ts v r

theorem termsValue_nonneg (x : ℝ) : ∀ ts : List (ℕ × ℕ), 0 ≤ termsValue |x| ts
  | [] => le_rfl
  | t :: ts => by have := termsValue_nonneg x ts; rw [termsValue]; positivity

theorem termsValue_abs (x : ℝ) : ∀ ts : List (ℕ × ℕ), |termsValue x ts| ≤ termsValue |x| ts
  | [] => by simp [termsValue]
  | t :: ts => by
    have := termsValue_abs x ts
    rw [termsValue, termsValue]
    refine (abs_add_le _ _).trans ?_
    rw [abs_mul, abs_pow, abs_of_nonneg (by positivity : (0:ℝ) ≤ t.1)]
    linarith

theorem script_err {pw : ℝ → ℕ → ℝ → Prop} (hpw : PowAccurate pw) {t : ℕ × ℕ} {ts : List (ℕ × ℕ)} (hl : ts.length ≤ 11) (ht : ∀ s ∈ t :: ts, s.1 ≤ 9 ∧ (s.2 = 1 → s.1 = 1)) {x r : ℝ}
    (hA : 1 ≤ termsValue |x| (t :: ts)) (h : Script pw t ts x r) :
    |r - termsValue x (t :: ts)| ≤ (3.03 + 1.02 * ts.length) / 2 ^ 53 * termsValue |x| (t :: ts) := by
  obtain ⟨v, h1, h2⟩ := h
  have e1 := term_err hpw (ht t (by simp)).1 (ht t (by simp)).2 h1
  have hlr : (ts.length : ℝ) ≤ 11 := by exact_mod_cast hl
  have := addTerms_err hpw hA (fun s h => ht s (by simp [h])) (k := 0.01) (by norm_num) h2 (by norm_num; linarith) (S := t.1 * x ^ t.2) (B := t.1 * |x| ^ t.2)
    (by rw [abs_mul, abs_pow, abs_of_nonneg (by positivity : (0:ℝ) ≤ t.1)]) (by rw [termsValue]) (e1.trans (by
      generalize termsValue |x| (t :: ts) = A at *
      norm_num
      linarith))
  rw [← termsValue] at this
  refine this.trans ?_
  rw [← add_mul]
  refine mul_le_mul_of_nonneg_right ?_ (by linarith)
  rw [← add_div]
  refine div_le_div_of_nonneg_right ?_ (by positivity)
  norm_num
  linarith

theorem termsValue_lip {x a M D : ℝ} {d : ℕ} (hd : d ≤ 10) (hx : |x| ≤ M) (ha : |a| ≤ M) (hM : M ≤ 128) (hD : |x - a| ≤ 1 / 2 ^ 24 * M + 1 / 2 ^ 150) :
    ∀ ts : List (ℕ × ℕ), (∀ t ∈ ts, t.1 ≤ 9 ∧ t.2 ≤ d) → |termsValue x ts - termsValue a ts| ≤ d / 2 ^ 24 * termsValue M ts + ts.length * (1 / 2 ^ 79)
  | [], _ => by simp [termsValue]
  | t :: ts, h => by
    have M0 : 0 ≤ M := (abs_nonneg _).trans hx
    have ih := termsValue_lip (D := D) hd hx ha hM hD ts (fun s hs => h s (by simp [hs]))
    have h1 := abs_pow_sub_pow_le x a t.2
    have ht := h t (by simp)
    have hc : (t.1:ℝ) ≤ 9 := by exact_mod_cast ht.1
    have hn : (t.2:ℝ) ≤ d := by exact_mod_cast ht.2
    have hd' : (d:ℝ) ≤ 10 := by exact_mod_cast hd
    have c0 : (0:ℝ) ≤ t.1 := by positivity
    have n0 : (0:ℝ) ≤ t.2 := by positivity
    have h2 : t.1 * |x ^ t.2 - a ^ t.2| ≤ d / 2 ^ 24 * (t.1 * M ^ t.2) + 1 / 2 ^ 79 := by
      rcases Nat.eq_zero_or_pos t.2 with hz | hz
      · rw [hz]; simp; positivity
      obtain ⟨m, hm⟩ : ∃ m, t.2 = m + 1 := ⟨t.2 - 1, by omega⟩
      rw [hm] at h1 hn n0 ⊢
      rw [Nat.add_sub_cancel] at h1
      have mx : max |x| |a| ^ m ≤ M ^ m := pow_le_pow_left₀ (by positivity) (max_le hx ha) m
      have a1 : |x ^ (m + 1) - a ^ (m + 1)| ≤ (1 / 2 ^ 24 * M + 1 / 2 ^ 150) * d * M ^ m :=
        h1.trans (mul_le_mul (mul_le_mul hD hn n0 (by positivity)) mx (by positivity) (by positivity))
      have mm : M ^ m ≤ 2 ^ 63 := by
        have b1 : M ^ m ≤ 128 ^ m := pow_le_pow_left₀ M0 hM m
        have b2 : (128:ℝ) ^ m ≤ 128 ^ 9 := pow_le_pow_right₀ (by norm_num) (by omega)
        exact (b1.trans b2).trans (by norm_num)
      have a2 := mul_le_mul_of_nonneg_left a1 c0
      have a3 : (t.1:ℝ) * (d * M ^ m) ≤ 9 * (10 * 2 ^ 63) := mul_le_mul hc (mul_le_mul hd' mm (by positivity) (by norm_num)) (by positivity) (by norm_num)
      have a4 : (t.1:ℝ) * ((1 / 2 ^ 24 * M + 1 / 2 ^ 150) * d * M ^ m) = d / 2 ^ 24 * (t.1 * M ^ (m + 1)) + 1 / 2 ^ 150 * (t.1 * (d * M ^ m)) := by rw [pow_succ]; ring
      rw [a4] at a2
      refine a2.trans ?_
      generalize (t.1:ℝ) * (d * M ^ m) = Z at *
      generalize (d:ℝ) / 2 ^ 24 * (t.1 * M ^ (m + 1)) = W at *
      norm_num at a3 ⊢
      linarith
    rw [termsValue, termsValue, termsValue, List.length_cons, show (t.1:ℝ) * x ^ t.2 + termsValue x ts - (t.1 * a ^ t.2 + termsValue a ts) = t.1 * (x ^ t.2 - a ^ t.2) + (termsValue x ts - termsValue a ts) by ring]
    refine (abs_add_le _ _).trans ?_
    rw [abs_mul, abs_of_nonneg c0]
    push_cast
    linarith

/-- Rows of a table in double precision. -/
theorem double_row {pw : ℝ → ℕ → ℝ → Prop} (hpw : PowAccurate pw) {t : ℕ × ℕ} {ts : List (ℕ × ℕ)} (hl : ts.length ≤ 11) (ht : ∀ s ∈ t :: ts, s.1 ≤ 9 ∧ (s.2 = 1 → s.1 = 1))
    (hA : ∀ x : ℝ, 1 ≤ termsValue |x| (t :: ts)) {x a y : ℝ} (h : PolyRow double (Script pw t ts) x a y) :
    a = x ∧ |y - termsValue a (t :: ts)| ≤ (4.04 + 1.02 * ts.length) / 2 ^ 53 * termsValue |a| (t :: ts) := by
  obtain ⟨⟨k, -, d, q, -, -, hx⟩, hi, r, h1, h2⟩ := h
  have e : a = x := hi.unique (Rounds.self hx.rne.repr)
  refine ⟨e, ?_⟩
  subst e
  have e1 := script_err hpw hl ht (hA a) h1
  have e2 := double_err h2
  have e3 := termsValue_abs a (t :: ts)
  have A1 := hA a
  have hlr : (ts.length : ℝ) ≤ 11 := by exact_mod_cast hl
  have l0 : (0:ℝ) ≤ ts.length := by positivity
  generalize termsValue |a| (t :: ts) = A at *
  generalize termsValue a (t :: ts) = P at *
  have e4 : (3.03 + 1.02 * ts.length) / 2 ^ 53 * A ≤ 16 / 2 ^ 53 * A := by
    refine mul_le_mul_of_nonneg_right (div_le_div_of_nonneg_right ?_ (by positivity)) (by linarith)
    norm_num
    linarith
  have e5 : |r| ≤ A + 16 / 2 ^ 53 * A := by
    have := abs_sub_abs_le_abs_sub r P
    linarith
  have e6 : |y - P| ≤ |r - y| + |r - P| := by
    rw [show y - P = -(r - y) + (r - P) by ring]
    refine (abs_add_le _ _).trans ?_
    rw [abs_neg]
  have e7 : (4.04 + 1.02 * ts.length) / 2 ^ 53 * A = (3.03 + 1.02 * ts.length) / 2 ^ 53 * A + 1.01 / 2 ^ 53 * A := by ring
  rw [e7]
  generalize (3.03 + 1.02 * (ts.length:ℝ)) / 2 ^ 53 * A = K at *
  norm_num at *
  linarith

/-- Rows of a table in single precision. -/
theorem single_row {pw : ℝ → ℕ → ℝ → Prop} (hpw : PowAccurate pw) {t : ℕ × ℕ} {ts : List (ℕ × ℕ)} (hl : ts.length ≤ 11) {d : ℕ} (hd : d ≤ 10) (ht : ∀ s ∈ t :: ts, s.1 ≤ 9 ∧ (s.2 = 1 → s.1 = 1) ∧ s.2 ≤ d)
    (hA : ∀ x : ℝ, 1 ≤ termsValue |x| (t :: ts)) {x a y : ℝ} (h : PolyRow single (Script pw t ts) x a y) :
    |x - a| ≤ 1 / 2 ^ 24 * |x| + 1 / 2 ^ 150 ∧ |y - termsValue a (t :: ts)| ≤ (d + 1.01) / 2 ^ 24 * termsValue |a| (t :: ts) := by
  obtain ⟨⟨k, hk⟩, hi, r, h1, h2⟩ := h
  have hx := uniform_range hk
  have e0 := single_err hi
  refine ⟨e0, ?_⟩
  have ha : |a| ≤ 128 := by
    have := abs_sub_abs_le_abs_sub a x
    rw [abs_sub_comm] at this
    norm_num at e0 ⊢
    linarith
  have e1 := script_err hpw hl (fun s hs => ⟨(ht s hs).1, (ht s hs).2.1⟩) (hA x) h1
  have e2 := single_err h2
  set M := max |x| |a| with hM
  have xM : |x| ≤ M := le_max_left _ _
  have aM : |a| ≤ M := le_max_right _ _
  have M0 : 0 ≤ M := (abs_nonneg _).trans xM
  have M1 : M ≤ 128 := max_le (by linarith) ha
  have hD : |x - a| ≤ 1 / 2 ^ 24 * M + 1 / 2 ^ 150 := e0.trans (by gcongr)
  have l1 := termsValue_lip (D := 0) hd xM aM M1 hD (t :: ts) (fun s hs => ⟨(ht s hs).1, (ht s hs).2.2⟩)
  have hMa : |M - (|a|)| ≤ 1 / 2 ^ 24 * M + 1 / 2 ^ 150 := by
    refine le_trans ?_ hD
    rcases le_total |x| |a| with h | h
    · rw [hM, max_eq_right h, sub_self, abs_zero]; positivity
    · rw [hM, max_eq_left h]; exact abs_abs_sub_abs_le_abs_sub _ _
  have l2 := termsValue_lip (D := 0) hd (x := M) (a := |a|) (M := M) (by rw [abs_of_nonneg M0]) (by rw [abs_abs]; exact aM) M1 hMa (t :: ts) (fun s hs => ⟨(ht s hs).1, (ht s hs).2.2⟩)
  have mono : termsValue |x| (t :: ts) ≤ termsValue M (t :: ts) := by
    have : ∀ ts : List (ℕ × ℕ), termsValue |x| ts ≤ termsValue M ts := by
      intro ts
      induction ts with
      | nil => exact le_rfl
      | cons s ts ih =>
        rw [termsValue, termsValue]
        have := mul_le_mul_of_nonneg_left (pow_le_pow_left₀ (abs_nonneg x) xM s.2) (show (0:ℝ) ≤ s.1 by positivity)
        linarith
    exact this _
  have px := termsValue_abs x (t :: ts)
  have A1 := hA a
  have hlr : (ts.length : ℝ) ≤ 11 := by exact_mod_cast hl
  have l0 : (0:ℝ) ≤ ts.length := by positivity
  rw [List.length_cons] at l1 l2
  push_cast at l1 l2
  have hdr : (d:ℝ) ≤ 10 := by exact_mod_cast hd
  have d0 : (0:ℝ) ≤ d := by positivity
  generalize termsValue |a| (t :: ts) = A at *
  generalize termsValue a (t :: ts) = P at *
  generalize termsValue M (t :: ts) = B at *
  generalize termsValue |x| (t :: ts) = X at *
  generalize termsValue x (t :: ts) = Q at *
  have B0 : 0 ≤ B := by linarith [abs_nonneg Q]
  have t1 : ((ts.length:ℝ) + 1) * (1 / 2 ^ 79) ≤ 12 * (1 / 2 ^ 79) := by gcongr; linarith
  have t2 : (d:ℝ) / 2 ^ 24 * B ≤ 10 / 2 ^ 24 * B := by gcongr
  have hBA : B ≤ A + 10 / 2 ^ 24 * B + 12 * (1 / 2 ^ 79) := by linarith [le_abs_self (B - A)]
  have hB : B ≤ (1 + 11 / 2 ^ 24) * A := by
    norm_num at hBA ⊢
    linarith
  have e4 : (3.03 + 1.02 * ts.length) / 2 ^ 53 * X ≤ 16 / 2 ^ 53 * B := by
    refine mul_le_mul (div_le_div_of_nonneg_right ?_ (by positivity)) mono (by linarith [abs_nonneg Q]) (by positivity)
    norm_num
    linarith
  have e5 : |r| ≤ B + 16 / 2 ^ 53 * B := by
    have := abs_sub_abs_le_abs_sub r Q
    linarith
  have e6 : |y - P| ≤ |r - y| + |r - Q| + |Q - P| := by
    rw [show y - P = -(r - y) + (r - Q) + (Q - P) by ring]
    refine (abs_add_le _ _).trans (add_le_add ((abs_add_le _ _).trans ?_) le_rfl)
    rw [abs_neg]
  have t3 : (d:ℝ) / 2 ^ 24 * B ≤ d / 2 ^ 24 * A + 110 / 2 ^ 48 * A := by
    have a1 : (d:ℝ) / 2 ^ 24 * B ≤ d / 2 ^ 24 * ((1 + 11 / 2 ^ 24) * A) := by gcongr
    have a2 : (d:ℝ) / 2 ^ 24 * (11 / 2 ^ 24 * A) ≤ 10 / 2 ^ 24 * (11 / 2 ^ 24 * A) := by gcongr
    have a3 : (d:ℝ) / 2 ^ 24 * ((1 + 11 / 2 ^ 24) * A) = d / 2 ^ 24 * A + d / 2 ^ 24 * (11 / 2 ^ 24 * A) := by ring
    have a4 : (10:ℝ) / 2 ^ 24 * (11 / 2 ^ 24 * A) = 110 / 2 ^ 48 * A := by ring
    linarith
  have e7 : ((d:ℝ) + 1.01) / 2 ^ 24 * A = d / 2 ^ 24 * A + 1.01 / 2 ^ 24 * A := by ring
  rw [e7]
  generalize (d:ℝ) / 2 ^ 24 * A = K at *
  generalize (d:ℝ) / 2 ^ 24 * B = K' at *
  norm_num at *
  linarith

end ZkLoc.TableGen
