import Mathlib.Analysis.SpecialFunctions.Trigonometric.ArctanDeriv
import Mathlib.Analysis.Calculus.MeanValue
import Mathlib.Data.Rat.Cast.Order
import Mathlib.Tactic.Ring
import Mathlib.Tactic.Linarith
import Mathlib.Tactic.NormNum

/-!
# Helper lemmas: bounds for rational polynomials on intervals, and a polynomial close to the arc tangent
-/

namespace ZkLoc

/-- Polynomials as lists of coefficients, lowest first. -/
def pEval : List ℚ → ℝ → ℝ
  | [], _ => 0
  | a :: as, x => a + x * pEval as x

def pAdd : List ℚ → List ℚ → List ℚ
  | [], bs => bs
  | as, [] => as
  | a :: as, b :: bs => (a + b) :: pAdd as bs

def pScale (c : ℚ) (as : List ℚ) : List ℚ := as.map (fun a => c * a)

theorem pEval_add (x : ℝ) : ∀ as bs, pEval (pAdd as bs) x = pEval as x + pEval bs x
  | [], bs => by simp [pAdd, pEval]
  | a :: as, [] => by simp [pAdd, pEval]
  | a :: as, b :: bs => by
    simp only [pAdd, pEval, pEval_add x as bs]
    push_cast; ring

theorem pEval_scale (c : ℚ) (x : ℝ) : ∀ as, pEval (pScale c as) x = c * pEval as x
  | [] => by simp [pScale, pEval]
  | a :: as => by
    have := pEval_scale c x as
    unfold pScale at *
    simp only [List.map_cons, pEval, this]
    push_cast; ring

/-- The polynomial in `x - c`. -/
def pShift (c : ℚ) : List ℚ → List ℚ
  | [] => []
  | a :: as => pAdd [a] (pAdd (pScale c (pShift c as)) (0 :: pShift c as))

theorem pEval_shift (c : ℚ) (x : ℝ) : ∀ as, pEval (pShift c as) (x - c) = pEval as x
  | [] => rfl
  | a :: as => by
    simp only [pShift, pEval_add, pEval_scale, pEval, pEval_shift c x as]
    push_cast; ring

def pAbs (r : ℚ) : List ℚ → ℚ
  | [] => 0
  | a :: as => |a| + r * pAbs r as

theorem pEval_le {r : ℚ} {y : ℝ} (h : |y| ≤ r) : ∀ as, |pEval as y| ≤ (pAbs r as : ℚ)
  | [] => by simp [pEval, pAbs]
  | a :: as => by
    simp only [pEval, pAbs]
    push_cast
    refine (abs_add_le _ _).trans (add_le_add le_rfl ?_)
    rw [abs_mul]
    exact mul_le_mul h (pEval_le h as) (abs_nonneg _) ((abs_nonneg _).trans h)

/-- The bound for the interval `[a, c]`. -/
def pBound (as : List ℚ) (a c : ℚ) : ℚ := pAbs ((c - a) / 2) (pShift ((a + c) / 2) as)

theorem pEval_bound {as : List ℚ} {a c : ℚ} {x : ℝ} (h1 : (a:ℝ) ≤ x) (h2 : x ≤ c) : |pEval as x| ≤ (pBound as a c : ℚ) := by
  have h := pEval_le (r := (c - a) / 2) (y := x - ((a + c) / 2 : ℚ)) (by
    push_cast; rw [abs_le]; constructor <;> linarith) (pShift ((a + c) / 2) as)
  rwa [pEval_shift] at h

/-- A check on every interval of a subdivision. -/
def covers (check : ℚ → ℚ → Bool) : ℚ → List ℚ → Bool
  | _, [] => true
  | a, c :: cs => check a c && covers check c cs

theorem covers_spec {check : ℚ → ℚ → Bool} : ∀ {a c : ℚ} {cs : List ℚ} {x : ℝ}, covers check a (c :: cs) = true → (a:ℝ) ≤ x → x ≤ ((c :: cs).getLast (by simp) : ℚ) →
    ∃ l h : ℚ, check l h = true ∧ (l:ℝ) ≤ x ∧ x ≤ h
  | a, c, [], x, hc, h1, h2 => by
    simp only [covers, Bool.and_eq_true] at hc
    exact ⟨a, c, hc.1, h1, h2⟩
  | a, c, d :: cs, x, hc, h1, h2 => by
    rw [covers, Bool.and_eq_true] at hc
    rcases le_total x c with h | h
    · exact ⟨a, c, hc.1, h1, h⟩
    · exact covers_spec hc.2 h (by rwa [List.getLast_cons (by simp)] at h2)

def pDeriv : List ℚ → List ℚ
  | [] => []
  | _ :: as => pAdd as (0 :: pDeriv as)

theorem pEval_deriv (x : ℝ) : ∀ as, HasDerivAt (pEval as) (pEval (pDeriv as) x) x
  | [] => by simpa [pEval, pDeriv] using hasDerivAt_const x (0:ℝ)
  | a :: as => by
    have h := ((hasDerivAt_id x).mul (pEval_deriv x as)).const_add (a:ℝ)
    have e : pEval (pDeriv (a :: as)) x = 1 * pEval as x + id x * pEval (pDeriv as) x := by
      simp [pDeriv, pEval_add, pEval]
    rw [e]
    exact h

/-- `(1 + x²) P'(x) - 1`, which is small where `P` is close to the arc tangent. -/
def atanResidue (as : List ℚ) : List ℚ := pAdd [-1] (pAdd (pDeriv as) (0 :: 0 :: pDeriv as))

theorem arctan_close {as : List ℚ} {δ : ℝ} (h : ∀ x : ℝ, 0 ≤ x → x ≤ 1 → |pEval (atanResidue as) x| ≤ δ) {x : ℝ} (x0 : 0 ≤ x) (x1 : x ≤ 1) :
    |pEval as x - Real.arctan x| ≤ |pEval as 0| + δ := by
  have hd : ∀ y ∈ Set.Icc (0:ℝ) 1, HasDerivWithinAt (fun y => pEval as y - Real.arctan y) (pEval (pDeriv as) y - 1 / (1 + y ^ 2)) (Set.Icc 0 1) y :=
    fun y _ => ((pEval_deriv y as).sub (Real.hasDerivAt_arctan y)).hasDerivWithinAt
  have hb : ∀ y ∈ Set.Icc (0:ℝ) 1, ‖pEval (pDeriv as) y - 1 / (1 + y ^ 2)‖ ≤ δ := by
    intro y hy
    have h' := h y hy.1 hy.2
    have e : pEval (atanResidue as) y = (1 + y ^ 2) * (pEval (pDeriv as) y - 1 / (1 + y ^ 2)) := by
      simp only [atanResidue, pEval_add, pEval]
      field_simp
      push_cast; ring
    rw [e, abs_mul, abs_of_pos (by positivity)] at h'
    rw [Real.norm_eq_abs]
    nlinarith [abs_nonneg (pEval (pDeriv as) y - 1 / (1 + y ^ 2)), sq_nonneg y]
  have δ0 : 0 ≤ δ := (abs_nonneg _).trans (h 0 le_rfl zero_le_one)
  have := (convex_Icc (0:ℝ) 1).norm_image_sub_le_of_norm_hasDerivWithin_le hd hb (x := 0) (y := x) (by simp) ⟨x0, x1⟩
  simp only [Real.arctan_zero, sub_zero, Real.norm_eq_abs, abs_of_nonneg x0] at this
  have h2 : δ * x ≤ δ := mul_le_of_le_one_right δ0 x1
  have h3 : |pEval as x - Real.arctan x| ≤ |pEval as x - Real.arctan x - pEval as 0| + |pEval as 0| := by
    simpa using abs_add_le (pEval as x - Real.arctan x - pEval as 0) (pEval as 0)
  linarith

/-- The arc tangent is a contraction. -/
theorem abs_arctan_sub_le (x y : ℝ) : |Real.arctan x - Real.arctan y| ≤ |x - y| := by
  have := (convex_univ (𝕜 := ℝ) (E := ℝ)).norm_image_sub_le_of_norm_hasDerivWithin_le (f := Real.arctan) (f' := fun y => 1 / (1 + y ^ 2)) (C := 1)
    (fun z _ => (Real.hasDerivAt_arctan z).hasDerivWithinAt) (fun z _ => by
      rw [Real.norm_eq_abs, abs_of_pos (by positivity), div_le_one (by positivity)]
      nlinarith [sq_nonneg z]) (x := y) (y := x) (by simp) (by simp)
  simpa using this

/-- A polynomial of degree 33 within `2^-60` of the arc tangent on `[0, 1]` (interpolation in Chebyshev points, only used in proofs). -/
def atanNums : List ℤ := [
    2485884054492, 1329227995784915872898059662524264471, 2212810977580840881,
    -443075998594972297535426108677473871, 27848111239008061237393, 265845599155572272926902517187743709,
    48346446173981723963346790, -189889714873129762892310509158436606, 21930661858335680678536915486,
    147691686884031953557687602911651673, 3530774572741603716466554369320, -120871093847078352238214941844121794,
    240351546737189561991755353019072, 100760514472215585891790764269067606, 7704789604814667815130964962788783,
    -122236461685277965068551262240901860, 124284914664546839103019941405657388, -312431423692780694263496666300714212,
    1045905446993145027338648828265801048, -2456411554909405771897815105045809739, 4632833387186972830738919977197207946,
    -7559857526569073687226067910840099865, 10563699662211159976628494716760074982, -12265188462853980853765006889816585970,
    11599439911699671687108831872018614463, -8839034871919438567250007547867167733, 5378611644889938064598437249586724199,
    -2580465879248923609676725963831759353, 955769406307095820317389988340627106, -263794028624792589696969140918840517,
    50984426988164657769055216271916301, -6097645790624776016022092228499485, 320389929587710220894055223315365,
    4208163243964320648080089740412]
def atanRef : List ℚ := atanNums.map (fun n => (n : ℚ) / 2 ^ 120)

/-- `1/32, 2/32, …, 1`. -/
def grid : List ℚ := (List.range 32).map (fun n => ((n + 1 : ℕ) : ℚ) / 32)

theorem grid_eq : grid = 1 / 32 :: grid.tail := by decide +kernel
theorem grid_last : (1 / 32 :: grid.tail).getLast (by simp) = 1 := by decide +kernel

theorem grid_covers {check : ℚ → ℚ → Bool} (h : covers check 0 grid = true) {x : ℝ} (x0 : 0 ≤ x) (x1 : x ≤ 1) :
    ∃ l h : ℚ, check l h = true ∧ (l:ℝ) ≤ x ∧ x ≤ h := by
  rw [grid_eq] at h
  exact covers_spec h (by simpa using x0) (by rw [grid_last]; simpa using x1)

theorem atanRef_residue : covers (fun a c => decide (pBound (atanResidue atanRef) a c ≤ 1 / 2 ^ 62)) 0 grid = true := by decide +kernel

theorem atanRef_zero : pBound atanRef 0 0 ≤ 1 / 2 ^ 62 := by decide +kernel

theorem atanRef_close {x : ℝ} (x0 : 0 ≤ x) (x1 : x ≤ 1) : |pEval atanRef x - Real.arctan x| ≤ 1 / 2 ^ 61 := by
  have h := arctan_close (as := atanRef) (δ := 1 / 2 ^ 62) (fun y y0 y1 => by
    obtain ⟨l, h, hc, h1, h2⟩ := grid_covers atanRef_residue y0 y1
    rw [decide_eq_true_eq] at hc
    have hc' := (Rat.cast_le (K := ℝ)).2 hc
    refine (pEval_bound h1 h2).trans (hc'.trans ?_)
    push_cast; exact le_rfl) x0 x1
  have h0 : |pEval atanRef 0| ≤ 1 / 2 ^ 62 := by
    refine (pEval_bound (a := 0) (c := 0) (by simp) (by simp)).trans ?_
    have hc := (Rat.cast_le (K := ℝ)).2 atanRef_zero
    refine hc.trans ?_
    push_cast; exact le_rfl
  refine h.trans ?_
  norm_num at *
  linarith

end ZkLoc
