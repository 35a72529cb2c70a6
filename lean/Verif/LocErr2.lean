import Verif.LocErr

/-!
# Helper lemmas: rounding errors of radius, direction and plane point (real numbers only)
-/

namespace ZkLoc

variable {f : Fmt}

theorem res0_bounds : 0.3819 ≤ H3.res0 ∧ H3.res0 ≤ 0.382 := by unfold H3.res0; norm_num

theorem gno_le {d : ℝ} (h0 : 0 ≤ d) (h1 : d ≤ 0.95) : Real.sqrt ((4 - d) * d) ≤ 1.71 ∧ 0 ≤ gno d ∧ gno d ≤ 1.63 := by
  have hN : (4 - d) * d ≤ 2.9 := by nlinarith
  have hs : Real.sqrt ((4 - d) * d) ≤ 1.71 := Real.sqrt_le_iff.2 ⟨by norm_num, by norm_num at *; linarith⟩
  refine ⟨hs, ?_, ?_⟩
  · unfold gno; exact div_nonneg (Real.sqrt_nonneg _) (by linarith)
  · unfold gno
    rw [div_le_iff₀ (by linarith)]
    norm_num at *
    linarith

set_option maxHeartbeats 1000000 in
/-- The radius before scaling. -/
theorem radius_err (H : Fine f) {d a n e s q rc r0 : ℝ} (h0 : 0 ≤ d) (h1 : d ≤ 0.95) (ra : Rn f (4 - d) a) (rn : Rn f (a * d) n) (re : Rn f (2 - d) e)
    (he1 : 1 ≤ e) (rs : Rn f (Real.sqrt n) s) (rq : Rn f (s / e) q) (hrc : |rc - H3.res0| ≤ ulpHalf f) (rr : Rn f (q / rc) r0) :
    |r0 - gno d / H3.res0| ≤ 46 * ulpHalf f := by
  have hu := H.hu
  have u0 := ulpHalf_pos (f := f)
  have n0 := eta_pos (f := f)
  have hη := H.eta_le_u
  have ht := H.tiny
  have k1 := ra.err2
  have k2 := rn.err2
  have k3 := re.err2
  have k4 := rs.err2
  have k5 := rq.err2
  have k6 := rr.err2
  obtain ⟨g1, g2, g3⟩ := gno_le h0 h1
  obtain ⟨c1, c2⟩ := res0_bounds
  have hgno : gno d = Real.sqrt ((4 - d) * d) / (2 - d) := rfl
  generalize gno d = g at *
  generalize ulpHalf f = u at *
  generalize eta f = η at *
  generalize H3.res0 = z at *
  norm_num at hu hη ht h1 g1 g3 c1 c2
  have hηu : η ≤ u / 100 := by linarith
  clear hη
  have N0 : 0 ≤ (4 - d) * d := mul_nonneg (by linarith) h0
  rw [abs_of_nonneg (show 0 ≤ 4 - d by linarith)] at k1
  have e1 : |4 - d - a| ≤ 4.01 * u := by nlinarith
  have e1' := abs_le.1 e1
  have a0 : 0 ≤ a := by linarith
  have a1 : a ≤ 4.01 := by linarith
  rw [abs_of_nonneg (mul_nonneg a0 h0)] at k2
  have e2 : |(4 - d) * d - n| ≤ 2.7 * u * ((4 - d) * d) + (u / 32) ^ 2 := by
    have : (4 - d) * d - n = (4 - d - a) * d + (a * d - n) := by ring
    rw [this]
    refine (abs_add_le _ _).trans ?_
    rw [abs_mul, abs_of_nonneg h0]
    have m1 : |4 - d - a| * d ≤ 4.01 * u * d := mul_le_mul_of_nonneg_right e1 h0
    have m2 : u * (a * d) ≤ 4.01 * u * d := by
      have := mul_le_mul_of_nonneg_right a1 h0
      have := mul_le_mul_of_nonneg_left this u0.le
      linarith
    have m3 : 3.05 * (u * d) ≤ (4 - d) * (u * d) := mul_le_mul_of_nonneg_right (by linarith) (by positivity)
    have m4 : 0 ≤ u * d := by positivity
    nlinarith
  have e3 := sqrt_rel N0 (by positivity) (by linarith) (by positivity) e2
  have s0 := Real.sqrt_nonneg ((4 - d) * d)
  generalize Real.sqrt ((4 - d) * d) = S at *
  have e4 : |S - Real.sqrt n| ≤ 4.66 * u := by
    have := mul_le_mul_of_nonneg_left g1 u0.le
    nlinarith
  have e4' := abs_le.1 e4
  rw [abs_of_nonneg (Real.sqrt_nonneg n)] at k4
  have sn0 := Real.sqrt_nonneg n
  generalize Real.sqrt n = t at *
  have t1 : t ≤ 1.72 := by linarith
  have e5 : |S - s| ≤ 6.4 * u := by
    have := mul_le_mul_of_nonneg_left t1 u0.le
    refine (abs_sub_le _ t _).trans ?_
    linarith
  rw [abs_of_nonneg (show 0 ≤ 2 - d by linarith)] at k3
  have e6 : |2 - d - e| ≤ 2.01 * u := by nlinarith
  have d1 : 1.05 ≤ 2 - d := by linarith
  have e7 : |s / e - g| ≤ 9.7 * u := by
    have : s / e - g = (s - S) / e + S * (2 - d - e) / (e * (2 - d)) := by
      rw [hgno]; field_simp; ring
    rw [this]
    refine (abs_add_le _ _).trans ?_
    rw [abs_div, abs_div, abs_of_pos (show 0 < e by linarith), abs_of_pos (show 0 < e * (2 - d) from mul_pos (by linarith) (by linarith)), abs_mul, abs_of_nonneg s0, abs_sub_comm s]
    have m1 : |S - s| / e ≤ 6.4 * u := by
      rw [div_le_iff₀ (by linarith)]
      have := mul_le_mul_of_nonneg_left he1 (show 0 ≤ 6.4 * u by positivity)
      linarith
    have m2 : S * |2 - d - e| / (e * (2 - d)) ≤ 3.3 * u := by
      rw [div_le_iff₀ (mul_pos (by linarith) (by linarith))]
      have m3 : S * |2 - d - e| ≤ 171 / 100 * (2.01 * u) := mul_le_mul g1 e6 (abs_nonneg _) (by norm_num)
      have m4 : 1.05 ≤ e * (2 - d) := by have := mul_le_mul he1 d1 (by norm_num) (by linarith); linarith
      have m5 := mul_le_mul_of_nonneg_left m4 (show 0 ≤ 3.3 * u by positivity)
      linarith
    linarith
  have e7' := abs_le.1 e7
  have k7 : |s / e| ≤ 1.64 := by rw [abs_le]; constructor <;> linarith
  have e8 : |q - g| ≤ 11.4 * u := by
    have := mul_le_mul_of_nonneg_left k7 u0.le
    refine (abs_sub_le _ (s / e) _).trans ?_
    rw [abs_sub_comm q]
    linarith
  have rc1 : 0.3818 ≤ rc := by have := (abs_le.1 hrc).1; linarith
  have e9 : |q / rc - g / z| ≤ 41.2 * u := by
    have : q / rc - g / z = (q - g) / rc - g * (rc - z) / (rc * z) := by field_simp; ring
    rw [this]
    refine (abs_sub _ _).trans ?_
    rw [abs_div, abs_div, abs_of_pos (show 0 < rc by linarith), abs_of_pos (show 0 < rc * z by positivity), abs_mul, abs_of_nonneg g2]
    have m1 : |q - g| / rc ≤ 29.9 * u := by rw [div_le_iff₀ (by linarith)]; nlinarith
    have m2 : g * |rc - z| / (rc * z) ≤ 11.25 * u := by
      rw [div_le_iff₀ (by positivity)]
      have m3 : g * |rc - z| ≤ 163 / 100 * u := mul_le_mul g3 hrc (abs_nonneg _) (by norm_num)
      have m4 : 0.1458 ≤ rc * z := by have := mul_le_mul rc1 c1 (by norm_num) (by linarith); norm_num at this ⊢; linarith
      have m5 := mul_le_mul_of_nonneg_left m4 (show 0 ≤ 11.25 * u by positivity)
      linarith
    linarith
  have hG : g / z ≤ 4.27 := by rw [div_le_iff₀ (by linarith)]; linarith
  have hG0 : 0 ≤ g / z := div_nonneg g2 (by linarith)
  have e9' := abs_le.1 e9
  have k8 : |q / rc| ≤ 4.28 := by rw [abs_le]; constructor <;> linarith
  have := mul_le_mul_of_nonneg_left k8 u0.le
  refine (abs_sub_le _ (q / rc) _).trans ?_
  rw [abs_sub_comm r0]
  linarith

/-- The scaled radius. -/
theorem scaled_err (H : Fine f) {G r0 μ r T : ℝ} (hG0 : 0 ≤ G) (hG : G ≤ 4.27) (h : |r0 - G| ≤ 46 * ulpHalf f) (hT : 1 ≤ T) (hμ : |μ - T| ≤ 16 * ulpHalf f * T)
    (hr : Rn f (r0 * μ) r) : |r - T * G| ≤ 120 * ulpHalf f * T := by
  have hu := H.hu
  have u0 := ulpHalf_pos (f := f)
  have hη := H.eta_le_u
  have k := hr.err2
  generalize ulpHalf f = u at *
  generalize eta f = η at *
  norm_num at hu hη hG
  have hμ' := abs_le.1 hμ
  have m1 : |μ| ≤ 1.001 * T := by rw [abs_le]; constructor <;> nlinarith
  have e1 : |r0 * μ - T * G| ≤ 115 * u * T := by
    rw [show r0 * μ - T * G = (r0 - G) * μ + G * (μ - T) by ring]
    refine (abs_add_le _ _).trans ?_
    rw [abs_mul, abs_mul, abs_of_nonneg hG0]
    have p1 : |r0 - G| * |μ| ≤ 46 * u * (1.001 * T) := mul_le_mul h m1 (abs_nonneg _) (by positivity)
    have p2 : G * |μ - T| ≤ 427 / 100 * (16 * u * T) := mul_le_mul hG hμ (abs_nonneg _) (by norm_num)
    have : 0 ≤ u * T := by positivity
    linarith
  have e2 : |r0 * μ| ≤ 4.3 * T := by
    have h1 : |r0 * μ| ≤ |r0 * μ - T * G| + |T * G| := by
      have := abs_add_le (r0 * μ - T * G) (T * G)
      rwa [sub_add_cancel] at this
    rw [abs_of_nonneg (show 0 ≤ T * G by positivity)] at h1
    have h2 : 115 * u * T ≤ 0.01 * T := mul_le_mul_of_nonneg_right (by linarith) (by linarith)
    have h3 : T * G ≤ T * (427 / 100) := mul_le_mul_of_nonneg_left hG (by linarith)
    linarith
  have e3 := mul_le_mul_of_nonneg_left e2 u0.le
  have e4 : u ≤ u * T := by nlinarith
  refine (abs_sub_le _ (r0 * μ) _).trans ?_
  rw [abs_sub_comm r]
  linarith

theorem Rn.repr {e w : ℝ} (h : Rn f e w) : Ieee.Representable ⟨f.E, f.M⟩ |w| := h.rne.repr

theorem eta_le_of_repr {q : ℝ} (h : Ieee.Representable ⟨f.E, f.M⟩ q) (h0 : q ≠ 0) : 2 * eta f ≤ q := by
  obtain ⟨n, k, _, hk, rfl⟩ := h
  have hn : 1 ≤ n := by
    rcases Nat.eq_zero_or_pos n with rfl | h
    · simp at h0
    · exact h
  have e : 2 * eta f = 2 ^ (Ieee.Format.qmin ⟨f.E, f.M⟩) := by
    unfold eta
    rw [zpow_sub_one₀ (by norm_num)]; ring
  rw [e]
  have h1 : (2:ℝ) ^ (Ieee.Format.qmin ⟨f.E, f.M⟩) ≤ 2 ^ k := zpow_le_zpow_right₀ (by norm_num) hk
  have h2 : (1:ℝ) ≤ n := by exact_mod_cast hn
  have h3 : (0:ℝ) < 2 ^ k := by positivity
  nlinarith

/-- The length of the tangential vector and the quotients by it. -/
theorem length_err (H : Fine f) {x y xx yy zz z : ℝ} (rx : Rn f (x * x) xx) (ry : Rn f (y * y) yy) (rz : Rn f (xx + yy) zz) (hz : zz ≠ 0)
    (rs : Rn f (Real.sqrt zz) z) :
    0 < z ∧ |x / z| ≤ 1.3 ∧ |y / z| ≤ 1.3 ∧ |z - Real.sqrt (x ^ 2 + y ^ 2)| ≤ 4 * ulpHalf f * Real.sqrt (x ^ 2 + y ^ 2) + ulpHalf f := by
  have hu := H.hu
  have u0 := ulpHalf_pos (f := f)
  have n0 := eta_pos (f := f)
  have hη := H.eta_le_u
  have hη' := H.eta_le
  have ht := H.tiny
  have x0 : 0 ≤ xx := rx.pos (mul_self_nonneg x)
  have y0 : 0 ≤ yy := ry.pos (mul_self_nonneg y)
  have z0 : 0 ≤ zz := rz.pos (by linarith)
  have hx : xx ≤ zz := rz.ge (by have := rx.repr; rwa [abs_of_nonneg x0] at this) (by linarith)
  have hy : yy ≤ zz := rz.ge (by have := ry.repr; rwa [abs_of_nonneg y0] at this) (by linarith)
  have hzz : 2 * eta f ≤ zz := eta_le_of_repr (by have := rz.repr; rwa [abs_of_nonneg z0] at this) hz
  have k1 := rx.err2
  have k2 := ry.err2
  have k3 := rz.err2
  have k4 := rs.err2
  rw [abs_of_nonneg (mul_self_nonneg x)] at k1
  rw [abs_of_nonneg (mul_self_nonneg y)] at k2
  rw [abs_of_nonneg (Real.sqrt_nonneg zz)] at k4
  generalize ulpHalf f = u at *
  generalize eta f = η at *
  have e1 : |x ^ 2 + y ^ 2 - zz| ≤ (1 + 1.01) * u * (x ^ 2 + y ^ 2) + (1 + 1 + 2) * η := by
    refine add_rel u0.le n0.le hu (sq_nonneg x) (sq_nonneg y) (by linarith) ?_ ?_ (by norm_num) (by norm_num) (by norm_num) (by norm_num) (by norm_num) (by norm_num) k3
    · rw [pow_two]; linarith
    · rw [pow_two]; linarith
  norm_num at hu hη hη' ht
  have e2 := sqrt_rel (a := 2.01 * u) (c := u / 8) (by positivity) (by positivity) (by linarith) (by positivity) (e1.trans (by nlinarith))
  have q0 := Real.sqrt_nonneg zz
  have q1 : 200 * η ≤ Real.sqrt zz := Real.le_sqrt_of_sq_le (by nlinarith)
  have k4' := abs_le.1 k4
  have zl : 0.99 * Real.sqrt zz ≤ z := by nlinarith
  have zpos : 0 < Real.sqrt zz := by linarith
  have quot : ∀ {t tt : ℝ}, |t * t - tt| ≤ u * (t * t) + η → tt ≤ zz → |t / z| ≤ 1.3 := by
    intro t tt k h
    have h1 := (abs_le.1 k).2
    have h2 : t * t ≤ 1.51 * zz := by nlinarith [mul_self_nonneg t]
    have h3 : |t| ≤ 1.23 * Real.sqrt zz := by
      refine abs_le_of_sq_le_sq ?_ (by positivity)
      rw [mul_pow, Real.sq_sqrt z0]
      nlinarith
    rw [abs_div, abs_of_pos (show 0 < z by linarith), div_le_iff₀ (by linarith)]
    linarith
  refine ⟨by linarith, quot k1 hx, quot k2 hy, ?_⟩
  have e3 : Real.sqrt zz ≤ 1.01 * Real.sqrt (x ^ 2 + y ^ 2) + u := by
    have := (abs_le.1 e2).1
    have := Real.sqrt_nonneg (x ^ 2 + y ^ 2)
    nlinarith
  rw [abs_sub_comm]
  refine (abs_sub_le _ (Real.sqrt zz) _).trans ((add_le_add e2 k4).trans ?_)
  have := Real.sqrt_nonneg (x ^ 2 + y ^ 2)
  have e4 := mul_le_mul_of_nonneg_left e3 u0.le
  have : 0 ≤ u * Real.sqrt (x ^ 2 + y ^ 2) := by positivity
  nlinarith

/-- One product of the rotation. -/
theorem rot_one (H : Fine f) {τ : ℝ} (hτ : 5 * ulpHalf f ≤ τ) (hτ1 : τ ≤ 1 / 2 ^ 16) {α A q n : ℝ} (hα : |α - A| ≤ τ) (hA : |A| ≤ 1) (hq : |q| ≤ 1.31)
    (hn : Rn f (α * q) n) : |n - A * q| ≤ 1.58 * τ ∧ |n| ≤ 1.32 := by
  have u0 := ulpHalf_pos (f := f)
  have n0 := eta_pos (f := f)
  have hη := H.eta_le_u
  have k := hn.err2
  generalize ulpHalf f = u at *
  generalize eta f = η at *
  norm_num at hη hq hτ1
  have τ0 : 0 < τ := by linarith
  have e1 : |α * q - A * q| ≤ 1.31 * τ := by
    rw [← sub_mul, abs_mul]
    have := mul_le_mul hα hq (abs_nonneg _) τ0.le
    linarith
  have e2 : |A * q| ≤ 1.31 := by
    rw [abs_mul]
    have := mul_le_mul hA hq (abs_nonneg _) (by norm_num)
    linarith
  have e3 : |α * q| ≤ 1.315 := by
    have := abs_add_le (α * q - A * q) (A * q)
    rw [sub_add_cancel] at this
    linarith
  have e4 : |n - A * q| ≤ 1.58 * τ := by
    refine (abs_sub_le _ (α * q) _).trans ?_
    rw [abs_sub_comm n]
    have := mul_le_mul_of_nonneg_left e3 u0.le
    linarith
  refine ⟨e4, ?_⟩
  have := abs_add_le (n - A * q) (A * q)
  rw [sub_add_cancel] at this
  linarith

/-- The two coordinates of the direction are combined with a rotation. -/
theorem rotate_err (H : Fine f) {τ : ℝ} (hτ : 5 * ulpHalf f ≤ τ) (hτ1 : τ ≤ 1 / 2 ^ 16) {α β A B q1 q2 n3 n4 cs : ℝ} (hα : |α - A| ≤ τ) (hβ : |β - B| ≤ τ)
    (hA : |A| ≤ 1) (hB : |B| ≤ 1) (h1 : |q1| ≤ 1.31) (h2 : |q2| ≤ 1.31) (r3 : Rn f (α * q1) n3) (r4 : Rn f (β * q2) n4) (r5 : Rn f (n3 + n4) cs) :
    |cs - (A * q1 + B * q2)| ≤ 4 * τ := by
  obtain ⟨a3, b3⟩ := rot_one H hτ hτ1 hα hA h1 r3
  obtain ⟨a4, b4⟩ := rot_one H hτ hτ1 hβ hB h2 r4
  have u0 := ulpHalf_pos (f := f)
  have hη := H.eta_le_u
  norm_num at hη
  have k5 := r5.err2
  have hs : |n3 + n4| ≤ 2.64 := (abs_add_le _ _).trans (by linarith)
  have := mul_le_mul_of_nonneg_left hs u0.le
  have e : cs - (A * q1 + B * q2) = (cs - (n3 + n4)) + ((n3 - A * q1) + (n4 - B * q2)) := by ring
  rw [e]
  refine (abs_add_le _ _).trans ((add_le_add le_rfl (abs_add_le _ _)).trans ?_)
  rw [abs_sub_comm cs]
  linarith

theorem rotate_err_sub (H : Fine f) {τ : ℝ} (hτ : 5 * ulpHalf f ≤ τ) (hτ1 : τ ≤ 1 / 2 ^ 16) {α β A B q1 q2 n3 n4 cs : ℝ} (hα : |α - A| ≤ τ) (hβ : |β - B| ≤ τ)
    (hA : |A| ≤ 1) (hB : |B| ≤ 1) (h1 : |q1| ≤ 1.31) (h2 : |q2| ≤ 1.31) (r3 : Rn f (α * q1) n3) (r4 : Rn f (β * q2) n4) (r5 : Rn f (n3 - n4) cs) :
    |cs - (A * q1 + -B * q2)| ≤ 4 * τ := by
  obtain ⟨a3, b3⟩ := rot_one H hτ hτ1 hα hA h1 r3
  obtain ⟨a4, b4⟩ := rot_one H hτ hτ1 hβ hB h2 r4
  have u0 := ulpHalf_pos (f := f)
  have hη := H.eta_le_u
  norm_num at hη
  have k5 := r5.err2
  have hs : |n3 - n4| ≤ 2.64 := (abs_sub _ _).trans (by linarith)
  have := mul_le_mul_of_nonneg_left hs u0.le
  have e : cs - (A * q1 + -B * q2) = (cs - (n3 - n4)) + ((n3 - A * q1) - (n4 - B * q2)) := by ring
  rw [e]
  refine (abs_add_le _ _).trans ((add_le_add le_rfl (abs_sub _ _)).trans ?_)
  rw [abs_sub_comm cs]
  linarith

theorem rot_abs {A B a c m : ℝ} (h : A ^ 2 + B ^ 2 = 1) (hm : 0 ≤ m) (hac : a ^ 2 + c ^ 2 ≤ m ^ 2) : |A * a + B * c| ≤ m := by
  refine abs_le_of_sq_le_sq ?_ hm
  nlinarith [sq_nonneg (A * c - B * a)]

set_option maxHeartbeats 1000000 in
/-- A coordinate of the plane point. -/
theorem point_err (H : Fine f) {τ : ℝ} (hτ : 5 * ulpHalf f ≤ τ) (hτ1 : τ ≤ 1 / 2 ^ 16) {X Y ρ W x y z q1 q2 A B cs r w T : ℝ} (hρ : X ^ 2 + Y ^ 2 = ρ ^ 2) (hρ0 : 0 ≤ ρ)
    (hρW : ρ ^ 2 + W ^ 2 = 1) (hW : 0.54 ≤ W) (hx : |x - X| ≤ 12 * τ) (hy : |y - Y| ≤ 8 * τ) (hAB : A ^ 2 + B ^ 2 = 1) (hz0 : 0 < z)
    (hz : |z - Real.sqrt (x ^ 2 + y ^ 2)| ≤ 4 * ulpHalf f * Real.sqrt (x ^ 2 + y ^ 2) + ulpHalf f)
    (hxz : |x / z| ≤ 1.3) (hyz : |y / z| ≤ 1.3) (r1 : Rn f (x / z) q1) (r2 : Rn f (y / z) q2) (hcs : |cs - (A * q1 + B * q2)| ≤ 4 * τ) (hT : 1 ≤ T)
    (hr : |r - T * (ρ / W / H3.res0)| ≤ 131 * τ * T) (rw' : Rn f (cs * r) w) :
    |w - T / H3.res0 / W * (A * X + B * Y)| ≤ 480 * τ * T ∧ |w| ≤ 8 * T := by
  have u0 := ulpHalf_pos (f := f)
  have n0 := eta_pos (f := f)
  have hη := H.eta_le_u
  have hu := H.hu
  have k1 := r1.err2
  have k2 := r2.err2
  have k3 := rw'.err2
  obtain ⟨c1, c2⟩ := res0_bounds
  generalize ulpHalf f = u at *
  generalize eta f = η at *
  generalize H3.res0 = k at *
  norm_num at hη hτ1 hxz hyz c1 c2 hW hu
  have τ0 : 0 < τ := by linarith
  have hρ1 : ρ ≤ 0.842 := abs_le_of_sq_le_sq' (by norm_num; nlinarith) (by norm_num) |>.2
  -- the length
  have hl : |Real.sqrt (x ^ 2 + y ^ 2) - ρ| ≤ 14.5 * τ := by
    have hx' := abs_le.1 hx
    have hy' := abs_le.1 hy
    have hd : (x - X) ^ 2 + (y - Y) ^ 2 ≤ (14.5 * τ) ^ 2 := by
      have h1 : (x - X) ^ 2 ≤ (12 * τ) ^ 2 := sq_le_sq' hx'.1 hx'.2
      have h2 : (y - Y) ^ 2 ≤ (8 * τ) ^ 2 := sq_le_sq' hy'.1 hy'.2
      nlinarith
    have s0 := Real.sqrt_nonneg (x ^ 2 + y ^ 2)
    have sq := Real.sq_sqrt (show 0 ≤ x ^ 2 + y ^ 2 by positivity)
    generalize Real.sqrt (x ^ 2 + y ^ 2) = s at *
    refine abs_le_of_sq_le_sq ?_ (by positivity)
    have hin : x * X + y * Y ≤ s * ρ := by
      refine abs_le_of_sq_le_sq' ?_ (by positivity) |>.2
      rw [mul_pow, sq, ← hρ]
      linarith [sq_nonneg (x * Y - y * X), (by ring : (x ^ 2 + y ^ 2) * (X ^ 2 + Y ^ 2) = (x * X + y * Y) ^ 2 + (x * Y - y * X) ^ 2)]
    linarith [(by ring : (s - ρ) ^ 2 = s ^ 2 + ρ ^ 2 - 2 * (s * ρ)), (by ring : (x - X) ^ 2 + (y - Y) ^ 2 = (x ^ 2 + y ^ 2) + (X ^ 2 + Y ^ 2) - 2 * (x * X + y * Y))]
  have hl' := abs_le.1 hl
  have s0 := Real.sqrt_nonneg (x ^ 2 + y ^ 2)
  generalize Real.sqrt (x ^ 2 + y ^ 2) = s at *
  have s1 : s ≤ 0.85 := by linarith
  have hzs : |z - s| ≤ 4.4 * u := by
    have := mul_le_mul_of_nonneg_left s1 u0.le
    linarith
  have hzρ : |ρ - z| ≤ 15.4 * τ := by
    rw [abs_sub_comm]
    refine (abs_sub_le _ s _).trans ?_
    linarith
  have z1 : z ≤ 0.86 := by have := (abs_le.1 hzs).2; linarith
  -- the quotients
  have quot : ∀ {t q : ℝ}, |t / z| ≤ 13 / 10 → |t / z - q| ≤ u * |t / z| + η → |q| ≤ 1.31 ∧ |z * q - t| ≤ 0.24 * τ := by
    intro t q h k
    have e1 := mul_le_mul_of_nonneg_left h u0.le
    have e2 : |t / z - q| ≤ 1.31 * u := by linarith
    refine ⟨?_, ?_⟩
    · have := abs_sub (t / z) (t / z - q)
      rw [sub_sub_cancel] at this
      linarith
    · have : z * q - t = -(z * (t / z - q)) := by field_simp; ring
      rw [this, abs_neg, abs_mul, abs_of_pos hz0]
      have := mul_le_mul z1 e2 (abs_nonneg _) (by norm_num)
      linarith
  obtain ⟨b1, d1⟩ := quot hxz k1
  obtain ⟨b2, d2⟩ := quot hyz k2
  have sqb : ∀ {t m : ℝ}, |t| ≤ m → t ^ 2 ≤ m ^ 2 := by
    intro t m h
    rw [← sq_abs]
    exact pow_le_pow_left₀ (abs_nonneg _) h 2
  have hC : |A * q1 + B * q2| ≤ 1.86 := rot_abs hAB (by norm_num) (by have := sqb b1; have := sqb b2; norm_num at *; linarith)
  have hD : |A * (z * q1 - x) + B * (z * q2 - y)| ≤ 0.34 * τ := rot_abs hAB (by positivity) (by have := sqb d1; have := sqb d2; nlinarith)
  have hE : |A * (x - X) + B * (y - Y)| ≤ 14.5 * τ := rot_abs hAB (by positivity) (by have := sqb hx; have := sqb hy; nlinarith)
  have hP : |ρ * (A * q1 + B * q2) - (A * X + B * Y)| ≤ 43.6 * τ := by
    have : ρ * (A * q1 + B * q2) - (A * X + B * Y) = (ρ - z) * (A * q1 + B * q2) + (A * (z * q1 - x) + B * (z * q2 - y)) + (A * (x - X) + B * (y - Y)) := by ring
    rw [this]
    refine (abs_add_le _ _).trans ((add_le_add (abs_add_le _ _) le_rfl).trans ?_)
    rw [abs_mul]
    have := mul_le_mul hzρ hC (abs_nonneg _) (by positivity)
    linarith
  have hK : 1 / k / W ≤ 4.85 := by
    rw [div_div, div_le_iff₀ (by positivity)]
    nlinarith
  have hK0 : 0 ≤ 1 / k / W := by positivity
  have hR : ρ / W / k ≤ 4.09 := by
    have : ρ / W / k = ρ * (1 / k / W) := by field_simp
    rw [this]
    have := mul_le_mul hρ1 hK hK0 (by norm_num)
    linarith
  have hR0 : 0 ≤ ρ / W / k := by positivity
  have hr' : |r| ≤ 4.1 * T := by
    have h1 := abs_add_le (r - T * (ρ / W / k)) (T * (ρ / W / k))
    rw [sub_add_cancel, abs_of_nonneg (show 0 ≤ T * (ρ / W / k) by positivity)] at h1
    have h2 : T * (ρ / W / k) ≤ T * 4.09 := mul_le_mul_of_nonneg_left hR (by linarith)
    have h3 : 131 * τ * T ≤ 0.005 * T := mul_le_mul_of_nonneg_right (by linarith) (by linarith)
    linarith
  have hcs1 : |cs| ≤ 1.87 := by
    have h1 := abs_add_le (cs - (A * q1 + B * q2)) (A * q1 + B * q2)
    rw [sub_add_cancel] at h1
    linarith
  have hcr : |cs * r| ≤ 7.7 * T := by
    rw [abs_mul]
    have := mul_le_mul hcs1 hr' (abs_nonneg _) (by norm_num)
    linarith
  have hur := mul_le_mul_of_nonneg_left hcr u0.le
  have hTτ : τ ≤ τ * T := by nlinarith
  have huT : u * T ≤ τ * T / 5 := by nlinarith
  have hw1 : |cs * r - w| ≤ 1.6 * τ * T := by linarith
  have hw2 : |cs * r - T / k / W * (A * X + B * Y)| ≤ 477 * τ * T := by
    have e : cs * r - T / k / W * (A * X + B * Y) = (cs - (A * q1 + B * q2)) * r + (A * q1 + B * q2) * (r - T * (ρ / W / k)) +
        T * (1 / k / W) * (ρ * (A * q1 + B * q2) - (A * X + B * Y)) := by field_simp; ring
    rw [e]
    refine (abs_add_le _ _).trans ((add_le_add (abs_add_le _ _) le_rfl).trans ?_)
    rw [abs_mul, abs_mul, abs_mul, abs_of_nonneg (show 0 ≤ T * (1 / k / W) by positivity)]
    have p1 := mul_le_mul hcs hr' (abs_nonneg _) (by positivity)
    have p2 := mul_le_mul hC hr (abs_nonneg _) (by norm_num)
    have p3 : T * (1 / k / W) ≤ T * 4.85 := mul_le_mul_of_nonneg_left hK (by linarith)
    have p4 := mul_le_mul p3 hP (abs_nonneg _) (by positivity)
    have : 0 ≤ τ * T := by positivity
    linarith
  constructor
  · refine (abs_sub_le _ (cs * r) _).trans ?_
    rw [abs_sub_comm w]
    have : 0 ≤ τ * T := by positivity
    linarith
  · have h1 := abs_sub (cs * r) (cs * r - w)
    rw [sub_sub_cancel] at h1
    have : 1.6 * τ * T ≤ 0.1 * T := mul_le_mul_of_nonneg_right (by linarith) (by linarith)
    linarith

/-- The quotients stay small after rounding. -/
theorem quot_le (H : Fine f) {t q : ℝ} (h : |t| ≤ 1.3) (hr : Rn f t q) : |q| ≤ 1.31 := by
  have u0 := ulpHalf_pos (f := f)
  have hu := H.hu
  have hη := H.eta_le
  have k := hr.err2
  norm_num at hu hη h
  have := mul_le_mul_of_nonneg_left h u0.le
  have h1 := abs_sub t (t - q)
  rw [sub_sub_cancel] at h1
  linarith

/-- A length that rounds to zero is tiny. -/
theorem length_zero (H : Fine f) {x y xx yy : ℝ} (rx : Rn f (x * x) xx) (ry : Rn f (y * y) yy) (rz : Rn f (xx + yy) 0) :
    |x| ≤ ulpHalf f ∧ |y| ≤ ulpHalf f := by
  have hu := H.hu
  have u0 := ulpHalf_pos (f := f)
  have n0 := eta_pos (f := f)
  have ht := H.tiny
  have x0 : 0 ≤ xx := rx.pos (mul_self_nonneg x)
  have y0 : 0 ≤ yy := ry.pos (mul_self_nonneg y)
  have hx : xx ≤ 0 := rz.ge (by have := rx.repr; rwa [abs_of_nonneg x0] at this) (by linarith)
  have hy : yy ≤ 0 := rz.ge (by have := ry.repr; rwa [abs_of_nonneg y0] at this) (by linarith)
  have key : ∀ {t tt : ℝ}, Rn f (t * t) tt → tt = 0 → |t| ≤ ulpHalf f := by
    intro t tt h h0
    subst h0
    have k := h.err2
    rw [sub_zero, abs_of_nonneg (mul_self_nonneg t)] at k
    norm_num at hu ht
    refine abs_le_of_sq_le_sq ?_ u0.le
    have : ulpHalf f * (t * t) ≤ 1 / 1048576 * (t * t) := mul_le_mul_of_nonneg_right hu (mul_self_nonneg t)
    nlinarith
  exact ⟨key rx (le_antisymm hx x0), key ry (le_antisymm hy y0)⟩

end ZkLoc
