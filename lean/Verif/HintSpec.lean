import Verif.Hints
import Verif.RealErr
import Verif.RealExists
import Verif.RealOps
import Mathlib.Analysis.Real.Pi.Bounds
import Mathlib.Analysis.SpecialFunctions.Trigonometric.Bounds

/-!
# Helper lemmas: the numbers that the hint functions compute
-/

namespace ZkLoc.Hints

open Ieee

variable {L : Libm} {ε : ℝ}

/-! ### Data of a format -/

theorem decode_fin {F : Format} {n : ℕ} {s : Bool} {a : ℝ} (h : decodeBits F n = .fin s a) : Representable F a := by
  have hm : n % 2 ^ F.M < 2 ^ F.M := Nat.mod_lt _ (by positivity)
  unfold decodeBits at h
  simp only at h
  split_ifs at h with h1 h2 h3
  · obtain ⟨_, rfl⟩ := Datum.fin.inj h
    exact ⟨n % 2 ^ F.M, F.qmin, by rw [pow_succ]; omega, le_rfl, by push_cast; rfl⟩
  · obtain ⟨_, rfl⟩ := Datum.fin.inj h
    refine ⟨2 ^ F.M + n % 2 ^ F.M, _, by rw [pow_succ]; omega, ?_, by push_cast; rfl⟩
    unfold Format.qmin Format.emin
    have : 1 ≤ n / 2 ^ F.M % 2 ^ F.E := Nat.one_le_iff_ne_zero.2 h3
    have : (1:ℤ) ≤ ((n / 2 ^ F.M % 2 ^ F.E : ℕ) : ℤ) := by exact_mod_cast this
    push_cast at this ⊢
    linarith

theorem IsDouble.repr {s : Bool} {a : ℝ} (h : IsDouble (.fin s a)) : Representable F64 a := by
  obtain ⟨n, _, h⟩ := h
  exact decode_fin h

/-- Every rounded number is held by a bit pattern. -/
theorem roundsTo_decode {F : Format} (hE : 2 ≤ F.E) {s : Bool} {v : ℝ} {d : Datum} (h : RoundsTo F s v d) : ∃ n < 2 ^ (1 + F.E + F.M), decodeBits F n = d := by
  obtain ⟨r, h1, h2, h3⟩ := h
  have hP : 0 < 2 ^ F.M := by positivity
  have hQ : 4 ≤ 2 ^ F.E := le_trans (by norm_num) (Nat.pow_le_pow_right (n := 2) (by norm_num) hE)
  have key : ∀ (e m : ℕ), e < 2 ^ F.E → m < 2 ^ F.M → ∃ n < 2 ^ (1 + F.E + F.M), n.testBit (F.E + F.M) = s ∧ n / 2 ^ F.M % 2 ^ F.E = e ∧ n % 2 ^ F.M = m := by
    intro e m he hm
    have h0 : e * 2 ^ F.M + m < 2 ^ (F.E + F.M) := by
      have : (e + 1) * 2 ^ F.M ≤ 2 ^ F.E * 2 ^ F.M := Nat.mul_le_mul_right _ he
      rw [pow_add]; linarith
    refine ⟨s.toNat * 2 ^ (F.E + F.M) + (e * 2 ^ F.M + m), ?_, ?_, ?_, ?_⟩
    · have : s.toNat ≤ 1 := Bool.toNat_le s
      have := Nat.mul_le_mul_right (2 ^ (F.E + F.M)) this
      rw [show 1 + F.E + F.M = F.E + F.M + 1 by ring, pow_succ]; omega
    · rw [Nat.testBit_eq_decide_div_mod_eq, mul_comm, Nat.mul_add_div (by positivity), Nat.div_eq_of_lt h0]
      cases s <;> simp
    · rw [pow_add, show s.toNat * (2 ^ F.E * 2 ^ F.M) + (e * 2 ^ F.M + m) = 2 ^ F.M * (s.toNat * 2 ^ F.E + e) + m by ring,
        Nat.mul_add_div hP, Nat.div_eq_of_lt hm, add_zero, add_comm, Nat.add_mul_mod_self_right, Nat.mod_eq_of_lt he]
    · rw [pow_add, show s.toNat * (2 ^ F.E * 2 ^ F.M) + (e * 2 ^ F.M + m) = m + (s.toNat * 2 ^ F.E + e) * 2 ^ F.M by ring,
        Nat.add_mul_mod_self_right, Nat.mod_eq_of_lt hm]
  rcases lt_or_ge r (2 ^ (F.bias + 1)) with hr | hr
  · rw [h2 hr]
    obtain ⟨n, k, hn, hk, hnk, rfl⟩ := h1.repr.normalised
    by_cases hn2 : 2 ^ F.M ≤ n
    · have hkt : k + F.M ≤ F.bias := by
        by_contra hc
        have e1 : (2:ℝ) ^ (F.bias + 1) ≤ 2 ^ (k + F.M) := zpow_le_zpow_right₀ (by norm_num) (by omega)
        have e2 : ((2 ^ F.M : ℕ) : ℝ) * 2 ^ k ≤ n * 2 ^ k := mul_le_mul_of_nonneg_right (by exact_mod_cast hn2) (by positivity)
        rw [zpow_add₀ (by norm_num) k, zpow_natCast] at e1
        push_cast at e2
        rw [mul_comm] at e1
        linarith
      obtain ⟨e, he⟩ : ∃ e : ℕ, k = e + 1 + F.qmin - 1 := ⟨(k - F.qmin).toNat, by omega⟩
      have hb : ((2 ^ F.E : ℕ) : ℤ) = 2 * (F.bias + 1) := by
        unfold Format.bias
        obtain ⟨E', hE'⟩ : ∃ E', F.E = E' + 1 := ⟨F.E - 1, by omega⟩
        rw [hE']; simp [pow_succ]; ring
      have hq : F.qmin = 1 - F.bias - F.M := rfl
      obtain ⟨N, h5, h6, h7, h8⟩ := key (e + 1) (n - 2 ^ F.M) (by omega) (by rw [pow_succ] at hn; omega)
      refine ⟨N, h5, ?_⟩
      unfold decodeBits
      simp only
      have g1 : ¬ (e + 1 = 2 ^ F.E - 1) := by omega
      rw [h6, h7, h8, if_neg g1, if_neg (Nat.succ_ne_zero e)]
      congr 2
      · rw [Nat.cast_sub hn2]; push_cast; ring
      · rw [he, hq]; push_cast; congr 1; ring
    · obtain rfl : k = F.qmin := by tauto
      obtain ⟨N, h5, h6, h7, h8⟩ := key 0 n (by positivity) (by omega)
      refine ⟨N, h5, ?_⟩
      unfold decodeBits
      simp only
      rw [h6, h7, h8, if_neg (by omega), if_pos rfl]
  · rw [h3 hr]
    obtain ⟨N, h5, h6, h7, h8⟩ := key (2 ^ F.E - 1) 0 (by omega) hP
    refine ⟨N, h5, ?_⟩
    unfold decodeBits
    simp only
    rw [h6, h7, h8, if_pos rfl, if_pos rfl]

theorem roundsTo_exists {F : Format} (hM : 1 ≤ F.M) (s : Bool) {v : ℝ} (hv : 0 ≤ v) : ∃ d, RoundsTo F s v d := by
  obtain ⟨r, _, h⟩ := exists_isRNE hM hv
  rcases lt_or_ge r (2 ^ (F.bias + 1)) with hr | hr
  · exact ⟨.fin s r, r, h, fun _ => rfl, fun h' => absurd hr (not_lt.2 h')⟩
  · exact ⟨.inf s, r, h, fun h' => absurd h' (not_lt.2 hr), fun _ => rfl⟩

/-- A rounding that cannot overflow. -/
theorem RoundsTo.fin {F : Format} {s : Bool} {v q : ℝ} {d : Datum} (h : RoundsTo F s v d) (hv0 : 0 ≤ v) (hq : Representable F q) (hv : v ≤ q) (hq' : q < 2 ^ (F.bias + 1)) :
    ∃ r, d = .fin s r ∧ IsRNE F v r ∧ 0 ≤ r ∧ r ≤ q ∧ |v - r| ≤ 2 ^ (-(F.M:ℤ) - 1) * v + 2 ^ (F.qmin - 1) := by
  obtain ⟨r, h1, h2, _⟩ := h
  have hr := h1.le_of_le hq hv
  have h0 := h1.repr.nonneg
  refine ⟨r, h2 (hr.trans_lt hq'), h1, h0, hr, ?_⟩
  have := (Rounds.of_signed (s := false) hv0 h1).err
  simpa [signed, abs_of_nonneg hv0] using this

/-! ### The cosine of a double is not small -/

theorem pi_near : (3.14159265358979323846 : ℝ) < Real.pi ∧ Real.pi < 3.14159265358979323847 := ⟨Real.pi_gt_d20, Real.pi_lt_d20⟩

theorem cos_lower {a : ℝ} (h : Representable F64 a) (h2 : a ≤ 2) : 1 / 2 ^ 55 ≤ |Real.cos a| := by
  have h0 := h.nonneg
  obtain ⟨p1, p2⟩ := pi_near
  have key : ∀ y : ℝ, |y| ≤ Real.pi / 2 → |y| / 2 ≤ |Real.sin y| := by
    intro y hy
    have h3 := Real.mul_le_sin (abs_nonneg y) hy
    have h4 : |y| / 2 ≤ 2 / Real.pi * |y| := by
      rw [div_mul_eq_mul_div, le_div_iff₀ (by linarith)]
      nlinarith [abs_nonneg y]
    have h5 : Real.sin |y| ≤ |Real.sin y| := by
      rcases abs_cases y with ⟨e, _⟩ | ⟨e, _⟩ <;> rw [e]
      · exact le_abs_self _
      · rw [Real.sin_neg]; exact neg_le_abs _
    linarith
  have hd : 1 / 2 ^ 54 ≤ |Real.pi / 2 - a| := by
    rcases le_total a 1 with h1 | h1
    · rw [abs_of_nonneg (by linarith)]; norm_num; linarith
    · obtain ⟨n, rfl⟩ := h.multiple (k := -52) (.inr (by norm_num; linarith))
      have e : ((2:ℝ) ^ (-52 : ℤ)) = 1 / 2 ^ 52 := by rw [zpow_neg]; norm_num
      rw [e] at *
      rcases Nat.lt_or_ge 7074237752028440 n with hn | hn
      · have hn' : (7074237752028441 : ℝ) ≤ n := by exact_mod_cast hn
        generalize (n:ℝ) = m at *
        rw [abs_of_nonpos] <;> linarith
      · have hn' : (n : ℝ) ≤ 7074237752028440 := by exact_mod_cast hn
        generalize (n:ℝ) = m at *
        rw [abs_of_nonneg] <;> linarith
  have := key (Real.pi / 2 - a) (by rw [abs_le]; constructor <;> linarith)
  rw [Real.sin_pi_div_two_sub] at this
  norm_num at *
  linarith

theorem cos_signed (s : Bool) (a : ℝ) : Real.cos (signed s a) = Real.cos a := by cases s <;> simp [signed]

theorem tan_upper {a : ℝ} (s : Bool) (h : Representable F64 a) (h2 : a ≤ 2) : |Real.tan (signed s a)| ≤ 2 ^ 55 := by
  rw [Real.tan_eq_sin_div_cos, abs_div, cos_signed]
  have h3 := cos_lower h h2
  have h4 := Real.abs_sin_le_one (signed s a)
  rw [div_le_iff₀ (lt_of_lt_of_le (by positivity) h3)]
  have : (2:ℝ) ^ 55 * (1 / 2 ^ 55) ≤ 2 ^ 55 * |Real.cos a| := mul_le_mul_of_nonneg_left h3 (by positivity)
  norm_num at this h4 ⊢
  linarith


/-! ### The four numbers -/

/-- The numbers `± A`, `± B`, `± C`, `± D` are near the tangent, the sine of the double, the sine and the cosine of `h`, and their signs agree. -/
structure Near (η u w h : ℝ) (sg sd : Bool) (A B C D : ℝ) : Prop where
  tan_le : |Real.tan h| ≤ 2 ^ 55
  cos_ne : Real.cos h ≠ 0
  a0 : 0 ≤ A
  b0 : 0 ≤ B
  c0 : 0 ≤ C
  d0 : 0 ≤ D
  alpha : |signed (xor sg sd) A - Real.tan h| ≤ u * |Real.tan h| + η
  beta : |signed (xor sg sd) B - Real.sin (2 * h)| ≤ w
  gamma : |signed sg C - Real.sin h| ≤ u * |Real.sin h| + η
  delta : |signed sd D - Real.cos h| ≤ u * |Real.cos h| + η

/-- Products of approximate numbers. -/
theorem product_near {x y X Y u η P : ℝ} (hx : |x - X| ≤ u * |X| + η) (hy : |y - Y| ≤ u * |Y| + η) (hu : 0 ≤ u) (hη : 0 ≤ η) (hP : |X * Y| ≤ P) :
    |x * y - X * Y| ≤ (2 * u + u ^ 2) * P + η * (1 + u) * (|X| + |Y|) + η ^ 2 := by
  have e : x * y - X * Y = (x - X) * (y - Y) + (x - X) * Y + X * (y - Y) := by ring
  rw [e]
  refine (abs_add_three _ _ _).trans ?_
  rw [abs_mul, abs_mul, abs_mul]
  rw [abs_mul] at hP
  have k1 : |x - X| * |y - Y| ≤ (u * |X| + η) * (u * |Y| + η) := mul_le_mul hx hy (abs_nonneg _) (by positivity)
  have k2 : |x - X| * |Y| ≤ (u * |X| + η) * |Y| := mul_le_mul_of_nonneg_right hx (abs_nonneg _)
  have k3 : |X| * |y - Y| ≤ |X| * (u * |Y| + η) := mul_le_mul_of_nonneg_left hy (abs_nonneg _)
  have k4 : (2 * u + u ^ 2) * (|X| * |Y|) ≤ (2 * u + u ^ 2) * P := mul_le_mul_of_nonneg_left hP (by positivity)
  nlinarith

theorem eta_small {k : ℤ} (h : k ≤ -140) : (2:ℝ) ^ k ≤ 1 / 2 ^ 140 := by
  rw [show (1:ℝ) / 2 ^ 140 = 2 ^ (-140 : ℤ) by rw [zpow_neg]; norm_num]
  exact zpow_le_zpow_right₀ (by norm_num) h

theorem qmin64 : F64.qmin = -1074 := by norm_num [Format.qmin, Format.emin, Format.bias]
theorem qmin32 : F32.qmin = -149 := by norm_num [Format.qmin, Format.emin, Format.bias]
theorem bias64 : F64.bias = 1023 := by norm_num [Format.bias]
theorem bias32 : F32.bias = 127 := by norm_num [Format.bias]

theorem pow_repr {F : Format} {k : ℕ} (hq : F.qmin ≤ 0) : Representable F (2 ^ k) :=
  ⟨1, k, Nat.one_lt_two_pow (by omega), by omega, by simp⟩

/-- Rounding to double of a number of moderate size. -/
theorem round64 {s : Bool} {v : ℝ} {d : Datum} (h : RoundsTo F64 s v d) (hv0 : 0 ≤ v) {k : ℕ} (hk : k ≤ 1000) (hv : v ≤ 2 ^ k) :
    ∃ r, d = .fin s r ∧ IsRNE F64 v r ∧ 0 ≤ r ∧ r ≤ 2 ^ k ∧ |r - v| ≤ 1 / 2 ^ 53 * v + 1 / 2 ^ 140 := by
  obtain ⟨r, h1, h2, h3, h4, h5⟩ := RoundsTo.fin h hv0 (pow_repr (by rw [qmin64]; norm_num)) hv
    (by rw [bias64, ← zpow_natCast]; exact zpow_lt_zpow_right₀ (by norm_num) (by omega))
  refine ⟨r, h1, h2, h3, h4, ?_⟩
  rw [abs_sub_comm] at h5
  have := eta_small (k := F64.qmin - 1) (by rw [qmin64]; norm_num)
  have e : (2:ℝ) ^ (-((F64.M : ℕ):ℤ) - 1) = 1 / 2 ^ 53 := by
    rw [show (-((F64.M : ℕ):ℤ) - 1) = -53 by norm_num, zpow_neg]; norm_num
  rw [e] at h5
  linarith

theorem round32 {s : Bool} {v : ℝ} {d : Datum} (h : RoundsTo F32 s v d) (hv0 : 0 ≤ v) {k : ℕ} (hk : k ≤ 120) (hv : v ≤ 2 ^ k) :
    ∃ r, d = .fin s r ∧ IsRNE F32 v r ∧ 0 ≤ r ∧ r ≤ 2 ^ k ∧ |r - v| ≤ 1 / 2 ^ 24 * v + 1 / 2 ^ 145 := by
  obtain ⟨r, h1, h2, h3, h4, h5⟩ := RoundsTo.fin h hv0 (pow_repr (by rw [qmin32]; norm_num)) hv
    (by rw [bias32, ← zpow_natCast]; exact zpow_lt_zpow_right₀ (by norm_num) (by omega))
  refine ⟨r, h1, h2, h3, h4, ?_⟩
  rw [abs_sub_comm] at h5
  have : (2:ℝ) ^ (F32.qmin - 1) ≤ 1 / 2 ^ 145 := by
    rw [show (1:ℝ) / 2 ^ 145 = 2 ^ (-145 : ℤ) by rw [zpow_neg]; norm_num]
    exact zpow_le_zpow_right₀ (by norm_num) (by rw [qmin32]; norm_num)
  have e : (2:ℝ) ^ (-((F32.M : ℕ):ℤ) - 1) = 1 / 2 ^ 24 := by
    rw [show (-((F32.M : ℕ):ℤ) - 1) = -24 by norm_num, zpow_neg]; norm_num
  rw [e] at h5
  linarith

theorem abs_signed_sub (s : Bool) (a c : ℝ) : |signed s a - signed s c| = |a - c| := by
  cases s <;> simp [signed]
  rw [← abs_neg]; ring_nf

/-- The sign of the tangent. -/
theorem sign_tan {h : ℝ} (hh : |h| ≤ 2) {s sg sd st : Bool} (hc : Real.cos h ≠ 0)
    (hg : (Real.sin h < 0 → sg = true) ∧ (0 < Real.sin h → sg = false) ∧ (Real.sin h = 0 → sg = s))
    (hd : (Real.cos h < 0 → sd = true) ∧ (0 < Real.cos h → sd = false) ∧ (Real.cos h = 0 → sd = s))
    (ht : (Real.tan h < 0 → st = true) ∧ (0 < Real.tan h → st = false) ∧ (Real.tan h = 0 → st = s)) : st = xor sg sd := by
  have e := Real.tan_eq_sin_div_cos h
  rcases lt_trichotomy (Real.sin h) 0 with h1 | h1 | h1
  · rcases lt_or_gt_of_ne hc with h2 | h2
    · rw [ht.2.1 (by rw [e]; exact div_pos_of_neg_of_neg h1 h2), hg.1 h1, hd.1 h2]; rfl
    · rw [ht.1 (by rw [e]; exact div_neg_of_neg_of_pos h1 h2), hg.1 h1, hd.2.1 h2]; rfl
  · have h0 : h = 0 := by
      obtain ⟨n, hn⟩ := Real.sin_eq_zero_iff.1 h1
      obtain ⟨p1, p2⟩ := pi_near
      have : |(n:ℝ)| * Real.pi ≤ 2 := by rw [← hn, abs_mul, abs_of_pos Real.pi_pos] at hh; exact hh
      have h3 : |(n:ℝ)| < 1 := by nlinarith [abs_nonneg (n:ℝ)]
      have h4 : |n| < 1 := by exact_mod_cast h3
      rw [← hn, Int.abs_lt_one_iff.1 h4]; simp
    rw [ht.2.2 (by rw [e, h1, zero_div]), hg.2.2 h1, hd.2.1 (by rw [h0]; simp)]
    simp
  · rcases lt_or_gt_of_ne hc with h2 | h2
    · rw [ht.1 (by rw [e]; exact div_neg_of_pos_of_neg h1 h2), hg.2.1 h1, hd.1 h2]; rfl
    · rw [ht.2.1 (by rw [e]; exact div_pos h1 h2), hg.2.1 h1, hd.2.1 h2]; rfl

/-- Doubling commutes with rounding above the subnormal range. -/
theorem IsRNE.double {F : Format} {v r : ℝ} (h : IsRNE F v r) (hv : 2 ^ F.emin ≤ v) : IsRNE F (2 * v) (2 * r) := by
  have two : ∀ {q : ℝ}, Representable F q → Representable F (2 * q) := by
    rintro q ⟨n, k, hn, hk, rfl⟩
    exact ⟨n, k + 1, hn, by omega, by rw [zpow_add_one₀ (by norm_num)]; ring⟩
  have hmin : Representable F (2 ^ F.emin) := by
    refine ⟨2 ^ F.M, F.qmin, by rw [pow_succ]; have : 0 < 2 ^ F.M := by positivity
                                omega, le_rfl, ?_⟩
    rw [show F.emin = F.M + F.qmin by unfold Format.qmin; ring, zpow_add₀ (by norm_num), zpow_natCast]; push_cast; rfl
  have hr := h.ge_of_ge hmin hv
  have key : ∀ q, Representable F q → (∃ q', Representable F q' ∧ q = 2 * q') ∨ q < 2 * 2 ^ F.emin := by
    rintro q ⟨n, k, hn, hk, rfl⟩
    rcases eq_or_lt_of_le hk with rfl | hk
    · right
      have : (n:ℝ) < 2 ^ (F.M + 1) := by exact_mod_cast hn
      have e : (2:ℝ) * 2 ^ F.emin = 2 ^ (F.M + 1) * 2 ^ F.qmin := by
        rw [show F.emin = F.M + F.qmin by unfold Format.qmin; ring, zpow_add₀ (by norm_num), zpow_natCast]; ring
      rw [e]
      exact mul_lt_mul_of_pos_right this (by positivity)
    · exact .inl ⟨n * 2 ^ (k - 1), ⟨n, k - 1, hn, by omega, rfl⟩, by rw [zpow_sub_one₀ (by norm_num)]; ring⟩
  have dbl : ∀ x y : ℝ, |2 * x - 2 * y| = 2 * |x - y| := fun x y => by rw [← mul_sub, abs_mul, abs_two]
  have low : ∀ q, q < 2 * 2 ^ F.emin → |2 * v - 2 * r| < |2 * v - q| := by
    intro q hq
    have h1 := h.nearest _ hmin
    rw [abs_of_nonneg (by linarith : (0:ℝ) ≤ v - 2 ^ F.emin)] at h1
    rw [dbl, abs_of_nonneg (by linarith : (0:ℝ) ≤ 2 * v - q)]
    linarith
  refine ⟨two h.repr, fun q hq => ?_, fun q hq hne he => ?_⟩
  · rcases key q hq with ⟨q', hq', rfl⟩ | hlt
    · rw [dbl, dbl]; have := h.nearest q' hq'; linarith
    · exact (low q hlt).le
  · rcases key q hq with ⟨q', hq', rfl⟩ | hlt
    · rw [dbl, dbl] at he
      obtain ⟨n, k, hn, hk, hnk, hev, hrr⟩ := h.tie q' hq' (fun h => hne (by rw [h])) (by linarith)
      refine ⟨n, k + 1, hn, by omega, .inl ?_, hev, by rw [hrr, zpow_add_one₀ (by norm_num)]; ring⟩
      rcases hnk with hnk | rfl
      · exact hnk
      · by_contra hc
        have h1 : (n:ℝ) < 2 ^ F.M := by exact_mod_cast not_le.1 hc
        have h2 : (n:ℝ) * 2 ^ F.qmin < 2 ^ F.M * 2 ^ F.qmin := mul_lt_mul_of_pos_right h1 (by positivity)
        rw [hrr, show F.emin = F.M + F.qmin by unfold Format.qmin; ring, zpow_add₀ (by norm_num), zpow_natCast] at hr
        linarith
    · exact absurd he (low q hlt).ne'

theorem Representable.double {F : Format} {q : ℝ} (h : Representable F q) : Representable F (2 * q) := by
  obtain ⟨n, k, hn, hk, rfl⟩ := h
  exact ⟨n, k + 1, hn, by omega, by rw [zpow_add_one₀ (by norm_num)]; ring⟩

/-- What the intermediate `float64` numbers are. -/
theorem quad_near (acc : L.Accurate ε) (h0 : 0 ≤ ε) (h1 : ε ≤ 1 / 2 ^ 10) {s : Bool} {x : ℝ} (hx : Representable F64 x) (hx4 : x ≤ 4) {a b c d : Datum}
    (Q : Quad L (.fin s x) a b c d) : ∃ h sg sd A B C D, |h - signed s x / 2| ≤ 1 / 2 ^ 140 ∧ a = .fin (xor sg sd) A ∧ b = .fin (xor sg sd) B ∧ c = .fin sg C ∧
      d = .fin sd D ∧ (x = 0 → C = 0) ∧ IsRNE F64 (2 * (C * D)) B ∧ Near (1 / 2 ^ 140) ε (3 * ε + 5 / 2 ^ 53) h sg sd A B C D := by
  obtain ⟨half, twice, q1, rfl, rfl, rfl, q2, q3⟩ := Q
  have x0 := hx.nonneg
  obtain ⟨y, rfl, hy, y0, y2, hye⟩ := round64 (k := 1) q1 (by positivity) (by norm_num) (by norm_num; linarith)
  have hyr := hy.repr
  norm_num at y2
  obtain ⟨sg, C, eC, hC, gC⟩ := acc.sin (xor s false) y hyr y2
  obtain ⟨sd, D, eD, hD, gD⟩ := acc.cos (xor s false) y hyr y2
  obtain ⟨st, A, eA, hA, gA⟩ := acc.tan (xor s false) y hyr y2
  have rC := (eC ▸ L.sin_double (.fin (xor s false) y)).repr
  have rD := (eD ▸ L.cos_double (.fin (xor s false) y)).repr
  have rA := (eA ▸ L.tan_double (.fin (xor s false) y)).repr
  have hne : Real.cos (signed (xor s false) y) ≠ 0 := by
    intro hc
    have := cos_lower hyr y2
    rw [← cos_signed (xor s false), hc] at this
    norm_num at this
  have ht := tan_upper (xor s false) hyr y2
  have hst : st = xor sg sd := sign_tan (by rw [signed_abs _ y0]; exact y2) hne ⟨gC.1, gC.2.1, fun h => (gC.2.2 h).1⟩ ⟨gD.1, gD.2.1, fun h => (gD.2.2 h).1⟩ ⟨gA.1, gA.2.1, fun h => (gA.2.2 h).1⟩
  have hzero : x = 0 → C = 0 := by
    rintro rfl
    have : y = 0 := by
      rw [zero_mul] at hy
      exact hy.unique (Representable.isRNE ⟨0, F64.qmin, by positivity, le_rfl, by simp⟩)
    subst this
    exact (gC.2.2 (by cases s <;> simp [signed])).2
  have hhalf : |signed (xor s false) y - signed s x / 2| ≤ 1 / 2 ^ 140 := by
    have e : signed s x / 2 = signed s (x * (1 / 2)) := by cases s <;> simp [signed] <;> ring
    rw [Bool.xor_false, e, abs_signed_sub]
    obtain ⟨n, k, hn, hk, rfl⟩ := hx
    rcases eq_or_lt_of_le hk with rfl | hk
    · have h0 := hy.nearest 0 ⟨0, F64.qmin, by positivity, le_rfl, by simp⟩
      rw [sub_zero, abs_sub_comm, abs_of_nonneg (a := (n:ℝ) * 2 ^ F64.qmin * (1 / 2)) (by positivity)] at h0
      refine h0.trans ?_
      have hn' : (n:ℝ) ≤ 2 ^ 53 := by
        have : n ≤ 2 ^ 53 := hn.le
        exact_mod_cast this
      calc (n:ℝ) * 2 ^ F64.qmin * (1 / 2) ≤ 2 ^ 53 * 2 ^ F64.qmin * (1 / 2) := by gcongr
        _ = 2 ^ (-1022 : ℤ) := by
          rw [qmin64, show (-1022 : ℤ) = 53 + -1074 + -1 by norm_num, zpow_add₀ (by norm_num), zpow_add₀ (by norm_num)]; norm_num
        _ ≤ _ := eta_small (by norm_num)
    · have hr : Representable F64 (n * 2 ^ k * (1 / 2)) := ⟨n, k - 1, hn, by omega, by rw [zpow_sub_one₀ (by norm_num)]; ring⟩
      rw [hy.unique hr.isRNE]; simp
  have hsmall : (1:ℝ) / 2 ^ 1074 ≤ 1 / 2 ^ 140 := one_div_le_one_div_of_le (by positivity) (pow_le_pow_right₀ (by norm_num) (by norm_num))
  subst hst
  generalize signed (xor s false) y = h at *
  rw [eC] at q2
  rw [eD] at q3
  have C0 := rC.nonneg
  have D0 := rD.nonneg
  have s1 := Real.abs_sin_le_one h
  have c1 := Real.abs_cos_le_one h
  have hC1 : C ≤ 1 + 1 / 2 ^ 9 := by
    have := abs_add_le (signed sg C - Real.sin h) (Real.sin h)
    rw [sub_add_cancel, signed_abs _ C0] at this
    have : ε * |Real.sin h| ≤ 1 / 2 ^ 10 * 1 := mul_le_mul h1 s1 (abs_nonneg _) (by positivity)
    norm_num at *; linarith
  have hD1 : D ≤ 1 + 1 / 2 ^ 9 := by
    have := abs_add_le (signed sd D - Real.cos h) (Real.cos h)
    rw [sub_add_cancel, signed_abs _ D0] at this
    have : ε * |Real.cos h| ≤ 1 / 2 ^ 10 * 1 := mul_le_mul h1 c1 (abs_nonneg _) (by positivity)
    norm_num at *; linarith
  obtain ⟨T, rfl, nT, T0, T4, hT⟩ := round64 (k := 2) q2 (by positivity) (by norm_num) (by norm_num at *; linarith)
  have hTD : T * D ≤ 2 ^ 3 := by
    have := mul_le_mul T4 hD1 D0 (by positivity)
    norm_num at *; linarith
  obtain ⟨B, rfl, nB, B0, B8, hB⟩ := round64 (k := 3) q3 (by positivity) (by norm_num) hTD
  have hT2 : T = 2 * C := nT.unique (Representable.double rC).isRNE
  refine ⟨h, sg, sd, A, B, C, D, hhalf, eA, by rw [Bool.false_xor], eC, eD, hzero, by rw [← mul_assoc, ← hT2]; exact nB, ht, hne, rA.nonneg, B0, C0, D0, hA.trans (by linarith), ?_, hC.trans (by linarith), hD.trans (by linarith)⟩
  have k1 := product_near (hC.trans (add_le_add le_rfl hsmall)) (hD.trans (add_le_add le_rfl hsmall)) h0 (by positivity) (P := 1 / 2) (by
    have : Real.sin h * Real.cos h = Real.sin (2 * h) / 2 := by rw [Real.sin_two_mul]; ring
    rw [this, abs_div]
    have := Real.abs_sin_le_one (2 * h)
    norm_num; linarith)
  rw [signed_mul] at k1
  have k2 : |signed (xor sg sd) B - signed (xor sg sd) (2 * (C * D))| ≤ 9 / 2 / 2 ^ 53 + 1 / 2 ^ 130 := by
    rw [abs_signed_sub]
    have e1 : |T * D - 2 * (C * D)| ≤ (1 / 2 ^ 53 * (2 * C) + 1 / 2 ^ 140) * D := by
      rw [show T * D - 2 * (C * D) = (T - 2 * C) * D by ring, abs_mul, abs_of_nonneg D0]
      exact mul_le_mul_of_nonneg_right hT D0
    have e2 : (1 / 2 ^ 53 * (2 * C) + 1 / 2 ^ 140) * D ≤ (1 / 2 ^ 53 * (2 * C) + 1 / 2 ^ 140) * (1 + 1 / 2 ^ 9) := mul_le_mul_of_nonneg_left hD1 (by positivity)
    have e3 := abs_sub_le B (T * D) (2 * (C * D))
    have hT2 : T ≤ 2 + 1 / 2 ^ 7 := by
      have := (abs_le.1 hT).2
      norm_num at *; linarith
    have e4 : T * D ≤ (2 + 1 / 2 ^ 7) * (1 + 1 / 2 ^ 9) := mul_le_mul hT2 hD1 D0 (by positivity)
    norm_num at *
    linarith
  have e3 : signed (xor sg sd) (2 * (C * D)) = 2 * signed (xor sg sd) (C * D) := by cases xor sg sd <;> simp [signed]
  have k3 := abs_sub_le (signed (xor sg sd) B) (signed (xor sg sd) (2 * (C * D))) (Real.sin (2 * h))
  have k4 : |signed (xor sg sd) (2 * (C * D)) - Real.sin (2 * h)| = 2 * |signed (xor sg sd) (C * D) - Real.sin h * Real.cos h| := by
    rw [e3, Real.sin_two_mul, show 2 * signed (xor sg sd) (C * D) - 2 * Real.sin h * Real.cos h = 2 * (signed (xor sg sd) (C * D) - Real.sin h * Real.cos h) by ring, abs_mul]
    norm_num
  have k5 : 1 / 2 ^ 140 * (1 + ε) * (|Real.sin h| + |Real.cos h|) ≤ 1 / 2 ^ 140 * (1 + 1) * (1 + 1) := by
    gcongr
    exact h1.trans (by norm_num)
  have k6 : ε ^ 2 ≤ ε / 2 ^ 10 := by nlinarith
  norm_num at *
  linarith

end ZkLoc.Hints
