import Verif.Firm
import Verif.Props.Expr

/-!
# C31 at every table width
-/

namespace ZkLoc

open Ieee (Datum)

variable {p : ℕ} [Fact p.Prime] {b : ℕ} {f : Fmt}

theorem firmInt_neg {x : Datum} (h : FirmInt b f x) : FirmInt b f x.neg := by
  intro s v hv
  cases x with
  | nan => cases hv
  | inf => cases hv
  | fin t u =>
    simp only [Datum.neg] at hv
    injection hv with h1 h2
    subst h2
    exact h t _ rfl

/-- **C31** Whatever the width of the range table, every prover obtains the IEEE-754 value of the expression, as long as the
evaluation stays clear of the cases in which a single operation leaves a choice (`Tame`) and none of its significands is divisible by
the odd part of a dishonest lookup answer (`Firm`). -/
theorem C31_expr_sound_every_width_partial (G : Good p b f) (h64 : 1 + f.E + f.M ≤ 64) (hE5 : 5 ≤ f.E)
    (hadd : 2 ^ (3 * f.M + 2 * f.E + 6 + 3 * b) ≤ p) (hmul : 2 ^ (4 * f.M + f.E + 5 + 3 * (b - 1)) ≤ p) {e : Expr} (hw : e.WF f)
    {env : ℕ → FloatVar p} {denv : ℕ → Datum} (henv : ∀ i, Encodes f (env i) (denv i)) (ht : e.Tame f denv) (hf : e.Firm b f denv)
    {st : Bool} : ∀ {r}, (e.circ f env).Sat b st r → ∃ d, Encodes f r d ∧ e.IeeeEval f denv d := by
  have hE := G.hE
  have hb0 := G.bpos
  have h1 : 1 ∣ f.pow2Size := one_dvd _
  have hdiv : 2 ^ (3 * f.M + f.E + 6 + 3 * (b - 1)) ≤ p := le_trans (Nat.pow_le_pow_right (by norm_num) (by omega)) hadd
  have hflo : 2 ^ (3 * f.M + f.E + 4 + 3 * b) ≤ p := le_trans (Nat.pow_le_pow_right (by norm_num) (by omega)) hadd
  have htru : 2 ^ (3 * f.M + f.E + 3 + 3 * b) ≤ p := le_trans (Nat.pow_le_pow_right (by norm_num) (by omega)) hadd
  have hint : ∀ {a : Expr} {d}, (∀ s v, a.IeeeEval f denv (.fin s v) → ¬ (1 ≤ v ∧ v < 2)) → a.IeeeEval f denv d →
      ∀ s v, d = .fin s v → v < 1 ∨ 2 ≤ v := by
    intro a d h hd s v hv
    subst hv
    have := h s v hd
    rcases lt_or_ge v 1 with h1 | h1
    · exact Or.inl h1
    · rcases lt_or_ge v 2 with h2 | h2
      · exact absurd ⟨h1, h2⟩ this
      · exact Or.inr h2
  have hfloor : ∀ {x r : FloatVar p} {dx : Datum}, Encodes f x dx → FirmInt b f dx → (∀ s v, dx = .fin s v → v < 1 ∨ 2 ≤ v) →
      (fFloor f x).Sat b st r → (fFloor f x).Sat 1 st r := by
    intro x r dx ex hF h12 hr
    obtain ⟨X, hX, rfl, rfl⟩ := encodes_iff.1 ex
    exact floor_firm G hflo hX hF h12 hr
  induction e with
  | var i =>
    intro r hr
    obtain rfl : r = env i := hr
    exact ⟨_, henv i, rfl⟩
  | const v =>
    intro r hr
    obtain rfl : r = newConstant f v := hr
    rw [newConstant_toVar (by omega) h64 hw]
    exact ⟨_, encodes_iff.2 ⟨_, fltOf_valid (by omega) hw, fltOf_datum (by omega) hw, rfl⟩, rfl⟩
  | add a c iha ihc =>
    intro r hr
    simp only [Expr.circ, Circ.bind_eq, Circ.sat_bind] at hr
    obtain ⟨x, hx, y, hy, hr⟩ := hr
    obtain ⟨dx, ex, vx⟩ := iha hw.1 ht.1 hf.1 hx
    obtain ⟨dy, ey, vy⟩ := ihc hw.2 ht.2.1 hf.2.1 hy
    have hF := hf.2.2 _ _ vx vy
    have hr1 : (fAdd f x y).Sat 1 st r := by
      obtain ⟨X, hX, hXd, rfl⟩ := encodes_iff.1 ex
      obtain ⟨Y, hY, hYd, rfl⟩ := encodes_iff.1 ey
      rw [← hXd, ← hYd] at hF
      exact add_firm G hE5 hadd hX hY hF hr
    obtain ⟨d, h1, h2⟩ := add_tame G.one h1 ex ey (fun d hd => ht.2.2 dx dy d vx vy hd) hr1
    exact ⟨d, h1, dx, dy, vx, vy, h2⟩
  | sub a c iha ihc =>
    intro r hr
    simp only [Expr.circ, Circ.bind_eq, Circ.sat_bind] at hr
    obtain ⟨x, hx, y, hy, hr⟩ := hr
    obtain ⟨dx, ex, vx⟩ := iha hw.1 ht.1 hf.1 hx
    obtain ⟨dy, ey, vy⟩ := ihc hw.2 ht.2.1 hf.2.1 hy
    have hF := hf.2.2 _ _ vx vy
    have hr1 : (fAdd f x (fNeg y)).Sat 1 st r := by
      obtain ⟨X, hX, hXd, rfl⟩ := encodes_iff.1 ex
      obtain ⟨Y, hY, hYd, hYv⟩ := encodes_iff.1 (encodes_neg ey)
      rw [← hXd, ← hYd] at hF
      change (fAdd f _ (fNeg y)).Sat b st r at hr
      rw [hYv] at hr ⊢
      exact add_firm G hE5 hadd hX hY hF hr
    obtain ⟨d, h1, h2⟩ := add_tame G.one h1 ex (encodes_neg ey)
      (fun d hd => by rw [overflow_neg]; exact ht.2.2 dx dy d vx vy (sub_iff_add_neg.2 hd)) hr1
    exact ⟨d, h1, dx, dy, vx, vy, sub_iff_add_neg.2 h2⟩
  | mul a c iha ihc =>
    intro r hr
    simp only [Expr.circ, Circ.bind_eq, Circ.sat_bind] at hr
    obtain ⟨x, hx, y, hy, hr⟩ := hr
    obtain ⟨dx, ex, vx⟩ := iha hw.1 ht.1 hf.1 hx
    obtain ⟨dy, ey, vy⟩ := ihc hw.2 ht.2.1 hf.2.1 hy
    have hF := hf.2.2 _ _ vx vy
    have hr1 : (fMul f x y).Sat 1 st r := by
      obtain ⟨X, hX, hXd, rfl⟩ := encodes_iff.1 ex
      obtain ⟨Y, hY, hYd, rfl⟩ := encodes_iff.1 ey
      rw [← hXd, ← hYd] at hF
      exact mul_firm G hmul hX hY hF hr
    obtain ⟨d, h1, h2⟩ := mul_tame G.one h1 ex ey (fun d hd => ht.2.2 dx dy d vx vy hd) hr1
    exact ⟨d, h1, dx, dy, vx, vy, h2⟩
  | div a c iha ihc =>
    intro r hr
    simp only [Expr.circ, Circ.bind_eq, Circ.sat_bind] at hr
    obtain ⟨x, hx, y, hy, hr⟩ := hr
    obtain ⟨dx, ex, vx⟩ := iha hw.1 ht.1 hf.1 hx
    obtain ⟨dy, ey, vy⟩ := ihc hw.2 ht.2.1 hf.2.1 hy
    have hF := hf.2.2 _ _ vx vy
    have hr1 : (fDiv f x y).Sat 1 st r := by
      obtain ⟨X, hX, hXd, rfl⟩ := encodes_iff.1 ex
      obtain ⟨Y, hY, hYd, rfl⟩ := encodes_iff.1 ey
      rw [← hXd, ← hYd] at hF
      exact div_firm G hdiv hX hY hF hr
    obtain ⟨d, h1, h2⟩ := div_tame G.one h1 ex ey (fun d hd => ht.2.2 dx dy d vx vy hd) hr1
    exact ⟨d, h1, dx, dy, vx, vy, h2⟩
  | sqrt a iha =>
    intro r hr
    simp only [Expr.circ, Circ.bind_eq, Circ.sat_bind] at hr
    obtain ⟨x, hx, hr⟩ := hr
    obtain ⟨dx, ex, vx⟩ := iha hw ht hf.1 hx
    have hF := hf.2 _ vx
    have hr1 : (fSqrt f x).Sat 1 st r := by
      obtain ⟨X, hX, hXd, rfl⟩ := encodes_iff.1 ex
      rw [← hXd] at hF
      exact sqrt_firm G hX hF hr
    obtain ⟨d, h1, h2⟩ := C23_sqrt_sound_partial G.one h1 ex hr1
    exact ⟨d, h1, dx, vx, h2⟩
  | neg a iha =>
    intro r hr
    simp only [Expr.circ, Circ.bind_eq, Circ.sat_bind] at hr
    obtain ⟨x, hx, hr⟩ := hr
    obtain ⟨dx, ex, vx⟩ := iha hw ht hf hx
    obtain rfl : r = fNeg x := hr
    exact ⟨_, encodes_neg ex, dx, vx, rfl⟩
  | abs a iha =>
    intro r hr
    simp only [Expr.circ, Circ.bind_eq, Circ.sat_bind] at hr
    obtain ⟨x, hx, hr⟩ := hr
    obtain ⟨dx, ex, vx⟩ := iha hw ht hf hx
    obtain rfl : r = fAbs x := hr
    exact ⟨_, encodes_abs ex, dx, vx, rfl⟩
  | trunc a iha =>
    intro r hr
    simp only [Expr.circ, Circ.bind_eq, Circ.sat_bind] at hr
    obtain ⟨x, hx, hr⟩ := hr
    obtain ⟨dx, ex, vx⟩ := iha hw ht.1 hf.1 hx
    have hF := hf.2 _ vx
    have h12 := hint ht.2 vx
    have hr1 : (fTrunc f x).Sat 1 st r := by
      obtain ⟨X, hX, hXd, rfl⟩ := encodes_iff.1 ex
      subst hXd
      exact trunc_firm G htru hX hF h12 hr
    obtain ⟨d, h1, h2⟩ := (C26_sound_partial G.one h1 ex h12).1 hr1
    exact ⟨d, h1, dx, vx, h2⟩
  | floor a iha =>
    intro r hr
    simp only [Expr.circ, Circ.bind_eq, Circ.sat_bind] at hr
    obtain ⟨x, hx, hr⟩ := hr
    obtain ⟨dx, ex, vx⟩ := iha hw ht.1 hf.1 hx
    have h12 := hint ht.2 vx
    obtain ⟨d, h1, h2⟩ := (C26_sound_partial G.one h1 ex h12).2.1 (hfloor ex (hf.2 _ vx) h12 hr)
    exact ⟨d, h1, dx, vx, h2⟩
  | ceil a iha =>
    intro r hr
    simp only [Expr.circ, Circ.bind_eq, Circ.sat_bind] at hr
    obtain ⟨x, hx, hr⟩ := hr
    obtain ⟨dx, ex, vx⟩ := iha hw ht.1 hf.1 hx
    have h12 := hint ht.2 vx
    have hr1 : (fCeil f x).Sat 1 st r := by
      simp only [fCeil, Circ.bind_eq, Circ.sat_bind] at hr ⊢
      obtain ⟨q, hq, hr⟩ := hr
      refine ⟨q, hfloor (encodes_neg ex) (firmInt_neg (hf.2 _ vx)) (fun s v hv => ?_) hq, hr⟩
      cases dx with
      | nan => cases hv
      | inf => cases hv
      | fin t u =>
        simp only [Datum.neg] at hv
        injection hv with _ h2
        subst h2
        exact h12 t _ rfl
    obtain ⟨d, h1, h2⟩ := (C26_sound_partial G.one h1 ex h12).2.2 hr1
    exact ⟨d, h1, dx, vx, h2⟩
  | ite q a c t e iha ihc iht ihe =>
    intro r hr
    simp only [Expr.circ, Circ.bind_eq, Circ.sat_bind] at hr
    obtain ⟨x, hx, y, hy, u, hu, v, hv, k, hk, hr⟩ := hr
    obtain ⟨dx, ex, vx⟩ := iha hw.1 ht.1 hf.1 hx
    obtain ⟨dy, ey, vy⟩ := ihc hw.2.1 ht.2.1 hf.2.1 hy
    obtain ⟨du, eu, vu⟩ := iht hw.2.2.1 ht.2.2.1 hf.2.2.1 hu
    obtain ⟨dv, ev, vv⟩ := ihe hw.2.2.2 ht.2.2.2 hf.2.2.2 hv
    obtain rfl := Rel.sat_circ G q ex ey hk
    have hsel := fun c => ((C42_select (b := b) c u v).2 st r).1
    by_cases h : q.Holds dx dy
    · have hr' := hsel true (by simpa [wireOf, h] using hr)
      rw [if_pos rfl] at hr'
      subst hr'
      exact ⟨du, eu, dx, dy, du, dv, vx, vy, vu, vv, fun _ => rfl, fun hn => absurd h hn⟩
    · have hr' := hsel false (by simpa [wireOf, h] using hr)
      rw [if_neg (by simp)] at hr'
      subst hr'
      exact ⟨dv, ev, dx, dy, du, dv, vx, vy, vu, vv, fun hn => absurd hn h, fun _ => rfl⟩

/-! ### When the hypothesis is met -/

theorem resists_of_dvd {σ w : ℕ} {v : ℝ} (h : b ∣ lookupSize f) : Resists b (lookupSize f) σ w v := by
  rintro k N - - - - o ⟨t, h0, h1, -⟩
  have : spare b (lookupSize f) = 0 := by unfold spare; rw [Nat.mod_eq_zero_of_dvd h, Nat.sub_zero, Nat.mod_self]
  rw [this] at h1
  omega

/-- **C31** Table widths that divide the size of the lookup leave no such divisor: the theorem contains
`C31_expr_sound_partial` (up to its conditions on the field). -/
theorem C31_firm_of_dvd (h : b ∣ 1 + f.E + f.M) {env : ℕ → Datum} (e : Expr) : e.Firm b f env := by
  have hR : ∀ {σ w : ℕ} {v : ℝ}, Resists b (lookupSize f) σ w v := resists_of_dvd h
  induction e with
  | var i => trivial
  | const v => trivial
  | add a c iha ihc => exact ⟨iha, ihc, fun _ _ _ _ _ _ _ _ _ _ _ => ⟨fun _ => hR, fun _ => hR⟩⟩
  | sub a c iha ihc => exact ⟨iha, ihc, fun _ _ _ _ _ _ _ _ _ _ _ => ⟨fun _ => hR, fun _ => hR⟩⟩
  | mul a c iha ihc => exact ⟨iha, ihc, fun _ _ _ _ _ _ _ => hR⟩
  | div a c iha ihc => exact ⟨iha, ihc, fun _ _ _ _ _ _ _ => ⟨fun _ _ _ => hR, fun _ _ _ => hR⟩⟩
  | sqrt a iha => exact ⟨iha, fun _ _ => hR⟩
  | neg a iha => exact iha
  | abs a iha => exact iha
  | trunc a iha => exact ⟨iha, fun _ _ _ _ _ _ _ _ _ _ => hR⟩
  | floor a iha => exact ⟨iha, fun _ _ _ _ _ _ _ _ _ _ => hR⟩
  | ceil a iha => exact ⟨iha, fun _ _ _ _ _ _ _ _ _ _ => hR⟩
  | ite r a c t e iha ihc iht ihe => exact ⟨iha, ihc, iht, ihe⟩

/-- Numbers with few significant digits resist. -/
theorem resists_small {σ w m : ℕ} {e : ℤ} (hm : m < 2 ^ w) (ho : ∀ o, WeakDivisor b (lookupSize f) σ o → ¬ o ∣ m) :
    Resists b (lookupSize f) σ w (m * 2 ^ e) := by
  intro k N h1 h2 h3 h4 o hw hd
  rw [mul_assoc, ← zpow_add₀ (by norm_num)] at h3 h4
  rcases le_or_gt 0 (e + k) with h | h
  · obtain ⟨j, hj⟩ := Int.eq_ofNat_of_zero_le h
    rw [hj, zpow_natCast] at h3 h4
    have h5 : N ≤ m * 2 ^ j := by exact_mod_cast h3
    have h6 : m * 2 ^ j < N + 1 := by exact_mod_cast h4
    obtain rfl : N = m * 2 ^ j := by omega
    refine ho o hw ?_
    obtain ⟨t, h0, ht, hs, rfl⟩ := hw
    refine (Nat.Coprime.dvd_mul_right (Nat.Coprime.pow_right _ ?_)).1 hd
    rw [Nat.coprime_two_right]
    refine Nat.odd_add.2 ⟨fun _ => ?_, fun _ => odd_one⟩
    obtain ⟨d, hd⟩ : ∃ d, lookupSize f - (σ + t) = d + 1 := ⟨lookupSize f - (σ + t) - 1, by omega⟩
    rw [hd, pow_succ, ← mul_assoc]; exact even_two.mul_left _
  · have h5 : (2:ℝ) ^ (e + k) ≤ 2 ^ (-1 : ℤ) := zpow_le_zpow_right₀ (by norm_num) (by omega)
    have h6 : (m:ℝ) < 2 ^ w := by exact_mod_cast hm
    have h7 : (2:ℝ) ^ w ≤ 2 * N := by exact_mod_cast h1
    have h8 : (m:ℝ) * 2 ^ (e + k) ≤ m * 2 ^ (-1 : ℤ) := by gcongr
    norm_num at h8
    linarith

/-- Numbers whose leading digits are known resist if those do. -/
theorem resists_digits {σ w N : ℕ} {v : ℝ} {k : ℤ} (h1 : 2 ^ w ≤ 2 * N) (h2 : N < 2 ^ w) (h3 : (N:ℝ) ≤ v * 2 ^ k) (h4 : v * 2 ^ k < N + 1)
    (ho : ∀ o, WeakDivisor b (lookupSize f) σ o → ¬ o ∣ N) : Resists b (lookupSize f) σ w v := by
  intro k' N' g1 g2 g3 g4 o hw
  have bnd : ∀ {n : ℕ} {j : ℤ}, 2 ^ w ≤ 2 * n → n < 2 ^ w → (n:ℝ) ≤ v * 2 ^ j → v * 2 ^ j < n + 1 →
      (2:ℝ) ^ w ≤ 2 * (v * 2 ^ j) ∧ v * 2 ^ j < 2 ^ w := by
    intro n j a1 a2 a3 a4
    have a5 : (2:ℝ) ^ w ≤ 2 * n := by exact_mod_cast a1
    have a6 : (n:ℝ) + 1 ≤ 2 ^ w := by exact_mod_cast a2
    constructor <;> linarith
  have key : ∀ {j i : ℤ}, (2:ℝ) ^ w ≤ 2 * (v * 2 ^ j) → v * 2 ^ i < 2 ^ w → i ≤ j := by
    intro j i a1 a2
    by_contra hlt
    have hp : (0:ℝ) < 2 ^ w := by positivity
    have hv : 0 < v := by
      by_contra hv
      have : v * 2 ^ j ≤ 0 := mul_nonpos_of_nonpos_of_nonneg (not_lt.1 hv) (by positivity)
      linarith
    have : (2:ℝ) ^ (j + 1) ≤ 2 ^ i := zpow_le_zpow_right₀ (by norm_num) (by omega)
    rw [zpow_add_one₀ (by norm_num)] at this
    have := mul_le_mul_of_nonneg_left this hv.le
    linarith
  obtain ⟨b1, b2⟩ := bnd h1 h2 h3 h4
  obtain ⟨c1, c2⟩ := bnd g1 g2 g3 g4
  obtain rfl : k' = k := le_antisymm (key b1 c2) (key c1 b2)
  have e1 : N < N' + 1 := by exact_mod_cast lt_of_le_of_lt h3 g4
  have e2 : N' < N + 1 := by exact_mod_cast lt_of_le_of_lt g3 h4
  obtain rfl : N' = N := by omega
  exact ho o hw

/-! ### A concrete case: `(x + y) * (x - y) / sqrt (x * x + y * y)` at `x = 4`, `y = 3` in single precision with tables of width 9

The power-of-two lookup has 32 entries, and 9 does not divide 32. -/

theorem weak9 {σ o m : ℕ} (hσ : σ = 0) (hm : 0 < m) (hm1 : m < 1000) (h : WeakDivisor 9 (lookupSize f32) σ o) : ¬ o ∣ m := by
  subst hσ
  obtain ⟨t, h0, h1, h2, rfl⟩ := h
  intro hd
  have h3 := Nat.le_of_dvd hm hd
  have h4 : t < 16 := by simpa [spare, lookupSize, f32] using h1
  have h5 : 2 ^ 17 ≤ 2 ^ (lookupSize f32 - (0 + t)) := Nat.pow_le_pow_right (by norm_num) (by simp [lookupSize, f32]; omega)
  have h6 : 1 * 2 ^ 17 ≤ t * 2 ^ (lookupSize f32 - (0 + t)) := Nat.mul_le_mul h0 h5
  rw [one_mul] at h6
  have : (1000:ℕ) < 2 ^ 17 := by norm_num
  omega

theorem resists9 {w m : ℕ} {v : ℝ} (hv : v = m) (hm : 0 < m) (hm1 : m < 1000) (hw : 10 ≤ w) : Resists 9 (lookupSize f32) 0 w v := by
  have := resists_small (b := 9) (f := f32) (σ := 0) (w := w) (m := m) (e := 0)
    (lt_of_lt_of_le hm1 (le_trans (by norm_num) (Nat.pow_le_pow_right (by norm_num) hw))) (fun o h => weak9 rfl hm hm1 h)
  rw [zpow_zero, mul_one] at this
  rwa [hv]

theorem rounds32' {v : ℝ} {m : ℕ} (hm : m < 1000) (hv : v = m) : Ieee.RoundsTo ⟨f32.E, f32.M⟩ false v (.fin false m) := by
  subst hv
  refine ⟨m, Ieee.Representable.isRNE ⟨m, 0, by norm_num [f32]; omega,
    by norm_num [Ieee.Format.qmin, Ieee.Format.emin, Ieee.Format.bias, f32], by norm_num⟩, fun _ => rfl, fun h => ?_⟩
  have h1 : (m:ℝ) < 1000 := by exact_mod_cast hm
  have h2 : (1000:ℝ) < 2 ^ ((Ieee.Format.bias ⟨f32.E, f32.M⟩ : ℤ) + 1) := by norm_num [Ieee.Format.bias, f32]
  linarith

theorem add32' {a c m : ℕ} {d : Datum} (hm : 0 < m) (hm1 : m < 1000) (h : a + c = m)
    (hd : Ieee.Add ⟨f32.E, f32.M⟩ (.fin false a) (.fin false c) d) : d = .fin false m := by
  refine hd.unique ?_
  have h2 : ((a:ℝ) + c) = m := by exact_mod_cast h
  have h3 : (0:ℝ) < m := by exact_mod_cast hm
  simp only [Ieee.Add, Ieee.signed, Bool.false_eq_true, if_false, h2]
  refine ⟨fun h => absurd h h3.ne', fun _ => ?_⟩
  rw [decide_eq_false (not_lt.2 h3.le), abs_of_pos h3]
  exact rounds32' hm1 rfl

theorem sub32' {a c m : ℕ} {d : Datum} (hm : 0 < m) (hm1 : m < 1000) (h : a = m + c)
    (hd : Ieee.Sub ⟨f32.E, f32.M⟩ (.fin false a) (.fin false c) d) : d = .fin false m := by
  refine (sub_iff_add_neg.1 hd).unique (sub_iff_add_neg.1 ?_)
  have h2 : ((a:ℝ) - c) = m := by rw [h]; push_cast; ring
  have h3 : (0:ℝ) < m := by exact_mod_cast hm
  simp only [Ieee.Sub, Ieee.signed, Bool.false_eq_true, if_false, h2]
  refine ⟨fun h => absurd h h3.ne', fun _ => ?_⟩
  rw [decide_eq_false (not_lt.2 h3.le), abs_of_pos h3]
  exact rounds32' hm1 rfl

theorem mul32' {a c m : ℕ} {d : Datum} (hm1 : m < 1000) (h : a * c = m)
    (hd : Ieee.Mul ⟨f32.E, f32.M⟩ (.fin false a) (.fin false c) d) : d = .fin false m := by
  refine hd.unique ?_
  exact rounds32' hm1 (by rw [← h]; push_cast; ring)

theorem sqrt32' {a m : ℕ} {d : Datum} (ha : 0 < a) (hm1 : m < 1000) (h : a = m * m)
    (hd : Ieee.Sqrt ⟨f32.E, f32.M⟩ (.fin false a) d) : d = .fin false m := by
  refine hd.unique ?_
  have h0 : (a:ℝ) ≠ 0 := by exact_mod_cast ha.ne'
  refine ⟨fun h => absurd h h0, fun _ h => (Bool.false_ne_true h).elim, fun _ _ => rounds32' hm1 ?_⟩
  rw [h]; push_cast; exact Real.sqrt_mul_self (Nat.cast_nonneg _)

/-- The values of the variables of the example. -/
def envEx : ℕ → Datum := fun i => .fin false ((if i = 0 then 4 else 3 : ℕ) : ℝ)

theorem exprEx_vals : (∀ d, (Expr.add (.var 0) (.var 1)).IeeeEval f32 envEx d → d = .fin false (7 : ℕ)) ∧
    (∀ d, (Expr.sub (.var 0) (.var 1)).IeeeEval f32 envEx d → d = .fin false (1 : ℕ)) ∧
    (∀ d, (Expr.mul (.var 0) (.var 0)).IeeeEval f32 envEx d → d = .fin false (16 : ℕ)) ∧
    (∀ d, (Expr.mul (.var 1) (.var 1)).IeeeEval f32 envEx d → d = .fin false (9 : ℕ)) ∧
    (∀ d, (Expr.mul (.add (.var 0) (.var 1)) (.sub (.var 0) (.var 1))).IeeeEval f32 envEx d → d = .fin false (7 : ℕ)) ∧
    (∀ d, (Expr.add (.mul (.var 0) (.var 0)) (.mul (.var 1) (.var 1))).IeeeEval f32 envEx d → d = .fin false (25 : ℕ)) ∧
    (∀ d, (Expr.sqrt (.add (.mul (.var 0) (.var 0)) (.mul (.var 1) (.var 1)))).IeeeEval f32 envEx d → d = .fin false (5 : ℕ)) := by
  have a1 : ∀ d, (Expr.add (.var 0) (.var 1)).IeeeEval f32 envEx d → d = .fin false (7 : ℕ) := by
    rintro d ⟨_, _, rfl, rfl, h⟩; exact add32' (a := 4) (c := 3) (by norm_num) (by norm_num) rfl h
  have a2 : ∀ d, (Expr.sub (.var 0) (.var 1)).IeeeEval f32 envEx d → d = .fin false (1 : ℕ) := by
    rintro d ⟨_, _, rfl, rfl, h⟩; exact sub32' (a := 4) (c := 3) (by norm_num) (by norm_num) rfl h
  have a3 : ∀ d, (Expr.mul (.var 0) (.var 0)).IeeeEval f32 envEx d → d = .fin false (16 : ℕ) := by
    rintro d ⟨_, _, rfl, rfl, h⟩; exact mul32' (a := 4) (c := 4) (by norm_num) rfl h
  have a4 : ∀ d, (Expr.mul (.var 1) (.var 1)).IeeeEval f32 envEx d → d = .fin false (9 : ℕ) := by
    rintro d ⟨_, _, rfl, rfl, h⟩; exact mul32' (a := 3) (c := 3) (by norm_num) rfl h
  have a5 : ∀ d, (Expr.mul (.add (.var 0) (.var 1)) (.sub (.var 0) (.var 1))).IeeeEval f32 envEx d → d = .fin false (7 : ℕ) := by
    rintro d ⟨x, y, hx, hy, h⟩
    obtain rfl := a1 _ hx; obtain rfl := a2 _ hy
    exact mul32' (by norm_num) rfl h
  have a6 : ∀ d, (Expr.add (.mul (.var 0) (.var 0)) (.mul (.var 1) (.var 1))).IeeeEval f32 envEx d → d = .fin false (25 : ℕ) := by
    rintro d ⟨x, y, hx, hy, h⟩
    obtain rfl := a3 _ hx; obtain rfl := a4 _ hy
    exact add32' (by norm_num) (by norm_num) rfl h
  refine ⟨a1, a2, a3, a4, a5, a6, ?_⟩
  rintro d ⟨x, hx, h⟩
  obtain rfl := a6 _ hx
  exact sqrt32' (by norm_num) (by norm_num) rfl h

theorem firmAdd9 {x y : Datum} {s t : Bool} {u v m : ℕ} (hx : x = .fin s u) (hy : y = .fin t v) (h1 : u < 2 * v) (h2 : v < 2 * u) (hm : 0 < m)
    (hm1 : m < 1000) (h : |Ieee.signed s u + Ieee.signed t v| = m) : FirmAdd 9 f32 x y := by
  subst hx hy
  rintro s' u' t' v' hx hy j
  injection hx with e1 e2; injection hy with e3 e4
  subst e1 e2 e3 e4
  have hj : ∀ {a c : ℕ}, c < 2 * a → (j = 0 ∨ (a:ℝ) * 2 ^ j ≤ c) → j = 0 := by
    rintro a c hac (h | h)
    · exact h
    · by_contra hj
      have h3 : a * 2 ^ j ≤ c := by exact_mod_cast h
      have : a * 2 ^ 1 ≤ a * 2 ^ j := Nat.mul_le_mul_left _ (Nat.pow_le_pow_right (by norm_num) (by omega))
      omega
  refine ⟨fun h3 => ?_, fun h3 => ?_⟩
  · obtain rfl := hj h2 h3
    rw [pow_zero, mul_one]; exact resists9 h hm hm1 (by norm_num [f32])
  · obtain rfl := hj h1 h3
    rw [pow_zero, mul_one]; exact resists9 h hm hm1 (by norm_num [f32])

theorem emin32 : Ieee.Format.emin ⟨f32.E, f32.M⟩ = -126 := by norm_num [Ieee.Format.emin, Ieee.Format.bias, f32]

theorem not_subnormal {v : ℝ} (hv : 1 ≤ v) : ¬ v < 2 ^ (Ieee.Format.emin ⟨f32.E, f32.M⟩) := by
  rw [emin32, not_lt]; exact le_trans (by norm_num) hv

theorem firmMul9 {x y : Datum} {s t : Bool} {u v : ℕ} (hx : x = .fin s u) (hy : y = .fin t v) (hm : 0 < u * v) (hm1 : u * v < 1000) :
    FirmMul 9 f32 x y := by
  subst hx hy
  intro σ _ hσ
  have h1 : (1:ℝ) ≤ u * v := by exact_mod_cast hm
  obtain rfl := hσ.resolve_right (not_subnormal h1)
  exact resists9 (m := u * v) (by push_cast; rfl) hm hm1 (by norm_num [f32])

theorem exprEx_firm : exprEx.Firm 9 f32 envEx := by
  obtain ⟨v1, v2, v3, v4, v5, v6, v7⟩ := exprEx_vals
  refine ⟨⟨⟨trivial, trivial, ?_⟩, ⟨trivial, trivial, ?_⟩, ?_⟩, ⟨⟨⟨trivial, trivial, ?_⟩, ⟨trivial, trivial, ?_⟩, ?_⟩, ?_⟩, ?_⟩
  · rintro x y (rfl : x = _) (rfl : y = _)
    exact firmAdd9 (u := 4) (v := 3) (m := 7) rfl rfl (by norm_num) (by norm_num) (by norm_num) (by norm_num) (by norm_num [Ieee.signed])
  · rintro x y (rfl : x = _) (rfl : y = _)
    exact firmAdd9 (s := false) (t := true) (u := 4) (v := 3) (m := 1) rfl rfl (by norm_num) (by norm_num) (by norm_num) (by norm_num)
      (by norm_num [Ieee.signed])
  · rintro x y hx hy; exact firmMul9 (v1 _ hx) (v2 _ hy) (by norm_num) (by norm_num)
  · rintro x y (rfl : x = _) (rfl : y = _); exact firmMul9 (u := 4) (v := 4) rfl rfl (by norm_num) (by norm_num)
  · rintro x y (rfl : x = _) (rfl : y = _); exact firmMul9 (u := 3) (v := 3) rfl rfl (by norm_num) (by norm_num)
  · rintro x y hx hy
    exact firmAdd9 (m := 25) (v3 _ hx) (v4 _ hy) (by norm_num) (by norm_num) (by norm_num) (by norm_num) (by norm_num [Ieee.signed])
  · rintro x hx
    obtain rfl := v6 _ hx
    refine resists9 (m := 5) ?_ (by norm_num) (by norm_num) (by norm_num [f32])
    rw [magnitude, show ((25 : ℕ) : ℝ) = 5 * 5 by norm_num, Real.sqrt_mul_self (by norm_num)]; norm_num
  · rintro x y hx hy
    obtain rfl := v5 _ hx
    obtain rfl := v7 _ hy
    intro m _ hm
    obtain rfl := hm (by norm_num [magnitude])
    have hq : magnitude (.fin false (7 : ℕ)) / magnitude (.fin false (5 : ℕ)) = 7 / 5 := by norm_num [magnitude]
    rw [hq]
    have hweak : ∀ {N : ℕ}, (∀ t < 16, 0 < t → ¬ 1 + t * 2 ^ (32 - (0 + t)) ∣ N) → ∀ o, WeakDivisor 9 (lookupSize f32) 0 o → ¬ o ∣ N := by
      rintro N h o ⟨t, h0, h1, -, rfl⟩
      exact h t (by simpa [spare, lookupSize, f32] using h1) h0
    constructor
    · intro σ _ hσ
      obtain rfl := hσ.resolve_right (not_subnormal (by norm_num))
      exact resists_digits (N := 23488102) (k := 24) (by norm_num [f32]) (by norm_num [f32]) (by norm_num) (by norm_num) (hweak (by decide))
    · intro σ _ hσ
      obtain rfl := hσ.resolve_right (not_subnormal (by norm_num))
      exact resists_digits (N := 46976204) (k := 25) (by norm_num [f32]) (by norm_num [f32]) (by norm_num) (by norm_num) (hweak (by decide))

theorem exprEx_tame : exprEx.Tame f32 envEx := by
  obtain ⟨v1, v2, v3, v4, v5, v6, v7⟩ := exprEx_vals
  have hno : ∀ {x y : Datum} {s : Bool} {v : ℝ}, ¬ Overflow x y (.fin s v) := by
    rintro x y s v ⟨_, _, _, _, _, _, _, h⟩; cases h
  refine ⟨⟨⟨trivial, trivial, ?_⟩, ⟨trivial, trivial, ?_⟩, ?_⟩, ⟨⟨trivial, trivial, ?_⟩, ⟨trivial, trivial, ?_⟩, ?_⟩, ?_⟩
  · rintro x y d hx hy hd
    obtain rfl := v1 d ⟨x, y, hx, hy, hd⟩
    refine ⟨?_, hno⟩
    obtain rfl := hx; obtain rfl := hy
    rintro ⟨s, t, a, h1, h2, h⟩
    injection h1 with h1 _; injection h2 with h2 _
    exact h (h1.symm.trans h2)
  · rintro x y d hx hy hd
    obtain rfl := v2 d ⟨x, y, hx, hy, hd⟩
    refine ⟨?_, hno⟩
    obtain rfl := hx; obtain rfl := hy
    rintro ⟨s, t, a, h1, h2, h⟩
    injection h1 with _ h1; injection h2 with _ h2
    rw [← h2] at h1; norm_num at h1
  · rintro x y d hx hy hd
    obtain rfl := v5 d ⟨x, y, hx, hy, hd⟩
    exact hno
  · rintro x y d hx hy hd
    obtain rfl := v3 d ⟨x, y, hx, hy, hd⟩
    exact hno
  · rintro x y d hx hy hd
    obtain rfl := v4 d ⟨x, y, hx, hy, hd⟩
    exact hno
  · rintro x y d hx hy hd
    obtain rfl := v6 d ⟨x, y, hx, hy, hd⟩
    refine ⟨?_, hno⟩
    obtain rfl := v3 _ hx; obtain rfl := v4 _ hy
    rintro ⟨s, t, a, h1, h2, h⟩
    injection h1 with h1 _; injection h2 with h2 _
    exact h (h1.symm.trans h2)
  · rintro x y d hx hy hd ⟨⟨_, _, _, _, u, h1, h2, rfl⟩, -⟩
    obtain rfl := v5 _ hx
    obtain rfl := v7 _ hy
    obtain ⟨r, hr, h3, -⟩ := hd.2.2 (by norm_num)
    have h4 : Ieee.Representable ⟨f32.E, f32.M⟩ 1 := ⟨1, 0, by norm_num [f32],
      by norm_num [Ieee.Format.qmin, Ieee.Format.emin, Ieee.Format.bias, f32], by norm_num⟩
    have h5 := hr.nearest 1 h4
    norm_num at h5
    rw [abs_le] at h5
    have h6 : (2:ℝ) < 2 ^ ((Ieee.Format.bias ⟨f32.E, f32.M⟩ : ℤ) + 1) := by norm_num [Ieee.Format.bias, f32]
    have := h3 (by linarith)
    cases this

/-- With tables of width 9 every prover gets 7/5, rounded, for the example. -/
example {st : Bool} {r : FloatVar bn254} (hr : (exprEx.circ f32 (fun i => if i = 0 then w32 0x40800000 else w32 0x40400000)).Sat 9 st r) :
    ∃ d, Encodes f32 r d ∧ exprEx.IeeeEval f32 envEx d := by
  refine C31_expr_sound_every_width_partial (good_bn254_f32 ⟨by norm_num, by norm_num⟩) (by decide) (by decide)
    (by norm_num [f32, bn254]) (by norm_num [f32, bn254]) (e := exprEx)
    ⟨⟨⟨trivial, trivial⟩, trivial, trivial⟩, ⟨trivial, trivial⟩, trivial, trivial⟩ (fun i => ?_) exprEx_tame exprEx_firm hr
  by_cases hi : i = 0
  · simp only [hi, if_true, envEx]
    exact encodes_iff.2 ⟨fltOf f32 0x40800000, fltOf_valid (by decide) (by decide), by
      rw [show fltOf f32 0x40800000 = ⟨false, 2, 2 ^ 23, false⟩ by decide]; norm_num [Flt.datum, f32], rfl⟩
  · simp only [hi, if_false, envEx]
    exact encodes_iff.2 ⟨fltOf f32 0x40400000, fltOf_valid (by decide) (by decide), by
      rw [show fltOf f32 0x40400000 = ⟨false, 1, 3 * 2 ^ 22, false⟩ by decide]; norm_num [Flt.datum, f32], rfl⟩

end ZkLoc
