import Verif.Expr

/-!
# Laws of the IEEE-754 operations on data
-/

namespace ZkLoc

open Ieee (Datum)

variable {F : Ieee.Format}

/-- A datum of the format: its magnitude, if it is a number, is a representable one of the finite range. -/
def IsDatum (F : Ieee.Format) (d : Datum) : Prop := ∀ s a, d = .fin s a → Ieee.Representable F a ∧ a < 2 ^ (F.bias + 1)

theorem encodes_isDatum {p : ℕ} [Fact p.Prime] {b : ℕ} {f : Fmt} (G : Good p b f) {r : FloatVar p} {d : Datum} (h : Encodes f r d) :
    IsDatum ⟨f.E, f.M⟩ d := by
  obtain ⟨x, hx, rfl, rfl⟩ := encodes_iff.1 h
  rintro s a hd
  obtain ⟨ha, rfl, rfl⟩ := datum_fin_iff.1 hd
  refine ⟨valid_representable G hx ha, ?_⟩
  have hb : (Ieee.Format.bias ⟨f.E, f.M⟩) + 1 = f.eMax := by simp [Ieee.Format.bias, Fmt.eMax]
  rw [hb]
  have h1 : x.mag f < 2 ^ (x.exp + 1) := pow_real_lt hx.man_lt
  have h2 := hx.exp_fin G ha
  exact lt_of_lt_of_le h1 (zpow_le_zpow_right₀ (by norm_num) (by omega))

theorem rounds_self {s : Bool} {a : ℝ} (h : Ieee.Representable F a) (ha : a < 2 ^ (F.bias + 1)) : Ieee.RoundsTo F s a (.fin s a) :=
  ⟨a, h.isRNE, fun _ => rfl, fun h => absurd ha (not_lt.2 h)⟩

theorem rounds_neg {s : Bool} {a : ℝ} {d : Datum} (h : Ieee.RoundsTo F s a d) : Ieee.RoundsTo F (!s) a d.neg := by
  obtain ⟨r, h1, h2, h3⟩ := h
  exact ⟨r, h1, fun h => by rw [h2 h]; rfl, fun h => by rw [h3 h]; rfl⟩

theorem Datum.neg_neg (d : Datum) : d.neg.neg = d := by cases d <;> simp [Datum.neg]

theorem signed_sign {s : Bool} {a : ℝ} (h : 0 < a) : decide (Ieee.signed s a < 0) = s := by
  cases s <;> simp [Ieee.signed, h.le, h]

theorem abs_signed {s : Bool} {a : ℝ} (h : 0 ≤ a) : |Ieee.signed s a| = a := by
  cases s <;> simp [Ieee.signed, abs_of_nonneg h]

theorem ieee_add_comm {x y d : Datum} (h : Ieee.Add F x y d) : Ieee.Add F y x d := by
  cases x <;> cases y <;> simp only [Ieee.Add] at h ⊢ <;> try exact h
  · rename_i s t
    rw [h]
    cases s <;> cases t <;> rfl
  · rename_i s a t c
    rw [add_comm (Ieee.signed t c)]
    refine ⟨fun h0 => ?_, h.2⟩
    rw [h.1 h0]
    cases s <;> cases t <;> rfl

theorem topCancel_comm {f : Fmt} {x y : Datum} : TopCancel f x y ↔ TopCancel f y x := by
  constructor <;> rintro ⟨s, t, a, h1, h2, h3, h4⟩ <;> exact ⟨t, s, a, h2, h1, h3.symm, h4⟩

theorem code_add_comm {f : Fmt} {x y d : Datum} (h : CodeAdd f x y d) : CodeAdd f y x d :=
  ⟨fun hn => ieee_add_comm (h.1 (fun ht => hn (topCancel_comm.1 ht))), fun ht => h.2 (topCancel_comm.1 ht)⟩

theorem ieee_mul_comm {x y d : Datum} (h : Ieee.Mul F x y d) : Ieee.Mul F y x d := by
  cases x <;> cases y <;> simp only [Ieee.Mul] at h ⊢ <;> try exact h
  all_goals
    rw [Bool.xor_comm]
    first
    | exact h
    | (rw [mul_comm]; exact h)

/-- The sum of the negated summands, unless they cancel. -/
theorem ieee_add_neg {x y d : Datum} (hn : ¬ Cancel x y) (h : Ieee.Add F x y d) (hx : IsDatum F x) (hy : IsDatum F y) :
    Ieee.Add F x.neg y.neg d.neg := by
  cases x <;> cases y <;> simp only [Ieee.Add, Datum.neg] at h ⊢ <;> try (subst h; rfl)
  · rename_i s t
    rw [h]
    cases s <;> cases t <;> rfl
  · rename_i s a t c
    have ha := ((hx s a rfl).1).nonneg
    have hc := ((hy t c rfl).1).nonneg
    have e : Ieee.signed (!s) a + Ieee.signed (!t) c = -(Ieee.signed s a + Ieee.signed t c) := by
      rw [signed_not, signed_not]; ring
    rw [e, abs_neg]
    constructor
    · intro h0
      have h0' : Ieee.signed s a + Ieee.signed t c = 0 := by linarith
      rw [h.1 h0']
      by_cases hst : s = t
      · subst hst; simp [Datum.neg]
      · exfalso
        refine hn ⟨s, t, a, rfl, ?_, hst⟩
        have : a = c := by cases s <;> cases t <;> simp [Ieee.signed] at h0' hst <;> linarith
        rw [this]
    · intro h0
      have h0' : Ieee.signed s a + Ieee.signed t c ≠ 0 := by intro h1; apply h0; rw [h1]; simp
      have h1 := rounds_neg (h.2 h0')
      have e2 : (!decide (Ieee.signed s a + Ieee.signed t c < 0)) = decide (-(Ieee.signed s a + Ieee.signed t c) < 0) := by
        rcases lt_or_gt_of_ne h0' with h | h
        · rw [decide_eq_true h, decide_eq_false (by linarith)]; rfl
        · rw [decide_eq_false (by linarith), decide_eq_true (by linarith)]; rfl
      rw [← e2]
      exact h1

theorem ieee_mul_neg {x y d : Datum} (h : Ieee.Mul F x y d) : Ieee.Mul F x.neg y d.neg := by
  cases x <;> cases y <;> simp only [Ieee.Mul, Datum.neg] at h ⊢ <;> try (subst h; rfl)
  · rename_i s t; subst h; cases s <;> cases t <;> rfl
  · rename_i s t b
    refine ⟨fun h0 => by rw [h.1 h0], fun h0 => by rw [h.2 h0]; cases s <;> cases t <;> simp [Datum.neg]⟩
  · rename_i s a t
    refine ⟨fun h0 => by rw [h.1 h0], fun h0 => by rw [h.2 h0]; cases s <;> cases t <;> simp [Datum.neg]⟩
  · rename_i s a t c
    have := rounds_neg h
    have e : (!(xor s t)) = xor (!s) t := by cases s <;> cases t <;> rfl
    rwa [e] at this

theorem ieee_div_neg {x y d : Datum} (h : Ieee.Div F x y d) : Ieee.Div F x.neg y d.neg := by
  cases x <;> cases y <;> simp only [Ieee.Div, Datum.neg] at h ⊢ <;> try (subst h; rfl)
  · rename_i s t b; subst h; cases s <;> cases t <;> rfl
  · rename_i s a t; subst h; cases s <;> cases t <;> rfl
  · rename_i s a t c
    have e : (!(xor s t)) = xor (!s) t := by cases s <;> cases t <;> rfl
    refine ⟨fun h0 h1 => by rw [h.1 h0 h1], fun h0 h1 => by rw [h.2.1 h0 h1]; cases s <;> cases t <;> simp [Datum.neg], fun h0 => ?_⟩
    have := rounds_neg (h.2.2 h0)
    rwa [e] at this

theorem ieee_mul_one {x : Datum} (hx : IsDatum F x) : Ieee.Mul F x (.fin false 1) x := by
  cases x <;> simp only [Ieee.Mul]
  · simp
  · rename_i s a
    rw [mul_one, Bool.xor_false]
    exact rounds_self (hx s a rfl).1 (hx s a rfl).2

theorem ieee_div_one {x : Datum} (hx : IsDatum F x) : Ieee.Div F x (.fin false 1) x := by
  cases x <;> simp only [Ieee.Div]
  · simp
  · rename_i s a
    rw [div_one, Bool.xor_false]
    exact ⟨by simp, by simp, fun _ => rounds_self (hx s a rfl).1 (hx s a rfl).2⟩

/-- Adding a zero of sign `t` changes nothing, except that `-0 + +0 = +0`. -/
theorem ieee_add_zero {x : Datum} {t : Bool} (hx : IsDatum F x) (h : x ≠ .fin true 0 ∨ t = true) : Ieee.Add F x (.fin t 0) x := by
  cases x <;> simp only [Ieee.Add]
  rename_i s a
  obtain ⟨h1, h2⟩ := hx s a rfl
  have ha := h1.nonneg
  have e : Ieee.signed t 0 = 0 := by cases t <;> simp [Ieee.signed]
  rw [e, add_zero]
  constructor
  · intro h0
    have : a = 0 := by cases s <;> simpa [Ieee.signed] using h0
    subst this
    cases s <;> cases t <;> simp at h ⊢
  · intro h0
    have hpos : 0 < a := lt_of_le_of_ne ha (fun h => h0 (by rw [← h]; cases s <;> simp [Ieee.signed]))
    rw [signed_sign hpos, abs_signed ha]
    exact rounds_self h1 h2

/-- A number divided by itself. -/
theorem ieee_div_self {s : Bool} {a : ℝ} (ha : a ≠ 0) (h1 : Ieee.Representable F 1) (h2 : (1:ℝ) < 2 ^ (F.bias + 1)) :
    Ieee.Div F (.fin s a) (.fin s a) (.fin false 1) := by
  simp only [Ieee.Div]
  rw [Bool.xor_self, div_self ha]
  exact ⟨fun h => absurd h ha, fun h => absurd h ha, fun _ => rounds_self h1 h2⟩

/-- Doubling is adding to itself. -/
theorem ieee_double {x d : Datum} (hx : IsDatum F x) (h : Ieee.Mul F x (.fin false 2) d) : Ieee.Add F x x d := by
  cases x <;> simp only [Ieee.Mul, Ieee.Add] at h ⊢
  · exact h
  · simpa using h
  · rename_i s a
    have ha := (hx s a rfl).1.nonneg
    have e : Ieee.signed s a + Ieee.signed s a = Ieee.signed s (a * 2) := by cases s <;> simp [Ieee.signed] <;> ring
    rw [e, Bool.xor_false] at *
    constructor
    · intro h0
      have : a = 0 := by cases s <;> simpa [Ieee.signed] using h0
      subst this
      obtain ⟨r, h1, h2, h3⟩ := h
      rw [zero_mul] at h1
      have hz : Ieee.Representable F 0 := ⟨0, F.qmin, by positivity, le_rfl, by simp⟩
      obtain rfl := h1.unique hz.isRNE
      rw [h2 (by positivity)]
      simp
    · intro h0
      have hpos : 0 < a * 2 := lt_of_le_of_ne (by linarith) (fun h => h0 (by rw [← h]; cases s <;> simp [Ieee.signed]))
      rw [signed_sign hpos, abs_signed hpos.le]
      exact h

/-- `x - y` and `y - x`, for operands that are not one and the same number. -/
theorem ieee_sub_swap {x y d : Datum} (hx : IsDatum F x) (hy : IsDatum F y) (hn : ∀ s a, ¬ (x = .fin s a ∧ y = .fin s a))
    (h : Ieee.Sub F x y d) : Ieee.Sub F y x d.neg := by
  have hy' : IsDatum F y.neg := by
    rintro s a ha
    refine hy (!s) a ?_
    rw [← Datum.neg_neg y, ha]; rfl
  have hc : ¬ Cancel x y.neg := by
    rintro ⟨s, t, a, rfl, h2, h3⟩
    refine hn s a ⟨rfl, ?_⟩
    rw [← Datum.neg_neg y, h2]
    have : (!t) = s := by cases s <;> cases t <;> simp at h3 ⊢
    simp [Datum.neg, this]
  have := ieee_add_neg hc (sub_iff_add_neg.1 h) hx hy'
  rw [Datum.neg_neg] at this
  exact sub_iff_add_neg.2 (ieee_add_comm this)

/-! ### Monotonicity -/

theorem isRNE_mono {u v r q : ℝ} (hu : Ieee.IsRNE F u r) (hv : Ieee.IsRNE F v q) (h : u ≤ v) : r ≤ q := by
  by_contra hlt
  rw [not_le] at hlt
  have h1 := hu.nearest q hv.repr
  have h2 := hv.nearest r hu.repr
  have e1 : r + q ≤ 2 * u := by
    rcases le_or_gt u q with h | h
    · rw [abs_of_nonpos (by linarith : u - r ≤ 0), abs_of_nonpos (by linarith : u - q ≤ 0)] at h1; linarith
    · rw [abs_of_pos (by linarith : 0 < u - q)] at h1
      rcases le_or_gt u r with h' | h'
      · rw [abs_of_nonpos (by linarith : u - r ≤ 0)] at h1; linarith
      · linarith
  have e2 : 2 * v ≤ r + q := by
    rcases le_or_gt r v with h | h
    · rw [abs_of_nonneg (by linarith : 0 ≤ v - r), abs_of_nonneg (by linarith : 0 ≤ v - q)] at h2; linarith
    · rw [abs_of_neg (by linarith : v - r < 0)] at h2
      rcases le_or_gt v q with h' | h'
      · linarith
      · rw [abs_of_pos (by linarith : 0 < v - q)] at h2; linarith
  have : u = v := by linarith
  subst this
  exact absurd (hu.unique hv) (ne_of_gt hlt)

theorem rounds_le_pos {u v : ℝ} {d e : Datum} (hd : Ieee.RoundsTo F false u d) (he : Ieee.RoundsTo F false v e) (h : u ≤ v) :
    Ieee.Le d e := by
  obtain ⟨r, h1, h2, h3⟩ := hd
  obtain ⟨q, h1', h2', h3'⟩ := he
  have hrq := isRNE_mono h1 h1' h
  rcases lt_or_ge q ((2:ℝ) ^ (F.bias + 1)) with hq | hq
  · rw [h2 (by linarith), h2' hq]
    exact ⟨_, _, rfl, rfl, by simpa [Ieee.signed] using hrq⟩
  · rw [h3' hq]
    rcases lt_or_ge r ((2:ℝ) ^ (F.bias + 1)) with hr | hr
    · rw [h2 hr]; exact ⟨_, _, rfl, rfl, le_top⟩
    · rw [h3 hr]; exact ⟨_, _, rfl, rfl, le_rfl⟩

theorem le_neg {d e : Datum} (h : Ieee.Le d e) : Ieee.Le e.neg d.neg := by
  obtain ⟨a, c, h1, h2, h3⟩ := h
  have key : ∀ {d : Datum} {a}, d.value = some a → d.neg.value = some (-a) := by
    intro d a h
    cases d with
    | nan => cases h
    | inf s => cases s <;> simp [Datum.value, Datum.neg] at h ⊢ <;> rw [← h] <;> rfl
    | fin s x =>
      simp only [Datum.value, Datum.neg, Option.some.injEq] at h ⊢
      rw [← h, signed_not]; rfl
  exact ⟨-c, -a, key h2, key h1, EReal.neg_le_neg_iff.2 h3⟩

/-- The sign of a rounded result. -/
theorem rounds_sign {s : Bool} {v : ℝ} {d : Datum} (h : Ieee.RoundsTo F s v d) :
    ∃ a, d.value = some a ∧ (s = false → 0 ≤ a) ∧ (s = true → a ≤ 0) := by
  obtain ⟨r, h1, h2, h3⟩ := h
  have hr := h1.repr.nonneg
  rcases lt_or_ge r ((2:ℝ) ^ (F.bias + 1)) with h | h
  · rw [h2 h]
    refine ⟨_, rfl, ?_, ?_⟩
    · rintro rfl; simpa [Ieee.signed] using hr
    · rintro rfl; simpa [Ieee.signed] using hr
  · rw [h3 h]
    exact ⟨_, rfl, by rintro rfl; simp, by rintro rfl; simp⟩

/-- The datum `d` is the signed real `u` rounded (a zero of either sign for 0). -/
def SignedRound (F : Ieee.Format) (u : ℝ) (d : Datum) : Prop :=
  (u = 0 → ∃ s, d = .fin s 0) ∧ (u ≠ 0 → Ieee.RoundsTo F (decide (u < 0)) |u| d)

theorem signedRound_mono {u v : ℝ} {d e : Datum} (hd : SignedRound F u d) (he : SignedRound F v e) (h : u ≤ v) : Ieee.Le d e := by
  have val : ∀ {u d}, SignedRound F u d → ∃ a, d.value = some a ∧ (0 ≤ u → 0 ≤ a) ∧ (u ≤ 0 → a ≤ 0) := by
    intro u d hd
    by_cases h0 : u = 0
    · obtain ⟨s, rfl⟩ := hd.1 h0
      refine ⟨_, rfl, ?_, ?_⟩ <;> cases s <;> simp [Ieee.signed]
    · obtain ⟨a, h1, h2, h3⟩ := rounds_sign (hd.2 h0)
      refine ⟨a, h1, fun h => h2 (by simp; exact h), fun h => h3 (by simp; exact lt_of_le_of_ne h h0)⟩
  obtain ⟨a, ha, ha1, ha2⟩ := val hd
  obtain ⟨c, hc, hc1, hc2⟩ := val he
  by_cases hmix : u ≤ 0 ∧ 0 ≤ v
  · exact ⟨a, c, ha, hc, le_trans (ha2 hmix.1) (hc1 hmix.2)⟩
  · rcases lt_or_ge 0 u with hu | hu
    · have hv : 0 < v := by linarith
      have h1 := hd.2 hu.ne'
      have h2 := he.2 hv.ne'
      rw [decide_eq_false (by linarith), abs_of_pos hu] at h1
      rw [decide_eq_false (by linarith), abs_of_pos hv] at h2
      exact rounds_le_pos h1 h2 h
    · have hv : v < 0 := by by_contra hh; exact hmix ⟨hu, not_lt.1 hh⟩
      have hu' : u < 0 := by linarith
      have h1 := rounds_neg (hd.2 hu'.ne)
      have h2 := rounds_neg (he.2 hv.ne)
      rw [decide_eq_true hu', abs_of_neg hu'] at h1
      rw [decide_eq_true hv, abs_of_neg hv] at h2
      have := le_neg (rounds_le_pos h2 h1 (by linarith))
      rwa [Datum.neg_neg, Datum.neg_neg] at this

theorem add_signedRound {s t : Bool} {a c : ℝ} {d : Datum} (h : Ieee.Add F (.fin s a) (.fin t c) d) :
    SignedRound F (Ieee.signed s a + Ieee.signed t c) d := by
  simp only [Ieee.Add] at h
  exact ⟨fun h0 => ⟨_, h.1 h0⟩, h.2⟩

/-- Addition is monotone. -/
theorem ieee_add_mono {x y z d e : Datum} (h : Ieee.Le x y) (hd : Ieee.Add F x z d) (he : Ieee.Add F y z e) (hdn : d ≠ .nan) (hen : e ≠ .nan) :
    Ieee.Le d e := by
  obtain ⟨u, v, h1, h2, h3⟩ := h
  have refl_inf : ∀ s, Ieee.Le (.inf s) (.inf s) := fun s => ⟨_, _, rfl, rfl, le_rfl⟩
  have le_pinf : ∀ {x : Datum} {u}, x.value = some u → Ieee.Le x (.inf false) := fun h => ⟨_, _, h, rfl, le_top⟩
  have ninf_le : ∀ {x : Datum} {u}, x.value = some u → Ieee.Le (.inf true) x := fun h => ⟨_, _, rfl, h, bot_le⟩
  have valn : ∀ {x : Datum}, x ≠ .nan → ∃ u, x.value = some u := by
    intro x hx; cases x with
    | nan => exact absurd rfl hx
    | inf s => exact ⟨_, rfl⟩
    | fin s a => exact ⟨_, rfl⟩
  cases z with
  | nan => cases x <;> simp only [Ieee.Add] at hd <;> exact absurd hd hdn
  | inf t =>
    have key : ∀ {x d : Datum}, Ieee.Add F x (.inf t) d → d ≠ .nan → d = .inf t := by
      intro x d hd hdn
      cases x with
      | nan => simp only [Ieee.Add] at hd; exact absurd hd hdn
      | inf s =>
        simp only [Ieee.Add] at hd
        by_cases hst : s = t
        · rw [if_pos hst] at hd; rw [hd, hst]
        · rw [if_neg hst] at hd; exact absurd hd hdn
      | fin s a => simpa only [Ieee.Add] using hd
    rw [key hd hdn, key he hen]
    exact refl_inf t
  | fin t c =>
    obtain ⟨w, hw⟩ := valn hdn
    obtain ⟨w', hw'⟩ := valn hen
    cases x with
    | nan => cases h1
    | inf s =>
      simp only [Ieee.Add] at hd
      subst hd
      cases s
      · cases y with
        | nan => cases h2
        | inf s' =>
          simp only [Ieee.Add] at he
          subst he
          cases s'
          · exact refl_inf _
          · simp only [Datum.value, Option.some.injEq, Bool.false_eq_true, if_false, if_true] at h1 h2
            rw [← h1, ← h2] at h3; simp at h3
        | fin s' a' =>
          simp only [Datum.value, Option.some.injEq, Bool.false_eq_true, if_false] at h1 h2
          rw [← h1, ← h2] at h3; simp at h3
      · exact ninf_le hw'
    | fin s a =>
      cases y with
      | nan => cases h2
      | inf s' =>
        simp only [Ieee.Add] at he
        subst he
        cases s'
        · exact le_pinf hw
        · simp only [Datum.value, Option.some.injEq, if_true] at h1 h2
          rw [← h1, ← h2] at h3; simp at h3
      | fin s' a' =>
        refine signedRound_mono (add_signedRound hd) (add_signedRound he) ?_
        simp only [Datum.value, Option.some.injEq] at h1 h2
        rw [← h1, ← h2, EReal.coe_le_coe_iff] at h3
        linarith

/-- The square root is monotone. -/
theorem ieee_sqrt_mono {x y d e : Datum} (hx : IsDatum F x) (hy : IsDatum F y) (h : Ieee.Le x y) (hd : Ieee.Sqrt F x d) (he : Ieee.Sqrt F y e)
    (hdn : d ≠ .nan) (hen : e ≠ .nan) : Ieee.Le d e := by
  have key : ∀ {x d : Datum}, IsDatum F x → Ieee.Sqrt F x d → d ≠ .nan → (x = .inf false ∧ d = .inf false) ∨
      ∃ s a, x = .fin s a ∧ 0 ≤ Ieee.signed s a ∧ Ieee.signed s a = a ∧ SignedRound F (Real.sqrt a) d := by
    intro x d hx hd hdn
    cases x with
    | nan => simp only [Ieee.Sqrt] at hd; exact absurd hd hdn
    | inf s => cases s <;> simp [Ieee.Sqrt] at hd
               · exact Or.inl ⟨rfl, hd⟩
               · exact absurd hd hdn
    | fin s a =>
      simp only [Ieee.Sqrt] at hd
      have ha := (hx s a rfl).1.nonneg
      right
      by_cases h0 : a = 0
      · subst h0
        refine ⟨s, 0, rfl, ?_, ?_, fun _ => ⟨_, hd.1 rfl⟩, fun h => absurd Real.sqrt_zero h⟩ <;> cases s <;> simp [Ieee.signed]
      · cases s
        · have hp : 0 < Real.sqrt a := Real.sqrt_pos.2 (lt_of_le_of_ne ha (Ne.symm h0))
          refine ⟨false, a, rfl, ha, rfl, fun h => absurd h hp.ne', fun _ => ?_⟩
          rw [decide_eq_false (by linarith), abs_of_pos hp]
          exact hd.2.2 h0 rfl
        · exact absurd (hd.2.1 h0 rfl) hdn
  have valn : ∃ u, d.value = some u := by
    cases d with
    | nan => exact absurd rfl hdn
    | inf s => exact ⟨_, rfl⟩
    | fin s a => exact ⟨_, rfl⟩
  obtain ⟨w, hw⟩ := valn
  obtain ⟨u, v, h1, h2, h3⟩ := h
  rcases key hy he hen with ⟨rfl, rfl⟩ | ⟨t, c, rfl, hc, hc', hc''⟩
  · exact ⟨_, _, hw, rfl, le_top⟩
  · rcases key hx hd hdn with ⟨rfl, rfl⟩ | ⟨s, a, rfl, ha, ha', ha''⟩
    · simp only [Datum.value, Option.some.injEq, Bool.false_eq_true, if_false] at h1 h2
      rw [← h1, ← h2] at h3; simp at h3
    · refine signedRound_mono ha'' hc'' (Real.sqrt_le_sqrt ?_)
      simp only [Datum.value, Option.some.injEq] at h1 h2
      rw [← h1, ← h2, EReal.coe_le_coe_iff, ha', hc'] at h3
      exact h3

end ZkLoc
