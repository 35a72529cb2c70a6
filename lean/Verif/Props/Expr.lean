import Verif.Expr
import Verif.Props.AnyWidth

/-!
# C31, C32: expressions, and independence of field and table width
-/

namespace ZkLoc

open Ieee (Datum)

variable {p : ℕ} [Fact p.Prime] {b : ℕ} {f : Fmt}

/-! ### C31: expressions -/

/-- **C31** Whatever the expression and the values of the variables, the honest prover succeeds, and the result encodes the value of
the expression, sums being those of `C15`. -/
theorem C31_expr_complete (G : Good p b f) (h64 : 1 + f.E + f.M ≤ 64) {e : Expr} (hw : e.WF f) {env : ℕ → FloatVar p} {denv : ℕ → Datum}
    (henv : ∀ i, Encodes f (env i) (denv i)) :
    ∃ r d, (e.circ f env).run b = some r ∧ Encodes f r d ∧ e.Eval f (CodeAdd f) (CodeSub f) denv d := by
  choose env' hv hd he using fun i => encodes_iff.1 (henv i)
  obtain rfl : env = fun i => ((env' i).toVar : FloatVar p) := funext he
  obtain rfl : denv = fun i => (env' i).datum f := funext fun i => (hd i).symm
  obtain ⟨h1, h2⟩ := Expr.run_circ G h64 hv hw
  exact ⟨_, _, h2, encodes_iff.2 ⟨_, h1, rfl, rfl⟩, Expr.eval_evalZ G h64 hv hw⟩

theorem CodeAdd.unique {x y d d' : Datum} (h : CodeAdd f x y d) (h' : CodeAdd f x y d') : d = d' := by
  by_cases ht : TopCancel f x y
  · rw [h.2 ht, h'.2 ht]
  · exact (h.1 ht).unique (h'.1 ht)

theorem CodeSub.unique {x y d d' : Datum} (h : CodeSub f x y d) (h' : CodeSub f x y d') : d = d' := by
  by_cases ht : TopCancel f x y.neg
  · rw [h.2 ht, h'.2 ht]
  · exact (h.1 ht).unique (h'.1 ht)

/-- **C31** The value of an expression is determined by those of the variables. -/
theorem C31_value_unique {A S : Datum → Datum → Datum → Prop} (hA : ∀ {x y d d'}, A x y d → A x y d' → d = d')
    (hS : ∀ {x y d d'}, S x y d → S x y d' → d = d') {env : ℕ → Datum} {e : Expr} :
    ∀ {d d'}, e.Eval f A S env d → e.Eval f A S env d' → d = d' := by
  induction e with
  | var i => intro d d' h h'; exact Eq.trans h (Eq.symm h')
  | const v => intro d d' h h'; exact Eq.trans h (Eq.symm h')
  | add a b iha ihb =>
    rintro d d' ⟨x, y, h1, h2, h3⟩ ⟨x', y', h1', h2', h3'⟩
    obtain rfl := iha h1 h1'; obtain rfl := ihb h2 h2'; exact hA h3 h3'
  | sub a b iha ihb =>
    rintro d d' ⟨x, y, h1, h2, h3⟩ ⟨x', y', h1', h2', h3'⟩
    obtain rfl := iha h1 h1'; obtain rfl := ihb h2 h2'; exact hS h3 h3'
  | mul a b iha ihb =>
    rintro d d' ⟨x, y, h1, h2, h3⟩ ⟨x', y', h1', h2', h3'⟩
    obtain rfl := iha h1 h1'; obtain rfl := ihb h2 h2'; exact h3.unique h3'
  | div a b iha ihb =>
    rintro d d' ⟨x, y, h1, h2, h3⟩ ⟨x', y', h1', h2', h3'⟩
    obtain rfl := iha h1 h1'; obtain rfl := ihb h2 h2'; exact h3.unique h3'
  | sqrt a iha =>
    rintro d d' ⟨x, h1, h3⟩ ⟨x', h1', h3'⟩
    obtain rfl := iha h1 h1'; exact h3.unique h3'
  | neg a iha =>
    rintro d d' ⟨x, h1, rfl⟩ ⟨x', h1', rfl⟩
    obtain rfl := iha h1 h1'; rfl
  | abs a iha =>
    rintro d d' ⟨x, h1, rfl⟩ ⟨x', h1', rfl⟩
    obtain rfl := iha h1 h1'; rfl
  | trunc a iha =>
    rintro d d' ⟨x, h1, h3⟩ ⟨x', h1', h3'⟩
    obtain rfl := iha h1 h1'; exact h3.unique h3'
  | floor a iha =>
    rintro d d' ⟨x, h1, h3⟩ ⟨x', h1', h3'⟩
    obtain rfl := iha h1 h1'; exact h3.unique h3'
  | ceil a iha =>
    rintro d d' ⟨x, h1, h3⟩ ⟨x', h1', h3'⟩
    obtain rfl := iha h1 h1'; exact h3.unique h3'
  | ite r a b t e iha ihb iht ihe =>
    rintro d d' ⟨x, y, u, v, h1, h2, h3, h4, h5, h6⟩ ⟨x', y', u', v', h1', h2', h3', h4', h5', h6'⟩
    obtain rfl := iha h1 h1'; obtain rfl := ihb h2 h2'; obtain rfl := iht h3 h3'; obtain rfl := ihe h4 h4'
    by_cases h : r.Holds x y
    · rw [h5 h, h5' h]
    · rw [h6 h, h6' h]

/-- Without cancellation in the top binade the value the honest prover gets is the IEEE value. -/
theorem Expr.ieee_of_code {env : ℕ → Datum} {e : Expr} (hn : e.NoTopCancel f env) :
    ∀ {d}, e.Eval f (CodeAdd f) (CodeSub f) env d → e.IeeeEval f env d := by
  induction e with
  | var i => exact id
  | const v => exact id
  | add a b iha ihb =>
    rintro d ⟨x, y, h1, h2, h3⟩
    exact ⟨x, y, iha hn.1 h1, ihb hn.2.1 h2, h3.1 (hn.2.2 x y (iha hn.1 h1) (ihb hn.2.1 h2))⟩
  | sub a b iha ihb =>
    rintro d ⟨x, y, h1, h2, h3⟩
    exact ⟨x, y, iha hn.1 h1, ihb hn.2.1 h2, h3.1 (hn.2.2 x y (iha hn.1 h1) (ihb hn.2.1 h2))⟩
  | mul a b iha ihb => rintro d ⟨x, y, h1, h2, h3⟩; exact ⟨x, y, iha hn.1 h1, ihb hn.2 h2, h3⟩
  | div a b iha ihb => rintro d ⟨x, y, h1, h2, h3⟩; exact ⟨x, y, iha hn.1 h1, ihb hn.2 h2, h3⟩
  | sqrt a iha => rintro d ⟨x, h1, h3⟩; exact ⟨x, iha hn h1, h3⟩
  | neg a iha => rintro d ⟨x, h1, h3⟩; exact ⟨x, iha hn h1, h3⟩
  | abs a iha => rintro d ⟨x, h1, h3⟩; exact ⟨x, iha hn h1, h3⟩
  | trunc a iha => rintro d ⟨x, h1, h3⟩; exact ⟨x, iha hn h1, h3⟩
  | floor a iha => rintro d ⟨x, h1, h3⟩; exact ⟨x, iha hn h1, h3⟩
  | ceil a iha => rintro d ⟨x, h1, h3⟩; exact ⟨x, iha hn h1, h3⟩
  | ite r a b t e iha ihb iht ihe =>
    rintro d ⟨x, y, u, v, h1, h2, h3, h4, h5⟩
    exact ⟨x, y, u, v, iha hn.1 h1, ihb hn.2.1 h2, iht hn.2.2.1 h3, ihe hn.2.2.2 h4, h5⟩

/-- **C31** Unless operands of the top binade cancel (the case of `C15_add_top_cancel_gives_inf`), the honest prover obtains the
IEEE-754 value of the expression. -/
theorem C31_expr_ieee_partial (G : Good p b f) (h64 : 1 + f.E + f.M ≤ 64) {e : Expr} (hw : e.WF f) {env : ℕ → FloatVar p} {denv : ℕ → Datum}
    (henv : ∀ i, Encodes f (env i) (denv i)) (hn : e.NoTopCancel f denv) :
    ∃ r d, (e.circ f env).run b = some r ∧ Encodes f r d ∧ e.IeeeEval f denv d := by
  obtain ⟨r, d, h1, h2, h3⟩ := C31_expr_complete G h64 hw henv
  exact ⟨r, d, h1, h2, Expr.ieee_of_code hn h3⟩

theorem Rel.sat_circ (G : Good p b f) (r : Rel) {x y : FloatVar p} {dx dy : Datum} (ex : Encodes f x dx) (ey : Encodes f y dy) {st : Bool}
    {c : ZMod p} (h : (r.circ f x y).Sat b st c) : c = wireOf (r.Holds dx dy) := by
  cases r
  · exact ((C24_isLt G ex ey).2 st c).1 h
  · exact ((C24_isLe G ex ey).2 st c).1 h
  · exact ((C24_isGt G ex ey).2 st c).1 h
  · exact ((C24_isGe G ex ey).2 st c).1 h

theorem cancel_add {dx dy : Datum} (h : Cancel dx dy) : Ieee.Add ⟨f.E, f.M⟩ dx dy (.fin false 0) := by
  obtain ⟨s, t, a, rfl, rfl, h⟩ := h
  have h0 : Ieee.signed s a + Ieee.signed t a = 0 := by cases s <;> cases t <;> simp [Ieee.signed] at h ⊢
  simp only [Ieee.Add]
  exact ⟨fun _ => by rw [if_neg h], fun hn => absurd h0 hn⟩

theorem add_tame (G : Good p b f) (hb : b ∣ f.pow2Size) {x y r : FloatVar p} {dx dy : Datum} (ex : Encodes f x dx) (ey : Encodes f y dy)
    (ht : ∀ d, Ieee.Add ⟨f.E, f.M⟩ dx dy d → ¬ Cancel dx dy ∧ ¬ Overflow dx dy d) {st : Bool} (hr : (fAdd f x y).Sat b st r) :
    ∃ d, Encodes f r d ∧ Ieee.Add ⟨f.E, f.M⟩ dx dy d := by
  have hnc : ¬ Cancel dx dy := fun h => (ht _ (cancel_add h)).1 h
  have hnt : ¬ TopCancel f dx dy := fun ⟨s, t, a, h1, h2, h3, _⟩ => hnc ⟨s, t, a, h1, h2, h3⟩
  rcases C16_add_sound_partial G hb ex ey hr with h | ⟨s, t, v, h1, h2, h3, -⟩ | ⟨h, -⟩ | ⟨s, v, t, w, h1, h2, h3, h4⟩
  · exact h
  · exact absurd ⟨s, t, v, h1, h2, h3⟩ hnc
  · exact absurd h hnt
  · obtain ⟨r', -, h5⟩ := C15_add_complete (b := b) G ex ey
    obtain ⟨d, -, hd⟩ := h5 hnt
    refine absurd ?_ (ht d hd).2
    subst h1 h2
    simp only [Ieee.Add] at hd
    exact ⟨_, _, _, _, _, rfl, rfl, overflowed_rounds h4 (hd.2 h3)⟩

theorem mul_tame (G : Good p b f) (hb : b ∣ f.pow2Size) {x y r : FloatVar p} {dx dy : Datum} (ex : Encodes f x dx) (ey : Encodes f y dy)
    (ht : ∀ d, Ieee.Mul ⟨f.E, f.M⟩ dx dy d → ¬ Overflow dx dy d) {st : Bool} (hr : (fMul f x y).Sat b st r) :
    ∃ d, Encodes f r d ∧ Ieee.Mul ⟨f.E, f.M⟩ dx dy d := by
  rcases C19_mul_sound_partial G hb ex ey hr with h | ⟨s, v, t, w, h1, h2, h3⟩
  · exact h
  · obtain ⟨r', d, -, -, hd⟩ := C18_mul_complete (b := b) G ex ey
    refine absurd ?_ (ht d hd)
    subst h1 h2
    simp only [Ieee.Mul] at hd
    exact ⟨_, _, _, _, _, rfl, rfl, overflowed_rounds h3 hd⟩

theorem div_tame (G : Good p b f) (hb : b ∣ f.pow2Size) {x y r : FloatVar p} {dx dy : Datum} (ex : Encodes f x dx) (ey : Encodes f y dy)
    (ht : ∀ d, Ieee.Div ⟨f.E, f.M⟩ dx dy d → ¬ (Overflow dx dy d ∧ ∀ s, dy ≠ .fin s 0)) {st : Bool} (hr : (fDiv f x y).Sat b st r) :
    ∃ d, Encodes f r d ∧ Ieee.Div ⟨f.E, f.M⟩ dx dy d := by
  rcases C21_div_sound_partial G hb ex ey hr with h | ⟨s, v, t, w, h1, h2, h0, h3⟩
  · exact h
  · obtain ⟨r', d, -, -, hd⟩ := C20_div_complete (b := b) G ex ey
    refine absurd ?_ (ht d hd)
    subst h1 h2
    simp only [Ieee.Div] at hd
    refine ⟨⟨_, _, _, _, _, rfl, rfl, overflowed_rounds h3 (hd.2.2 h0)⟩, fun s h => ?_⟩
    injection h with _ h
    exact h0 h

theorem overflow_neg {x y d : Datum} : Overflow x y.neg d ↔ Overflow x y d := by
  constructor
  · rintro ⟨s, a, t, c, u, rfl, h, rfl⟩
    cases y with
    | nan => cases h
    | inf => cases h
    | fin t' c' => exact ⟨_, _, _, _, _, rfl, rfl, rfl⟩
  · rintro ⟨s, a, t, c, u, rfl, rfl, rfl⟩
    exact ⟨_, _, _, _, _, rfl, rfl, rfl⟩

/-- **C31** Every prover, not only the honest one, obtains the IEEE-754 value of the expression as long as the evaluation stays clear
of the cases in which a single operation leaves a choice (`C16`, `C19`, `C21`, `C26`). -/
theorem C31_expr_sound_partial (G : Good p b f) (h64 : 1 + f.E + f.M ≤ 64) (hb : b ∣ f.pow2Size) {e : Expr} (hw : e.WF f)
    {env : ℕ → FloatVar p} {denv : ℕ → Datum} (henv : ∀ i, Encodes f (env i) (denv i)) (ht : e.Tame f denv) {st : Bool} :
    ∀ {r}, (e.circ f env).Sat b st r → ∃ d, Encodes f r d ∧ e.IeeeEval f denv d := by
  have hE := G.hE
  have hint : ∀ {a : Expr} {d}, (∀ s v, a.IeeeEval f denv (.fin s v) → ¬ (1 ≤ v ∧ v < 2)) → a.IeeeEval f denv d →
      ∀ s v, d = .fin s v → v < 1 ∨ 2 ≤ v := by
    intro a d h hd s v hv
    subst hv
    have := h s v hd
    rcases lt_or_ge v 1 with h1 | h1
    · exact Or.inl h1
    · rcases lt_or_ge v 2 with h2 | h2
      · exact absurd ⟨h1, h2⟩ this
      · exact Or.inr h2
  induction e with
  | var i =>
    intro r hr
    obtain rfl : r = env i := hr
    exact ⟨_, henv i, rfl⟩
  | const v =>
    intro r hr
    obtain rfl : r = newConstant f v := hr
    rw [newConstant_toVar (by omega) h64 hw]
    exact ⟨_, encodes_iff.2 ⟨_, fltOf_valid (by omega) hw, fltOf_datum (by omega) hw, rfl⟩, rfl⟩
  | add a c iha ihc =>
    intro r hr
    simp only [Expr.circ, Circ.bind_eq, Circ.sat_bind] at hr
    obtain ⟨x, hx, y, hy, hr⟩ := hr
    obtain ⟨dx, ex, vx⟩ := iha hw.1 ht.1 hx
    obtain ⟨dy, ey, vy⟩ := ihc hw.2 ht.2.1 hy
    obtain ⟨d, h1, h2⟩ := add_tame G hb ex ey (fun d hd => ht.2.2 dx dy d vx vy hd) hr
    exact ⟨d, h1, dx, dy, vx, vy, h2⟩
  | sub a c iha ihc =>
    intro r hr
    simp only [Expr.circ, Circ.bind_eq, Circ.sat_bind] at hr
    obtain ⟨x, hx, y, hy, hr⟩ := hr
    obtain ⟨dx, ex, vx⟩ := iha hw.1 ht.1 hx
    obtain ⟨dy, ey, vy⟩ := ihc hw.2 ht.2.1 hy
    obtain ⟨d, h1, h2⟩ := add_tame G hb ex (encodes_neg ey)
      (fun d hd => by rw [overflow_neg]; exact ht.2.2 dx dy d vx vy (sub_iff_add_neg.2 hd)) hr
    exact ⟨d, h1, dx, dy, vx, vy, sub_iff_add_neg.2 h2⟩
  | mul a c iha ihc =>
    intro r hr
    simp only [Expr.circ, Circ.bind_eq, Circ.sat_bind] at hr
    obtain ⟨x, hx, y, hy, hr⟩ := hr
    obtain ⟨dx, ex, vx⟩ := iha hw.1 ht.1 hx
    obtain ⟨dy, ey, vy⟩ := ihc hw.2 ht.2.1 hy
    obtain ⟨d, h1, h2⟩ := mul_tame G hb ex ey (fun d hd => ht.2.2 dx dy d vx vy hd) hr
    exact ⟨d, h1, dx, dy, vx, vy, h2⟩
  | div a c iha ihc =>
    intro r hr
    simp only [Expr.circ, Circ.bind_eq, Circ.sat_bind] at hr
    obtain ⟨x, hx, y, hy, hr⟩ := hr
    obtain ⟨dx, ex, vx⟩ := iha hw.1 ht.1 hx
    obtain ⟨dy, ey, vy⟩ := ihc hw.2 ht.2.1 hy
    obtain ⟨d, h1, h2⟩ := div_tame G hb ex ey (fun d hd => ht.2.2 dx dy d vx vy hd) hr
    exact ⟨d, h1, dx, dy, vx, vy, h2⟩
  | sqrt a iha =>
    intro r hr
    simp only [Expr.circ, Circ.bind_eq, Circ.sat_bind] at hr
    obtain ⟨x, hx, hr⟩ := hr
    obtain ⟨dx, ex, vx⟩ := iha hw ht hx
    obtain ⟨d, h1, h2⟩ := C23_sqrt_sound_partial G hb ex hr
    exact ⟨d, h1, dx, vx, h2⟩
  | neg a iha =>
    intro r hr
    simp only [Expr.circ, Circ.bind_eq, Circ.sat_bind] at hr
    obtain ⟨x, hx, hr⟩ := hr
    obtain ⟨dx, ex, vx⟩ := iha hw ht hx
    obtain rfl : r = fNeg x := hr
    exact ⟨_, encodes_neg ex, dx, vx, rfl⟩
  | abs a iha =>
    intro r hr
    simp only [Expr.circ, Circ.bind_eq, Circ.sat_bind] at hr
    obtain ⟨x, hx, hr⟩ := hr
    obtain ⟨dx, ex, vx⟩ := iha hw ht hx
    obtain rfl : r = fAbs x := hr
    exact ⟨_, encodes_abs ex, dx, vx, rfl⟩
  | trunc a iha =>
    intro r hr
    simp only [Expr.circ, Circ.bind_eq, Circ.sat_bind] at hr
    obtain ⟨x, hx, hr⟩ := hr
    obtain ⟨dx, ex, vx⟩ := iha hw ht.1 hx
    obtain ⟨d, h1, h2⟩ := (C26_sound_partial G hb ex (hint ht.2 vx)).1 hr
    exact ⟨d, h1, dx, vx, h2⟩
  | floor a iha =>
    intro r hr
    simp only [Expr.circ, Circ.bind_eq, Circ.sat_bind] at hr
    obtain ⟨x, hx, hr⟩ := hr
    obtain ⟨dx, ex, vx⟩ := iha hw ht.1 hx
    obtain ⟨d, h1, h2⟩ := (C26_sound_partial G hb ex (hint ht.2 vx)).2.1 hr
    exact ⟨d, h1, dx, vx, h2⟩
  | ceil a iha =>
    intro r hr
    simp only [Expr.circ, Circ.bind_eq, Circ.sat_bind] at hr
    obtain ⟨x, hx, hr⟩ := hr
    obtain ⟨dx, ex, vx⟩ := iha hw ht.1 hx
    obtain ⟨d, h1, h2⟩ := (C26_sound_partial G hb ex (hint ht.2 vx)).2.2 hr
    exact ⟨d, h1, dx, vx, h2⟩
  | ite q a c t e iha ihc iht ihe =>
    intro r hr
    simp only [Expr.circ, Circ.bind_eq, Circ.sat_bind] at hr
    obtain ⟨x, hx, y, hy, u, hu, v, hv, k, hk, hr⟩ := hr
    obtain ⟨dx, ex, vx⟩ := iha hw.1 ht.1 hx
    obtain ⟨dy, ey, vy⟩ := ihc hw.2.1 ht.2.1 hy
    obtain ⟨du, eu, vu⟩ := iht hw.2.2.1 ht.2.2.1 hu
    obtain ⟨dv, ev, vv⟩ := ihe hw.2.2.2 ht.2.2.2 hv
    obtain rfl := Rel.sat_circ G q ex ey hk
    have hsel := fun c => ((C42_select (b := b) c u v).2 st r).1
    by_cases h : q.Holds dx dy
    · have hr' := hsel true (by simpa [wireOf, h] using hr)
      rw [if_pos rfl] at hr'
      subst hr'
      exact ⟨du, eu, dx, dy, du, dv, vx, vy, vu, vv, fun _ => rfl, fun hn => absurd h hn⟩
    · have hr' := hsel false (by simpa [wireOf, h] using hr)
      rw [if_neg (by simp)] at hr'
      subst hr'
      exact ⟨dv, ev, dx, dy, du, dv, vx, vy, vu, vv, fun hn => absurd hn h, fun _ => rfl⟩

/-! Concrete cases: `(x + y) * (x - y) / sqrt (x * x + y * y)` at `x = 4`, `y = 3` is `7 / 5`, rounded; and
`floor x` if `x < y`, else `-y`. -/

/-- The expression of the first case. -/
def exprEx : Expr :=
  .div (.mul (.add (.var 0) (.var 1)) (.sub (.var 0) (.var 1))) (.sqrt (.add (.mul (.var 0) (.var 0)) (.mul (.var 1) (.var 1))))

example : (exprEx.circ f32 (fun i => if i = 0 then w32 0x40800000 else w32 0x40400000)).run 8 = some (w32 0x3FB33333) := by
  decide +kernel
example : ((Expr.ite .lt (.var 0) (.var 1) (.floor (.var 0)) (.neg (.var 1))).circ f32
    (fun i => if i = 0 then w32 0xC0200000 else w32 0x40400000)).run 8 = some (w32 0xC0400000) := by
  decide +kernel

/-- The hypotheses of the soundness theorem are met by a non-trivial expression: `x * x + 1` at `x = 3`. -/
example : (Expr.add (.mul (.var 0) (.var 0)) (.const 0x3F800000)).Tame f32 (fun _ => .fin false 3) := by
  have hc : Ieee.decodeBits ⟨f32.E, f32.M⟩ 0x3F800000 = .fin false 1 := by
    norm_num [Ieee.decodeBits, Ieee.Format.bias, f32]
    decide
  have h3 : ∀ {d}, Ieee.Mul ⟨f32.E, f32.M⟩ (.fin false 3) (.fin false 3) d → d = .fin false 9 := by
    intro d hd
    refine hd.unique ?_
    refine ⟨9, ?_, fun _ => rfl, fun h => ?_⟩
    · have : Ieee.Representable ⟨f32.E, f32.M⟩ 9 := ⟨9, 0, by norm_num [f32], by norm_num [Ieee.Format.qmin, Ieee.Format.emin, Ieee.Format.bias, f32], by norm_num⟩
      have h := this.isRNE
      norm_num
      exact h
    · norm_num [Ieee.Format.bias, f32] at h
  refine ⟨⟨trivial, trivial, ?_⟩, trivial, ?_⟩
  · rintro x y d (rfl : x = _) (rfl : y = _) hd ⟨_, _, _, _, _, -, -, h⟩
    rw [h3 hd] at h
    cases h
  · rintro x y d ⟨_, _, (rfl : _ = _), (rfl : _ = _), hx⟩ (rfl : y = _) hd
    obtain rfl := h3 hx
    rw [hc] at hd ⊢
    have h10 : d = .fin false 10 := by
      refine hd.unique ?_
      simp only [Ieee.Add, Ieee.signed]
      norm_num
      refine ⟨10, ?_, fun _ => rfl, fun h => ?_⟩
      · exact Ieee.Representable.isRNE ⟨10, 0, by norm_num [f32],
          by norm_num [Ieee.Format.qmin, Ieee.Format.emin, Ieee.Format.bias, f32], by norm_num⟩
      · norm_num [Ieee.Format.bias, f32] at h
    subst h10
    constructor
    · rintro ⟨s, t, a, h1, h2, h⟩
      injection h1 with h1 _
      injection h2 with h2 _
      exact h (h1.symm.trans h2)
    · rintro ⟨_, _, _, _, _, -, -, h⟩
      cases h

/-- **C31, the exception is real.** In `(x - x) * 0` with `x = 2^127` the honest prover obtains NaN; IEEE gives 0. -/
theorem C31_expr_violated :
    ((Expr.mul (.sub (.var 0) (.var 0)) (.const 0)).circ f32 (fun _ => w32 0x7F000000)).run 8 = some (w32 0x7FC00000) := by
  decide +kernel

/-! ### C32: independence of the field and of the table width -/

/-- **C32** The result of an expression is one and the same component record in every field and for every table width. -/
theorem C32_expr_independent (h64 : 1 + f.E + f.M ≤ 64) {e : Expr} (hw : e.WF f) {env : ℕ → Components}
    (henv : ∀ i, Canonical f.E f.M (env i)) :
    ∃ c : Components, ∀ (p : ℕ) [Fact p.Prime] (b : ℕ), Good p b f →
      Canonical f.E f.M c ∧ (e.circ f (fun i => ((env i).toVar : FloatVar p))).run b = some c.toVar := by
  choose env' hv hd using fun i => canonical_exists_valid (henv i)
  refine ⟨(e.evalZ f env').comps, fun p _ b G => ?_⟩
  obtain ⟨h1, h2⟩ := Expr.run_circ (p := p) (b := b) G h64 hv hw
  refine ⟨valid_comps_canonical h1, ?_⟩
  rw [comps_toVar, ← h2]
  congr 2
  funext i
  rw [← comps_toVar, hd]

/-- The two fields of the repository's tests and all table widths are instances: one record for all. -/
example {e : Expr} (hw : e.WF f32) {env : ℕ → Components} (henv : ∀ i, Canonical 8 23 (env i)) :
    ∃ c : Components, ∀ b, Width b →
      (e.circ f32 (fun i => ((env i).toVar : FloatVar bn254))).run b = some c.toVar ∧
      (e.circ f32 (fun i => ((env i).toVar : FloatVar bls12_381))).run b = some c.toVar := by
  obtain ⟨c, h⟩ := C32_expr_independent (f := f32) (by decide) hw henv
  exact ⟨c, fun b hb => ⟨(h bn254 b (good_bn254_f32 hb)).2, (h bls12_381 b (good_bls12_381_f32 hb)).2⟩⟩

/-- **C32** So is the outcome of a comparison. -/
theorem C32_compare_independent (r : Rel) {x y : Components} (cx : Canonical f.E f.M x) (cy : Canonical f.E f.M y) :
    ∃ v : Bool, ∀ (p : ℕ) [Fact p.Prime] (b : ℕ), Good p b f → ∀ st c,
      (r.circ f (x.toVar : FloatVar p) y.toVar).Sat b st c ↔ c = if v then 1 else 0 := by
  obtain ⟨x, hx, rfl⟩ := canonical_exists_valid cx
  obtain ⟨y, hy, rfl⟩ := canonical_exists_valid cy
  refine ⟨r.evalZ x y, fun p _ b G st c => ?_⟩
  rw [comps_toVar, comps_toVar]
  have h : c = (if r.evalZ x y then 1 else 0) ↔ c = B (r.evalZ x y) := Iff.rfl
  rw [h]
  cases r
  · exact (fLess_spec (p := p) (b := b) (H := True) G (hx.bdd G) (hy.bdd G) false).sat trivial st c
  · exact (fLess_spec (p := p) (b := b) (H := True) G (hx.bdd G) (hy.bdd G) true).sat trivial st c
  · exact (fLess_spec (p := p) (b := b) (H := True) G (hy.bdd G) (hx.bdd G) false).sat trivial st c
  · exact (fLess_spec (p := p) (b := b) (H := True) G (hy.bdd G) (hx.bdd G) true).sat trivial st c

/-- **C32** As long as the table width divides the size of the power table, also the results a dishonest prover can reach are the
same records whatever the field and the width. (For other widths they are not: `C41_f32_add_sub` and the forgeries.) -/
theorem C32_outcomes_independent_partial {x y : Components} (cx : Canonical f.E f.M x) (cy : Canonical f.E f.M y) :
    ∃ A M D S T F : Components → Prop, ∀ (p : ℕ) [Fact p.Prime] (b : ℕ), Good p b f → b ∣ f.pow2Size → ∀ st (r : FloatVar p),
      ((fAdd f x.toVar y.toVar).Sat b st r ↔ ∃ c, A c ∧ r = c.toVar) ∧
      ((fMul f x.toVar y.toVar).Sat b st r ↔ ∃ c, M c ∧ r = c.toVar) ∧
      ((fDiv f x.toVar y.toVar).Sat b st r ↔ ∃ c, D c ∧ r = c.toVar) ∧
      ((fSqrt f x.toVar).Sat b st r ↔ ∃ c, S c ∧ r = c.toVar) ∧
      ((fTrunc f x.toVar).Sat b st r ↔ ∃ c, T c ∧ r = c.toVar) ∧
      ((fFloor f x.toVar).Sat b st r ↔ ∃ c, F c ∧ r = c.toVar) := by
  obtain ⟨x, hx, rfl⟩ := canonical_exists_valid cx
  obtain ⟨y, hy, rfl⟩ := canonical_exists_valid cy
  refine ⟨fun c => ∃ c1 c2, c = (addZ f x y c1 c2).comps, fun c => ∃ c1, c = (mulZ f x y c1).comps,
    fun c => ∃ c1, c = (divZ f x y c1).comps, fun c => c = (sqrtZ f x).comps,
    fun c => ∃ c1 : Bool, (0 < x.exp → c1 = true) ∧ (x.exp < 0 → c1 = false) ∧ c = (truncZ f x c1).comps,
    fun c => ∃ c1 : Bool, (0 < x.exp → c1 = true) ∧ (x.exp < 0 → c1 = false) ∧ c = (floorZ f x c1).comps, fun p _ b G hb st r => ?_⟩
  rw [comps_toVar, comps_toVar]
  refine ⟨?_, ?_, ?_, ?_, ?_, ?_⟩
  · rw [(fAdd_spec (H := True) G (hx.bdd G) (hy.bdd G) hx.man_cases hy.man_cases (abn_of_eMax G hx hy) (fun _ => hb)).sat trivial st r]
    constructor
    · rintro ⟨c1, c2, rfl⟩; exact ⟨_, ⟨c1, c2, rfl⟩, (comps_toVar _).symm⟩
    · rintro ⟨_, ⟨c1, c2, rfl⟩, rfl⟩; exact ⟨c1, c2, comps_toVar _⟩
  · rw [(fMul_spec (H := True) G (hx.bdd G) (hy.bdd G) (fun _ => hb)).sat trivial st r]
    constructor
    · rintro ⟨c1, rfl⟩; exact ⟨_, ⟨c1, rfl⟩, (comps_toVar _).symm⟩
    · rintro ⟨_, ⟨c1, rfl⟩, rfl⟩; exact ⟨c1, comps_toVar _⟩
  · rw [(fDiv_spec (H := True) G (hx.bdd G) (hy.bdd G) hy.man_cases (fun _ => hb)).sat trivial st r]
    constructor
    · rintro ⟨c1, rfl⟩; exact ⟨_, ⟨c1, rfl⟩, (comps_toVar _).symm⟩
    · rintro ⟨_, ⟨c1, rfl⟩, rfl⟩; exact ⟨c1, comps_toVar _⟩
  · rw [(fSqrt_spec (H := True) G (hx.bdd G) (fun _ => hb)).sat trivial st r]
    constructor
    · rintro rfl; exact ⟨_, rfl, (comps_toVar _).symm⟩
    · rintro ⟨_, rfl, rfl⟩; exact comps_toVar _
  · rw [(fTrunc_spec (H := True) G (hx.bdd G) (fun _ => hb)).sat trivial st r]
    constructor
    · rintro ⟨c1, h1, h2, rfl⟩; exact ⟨_, ⟨c1, h1, h2, rfl⟩, (comps_toVar _).symm⟩
    · rintro ⟨_, ⟨c1, h1, h2, rfl⟩, rfl⟩; exact ⟨c1, h1, h2, comps_toVar _⟩
  · rw [(fFloor_spec (H := True) G (hx.bdd G) (fun _ => hb)).sat trivial st r]
    constructor
    · rintro ⟨c1, h1, h2, rfl⟩; exact ⟨_, ⟨c1, h1, h2, rfl⟩, (comps_toVar _).symm⟩
    · rintro ⟨_, ⟨c1, h1, h2, rfl⟩, rfl⟩; exact ⟨c1, h1, h2, comps_toVar _⟩

end ZkLoc
