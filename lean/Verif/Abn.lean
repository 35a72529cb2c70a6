import Verif.Prover

/-!
# Helper lemmas: infinities and NaN stay, and `ToInt` rejects them
-/

namespace ZkLoc

open Ieee (Datum)

variable {p : ℕ} [Fact p.Prime] {b : ℕ} {f : Fmt} {m : Prover} {α β : Type}

/-- The wires encode an infinity or NaN. -/
def Abn (f : Fmt) (x : FloatVar p) : Prop := ∃ d, Encodes f x d ∧ ∀ s a, d ≠ .fin s a

/-- No proof is possible. -/
def Fails {p : ℕ} {α : Type} (m : Prover) (b : ℕ) (c : Circ p α) : Prop :=
  match m with
  | .honest => c.run b = none
  | .any st => ∀ r, ¬ c.Sat b st r

omit [Fact p.Prime] in
theorem Ok.fails {c : Circ p α} {k : α → Circ p β} {Q : α → Prop} (h : Ok m b c Q) (hk : ∀ a, Q a → Fails m b (k a)) : Fails m b (Circ.bind c k) := by
  cases m with
  | honest =>
    obtain ⟨a, h1, h2⟩ := h
    show (Circ.bind c k).run b = none
    rw [Circ.run_bind, h1]
    exact hk a h2
  | any st =>
    intro r hr
    obtain ⟨a, h1, h2⟩ := (Circ.sat_bind _ _ _).1 hr
    exact hk a (h a h1) r h2

omit [Fact p.Prime] in
theorem Fails.bind {c : Circ p α} {k : α → Circ p β} (h : Fails m b c) : Fails m b (Circ.bind c k) := by
  cases m with
  | honest =>
    show (Circ.bind c k).run b = none
    rw [Circ.run_bind, show c.run b = none from h]
    rfl
  | any st =>
    intro r hr
    obtain ⟨a, h1, _⟩ := (Circ.sat_bind _ _ _).1 hr
    exact h a h1

theorem fails_of_sat {c : Circ p α} (h : ∀ st r, ¬ c.Sat b st r) : Fails m b c := by
  cases m with
  | honest =>
    show c.run b = none
    cases hr : c.run b with
    | none => rfl
    | some r => exact absurd (Circ.sat_of_run (st := true) _ _ hr) (h _ _)
  | any st => exact h st

omit [Fact p.Prime] in
theorem Abn.abs {x : FloatVar p} (h : Abn f x) : Abn f (fAbs x) := by
  obtain ⟨d, h1, h2⟩ := h
  refine ⟨_, encodes_abs h1, fun s a => ?_⟩
  cases d with
  | fin s a => exact absurd rfl (h2 s a)
  | nan => simp [Datum.abs]
  | inf s => simp [Datum.abs]

omit [Fact p.Prime] in
theorem Abn.enc {x : FloatVar p} (h : Abn f x) : ∃ d, Encodes f x d := let ⟨d, h, _⟩ := h; ⟨d, h⟩
omit [Fact p.Prime] in
theorem Num.enc {x : FloatVar p} {v : ℝ} (h : Num f x v) : ∃ d, Encodes f x d := let ⟨_, _, h, _⟩ := h; ⟨_, h⟩

section ops
variable (G : Good p b f) (hm : m.Fits b f)
include G hm

theorem abn_add {x y : FloatVar p} (hx : Abn f x ∨ Abn f y) (ex : ∃ d, Encodes f x d) (ey : ∃ d, Encodes f y d) :
    Ok m b (fAdd f x y) (Abn f) := by
  have key : ∃ dx dy, Encodes f x dx ∧ Encodes f y dy ∧ ((∀ s a, dx ≠ .fin s a) ∨ (∀ s a, dy ≠ .fin s a)) := by
    rcases hx with ⟨d, h1, h2⟩ | ⟨d, h1, h2⟩
    · obtain ⟨dy, hy⟩ := ey; exact ⟨d, dy, h1, hy, .inl h2⟩
    · obtain ⟨dx, hx⟩ := ex; exact ⟨dx, d, hx, h1, .inr h2⟩
  obtain ⟨dx, dy, hx, hy, hd⟩ := key
  have hfin : ∀ {s a t c}, dx = .fin s a → dy = .fin t c → False := by
    intro s a t c h1 h2
    rcases hd with hd | hd
    · exact hd _ _ h1
    · exact hd _ _ h2
  have hres : ∀ {r : FloatVar p} {d}, Encodes f r d → Ieee.Add ⟨f.E, f.M⟩ dx dy d → Abn f r := by
    intro r d h1 h2
    refine ⟨d, h1, fun s a hf => ?_⟩
    subst hf
    cases dx <;> cases dy <;> simp only [Ieee.Add, reduceCtorEq] at h2
    · split_ifs at h2
    · exact hfin rfl rfl
  have htop : ¬ TopCancel f dx dy := by rintro ⟨s, t, a, h1, h2, _⟩; exact hfin h1 h2
  cases m with
  | honest =>
    obtain ⟨r, h0, h⟩ := C15_add_complete (b := b) G hx hy
    obtain ⟨d, h1, h2⟩ := h htop
    exact ⟨r, h0, hres h1 h2⟩
  | any st =>
    intro r hr
    rcases C16_add_sound_partial G (hm.resolve_left (by simp)) hx hy hr with ⟨d, h1, h2⟩ | ⟨s', t', a', h1, h2, _⟩ | ⟨h1, _⟩ | ⟨s', a', t', c', h1, h2, _⟩
    · exact hres h1 h2
    · exact (hfin h1 h2).elim
    · exact absurd h1 htop
    · exact (hfin h1 h2).elim

omit hm in
theorem Abn.neg {x : FloatVar p} (h : Abn f x) : Abn f (fNeg x) := by
  obtain ⟨d, h1, h2⟩ := h
  refine ⟨_, encodes_neg h1, fun s a => ?_⟩
  cases d with
  | fin s a => exact absurd rfl (h2 s a)
  | nan => simp [Datum.neg]
  | inf s => simp [Datum.neg]

theorem abn_sub {x y : FloatVar p} (hx : Abn f x ∨ Abn f y) (ex : ∃ d, Encodes f x d) (ey : ∃ d, Encodes f y d) :
    Ok m b (fSub f x y) (Abn f) := by
  obtain ⟨dy, hy⟩ := ey
  exact abn_add G hm (hx.imp id (Abn.neg G)) ex ⟨_, encodes_neg hy⟩

theorem abn_mul {x y : FloatVar p} (hx : Abn f x ∨ Abn f y) (ex : ∃ d, Encodes f x d) (ey : ∃ d, Encodes f y d) :
    Ok m b (fMul f x y) (Abn f) := by
  have key : ∃ dx dy, Encodes f x dx ∧ Encodes f y dy ∧ ((∀ s a, dx ≠ .fin s a) ∨ (∀ s a, dy ≠ .fin s a)) := by
    rcases hx with ⟨d, h1, h2⟩ | ⟨d, h1, h2⟩
    · obtain ⟨dy, hy⟩ := ey; exact ⟨d, dy, h1, hy, .inl h2⟩
    · obtain ⟨dx, hx⟩ := ex; exact ⟨dx, d, hx, h1, .inr h2⟩
  obtain ⟨dx, dy, hx, hy, hd⟩ := key
  have hfin : ∀ {s a t c}, dx = .fin s a → dy = .fin t c → False := by
    intro s a t c h1 h2
    rcases hd with hd | hd
    · exact hd _ _ h1
    · exact hd _ _ h2
  have hres : ∀ {r : FloatVar p} {d}, Encodes f r d → Ieee.Mul ⟨f.E, f.M⟩ dx dy d → Abn f r := by
    intro r d h1 h2
    refine ⟨d, h1, fun s a hf => ?_⟩
    subst hf
    cases dx <;> cases dy <;> simp only [Ieee.Mul, reduceCtorEq, imp_false, not_not] at h2
    · exact h2.1 h2.2
    · exact h2.1 h2.2
    · exact hfin rfl rfl
  cases m with
  | honest =>
    obtain ⟨r, d, h0, h1, h2⟩ := C18_mul_complete (b := b) G hx hy
    exact ⟨r, h0, hres h1 h2⟩
  | any st =>
    intro r hr
    rcases C19_mul_sound_partial G (hm.resolve_left (by simp)) hx hy hr with ⟨d, h1, h2⟩ | ⟨s', a', t', c', h1, h2, _⟩
    · exact hres h1 h2
    · exact (hfin h1 h2).elim

/-- Division by zero. -/
theorem abn_div_zero {x y : FloatVar p} {u : ℝ} (hx : Num f x u) (hy : Num f y 0) : Ok m b (fDiv f x y) (Abn f) := by
  obtain ⟨s, a, ex, _⟩ := hx
  obtain ⟨t, c, ey, hc⟩ := hy
  have hc : c = 0 := by cases t <;> simpa [Ieee.signed] using hc
  subst hc
  have hres : ∀ {r : FloatVar p} {d}, Encodes f r d → Ieee.Div ⟨f.E, f.M⟩ (.fin s a) (.fin t 0) d → Abn f r := by
    intro r d h1 h2
    refine ⟨d, h1, fun s a hf => ?_⟩
    subst hf
    simp only [Ieee.Div, reduceCtorEq, imp_false, not_not] at h2
    exact h2.1 trivial (h2.2.1 trivial)
  cases m with
  | honest =>
    obtain ⟨r, d, h0, h1, h2⟩ := C20_div_complete (b := b) G ex ey
    exact ⟨r, h0, hres h1 h2⟩
  | any st =>
    intro r hr
    rcases C21_div_sound_partial G (hm.resolve_left (by simp)) ex ey hr with ⟨d, h1, h2⟩ | ⟨s', a', t', c', h1, h2, h3, _⟩
    · exact hres h1 h2
    · injection h2 with _ h2; exact absurd h2.symm h3

theorem abn_div {x y : FloatVar p} {v : ℝ} (hx : Abn f x) (hy : Num f y v) : Ok m b (fDiv f x y) (Abn f) := by
  obtain ⟨dx, ex, hd⟩ := hx
  obtain ⟨t, c, ey, hc⟩ := hy
  have hres : ∀ {r : FloatVar p} {d}, Encodes f r d → Ieee.Div ⟨f.E, f.M⟩ dx (.fin t c) d → Abn f r := by
    intro r d h1 h2
    refine ⟨d, h1, fun s a hf => ?_⟩
    subst hf
    cases dx <;> simp only [Ieee.Div, reduceCtorEq] at h2
    exact hd _ _ rfl
  cases m with
  | honest =>
    obtain ⟨r, d, h0, h1, h2⟩ := C20_div_complete (b := b) G ex ey
    exact ⟨r, h0, hres h1 h2⟩
  | any st =>
    intro r hr
    rcases C21_div_sound_partial G (hm.resolve_left (by simp)) ex ey hr with ⟨d, h1, h2⟩ | ⟨s', a', t', c', h1, _⟩
    · exact hres h1 h2
    · exact absurd h1 (hd _ _)

theorem abn_floor {x : FloatVar p} (hx : Abn f x) : Ok m b (fFloor f x) (Abn f) := by
  obtain ⟨dx, ex, hd⟩ := hx
  obtain ⟨r, d, h0, h1, h2⟩ := C26_floor_complete (b := b) G ex
  have hres : Abn f r := by
    refine ⟨d, h1, fun s a hf => ?_⟩
    subst hf
    cases dx <;> simp only [Ieee.Integral, reduceCtorEq] at h2
    exact hd _ _ rfl
  cases m with
  | honest => exact ⟨r, h0, hres⟩
  | any st =>
    intro r' hr
    rcases (C26_floor_exact_partial G (hm.resolve_left (by simp)) ex).1 hr with h | ⟨t, c, h1, _⟩
    · rw [h0] at h; cases h; exact hres
    · exact absurd h1 (hd _ _)

omit hm in
theorem abn_toInt {x : FloatVar p} (hx : Abn f x) (hsz : (f.pow2Size : ℤ) ≤ 2 ^ (f.E - 1)) : Fails m b (fToInt f x) := by
  obtain ⟨dx, ex, hd⟩ := hx
  exact fails_of_sat fun st r => C27_toInt_rejects_large G ex (fun s a h => absurd h (hd s a)) hsz

end ops

end ZkLoc
