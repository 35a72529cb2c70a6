import Verif.R1csFloat
import Mathlib.Tactic.LinearCombination
import Mathlib.Tactic.FieldSimp

/-!
# The compiled constraints mean what the calls are documented to do
-/

namespace ZkLoc.R1cs

variable {p : ℕ} {α β γ δ : Type} {b : ℕ}

/-! ### Linear expressions -/

/-- Two assignments agree below a wire. -/
def Agree (n : ℕ) (w w' : Asg p) : Prop := ∀ i < n, w' i = w i

theorem Agree.mono {n n' : ℕ} {w w' : Asg p} (h : Agree n' w w') (hn : n ≤ n') : Agree n w w' := fun i hi => h i (by omega)
theorem Agree.trans {n n' : ℕ} {w w' w'' : Asg p} (h : Agree n w w') (h' : Agree n' w' w'') (hn : n ≤ n') : Agree n w w'' :=
  fun i hi => (h' i (by omega)).trans (h i hi)

def evT (w : Asg p) (l : List (ℕ × ZMod p)) : ZMod p := (l.map fun t => t.2 * w t.1).sum
def bdT (l : List (ℕ × ZMod p)) : ℕ := l.foldr (fun t n => max (t.1 + 1) n) 0

theorem eval_addTerm (w : Asg p) (i : ℕ) (a : ZMod p) : ∀ l, evT w (addTerm i a l) = a * w i + evT w l
  | [] => by simp [addTerm, evT]
  | (j, c) :: l => by
    have ih := eval_addTerm w i a l
    unfold addTerm
    split
    · simp [evT]
    · split
      · simp only [evT, List.map_cons, List.sum_cons] at ih ⊢; rw [ih]; ring
      · have : i = j := by omega
        subst this
        split
        · rename_i h
          simp only [evT, List.map_cons, List.sum_cons]
          linear_combination (-(w i)) * h
        · simp only [evT, List.map_cons, List.sum_cons]; ring

theorem bound_addTerm (i : ℕ) (a : ZMod p) : ∀ l, bdT (addTerm i a l) ≤ max (i + 1) (bdT l)
  | [] => by simp [addTerm, bdT]
  | (j, c) :: l => by
    have ih := bound_addTerm i a l
    unfold addTerm
    split
    · simp [bdT]
    · split
      · simp only [bdT, List.foldr_cons] at ih ⊢; omega
      · split
        · simp only [bdT, List.foldr_cons]; omega
        · simp only [bdT, List.foldr_cons]; omega

namespace Lin

theorem eval_eq (w : Asg p) (x : Lin p) : x.eval w = x.c + evT w x.ts := rfl
theorem bound_eq (x : Lin p) : x.bound = bdT x.ts := rfl

@[simp] theorem eval_lit (w : Asg p) (k : ZMod p) : (lit k).eval w = k := by simp [lit, eval]
@[simp] theorem eval_wire (w : Asg p) (i : ℕ) : (wire i : Lin p).eval w = w i := by simp [wire, eval]
@[simp] theorem eval_add (w : Asg p) (x y : Lin p) : (x.add y).eval w = x.eval w + y.eval w := by
  have h : ∀ l, evT w (l.foldr (fun t l => addTerm t.1 t.2 l) y.ts) = evT w l + evT w y.ts := by
    intro l
    induction l with
    | nil => simp [evT]
    | cons t l ih =>
      rw [List.foldr_cons, eval_addTerm, ih]
      simp only [evT, List.map_cons, List.sum_cons]; ring
  rw [eval_eq, eval_eq, eval_eq]
  simp only [add, h]; ring
@[simp] theorem eval_scale (w : Asg p) (x : Lin p) (k : ZMod p) : (x.scale k).eval w = x.eval w * k := by
  unfold scale
  split
  · rename_i h; simp [eval, h]
  · have h : ∀ l, evT w (l.map fun t => (t.1, t.2 * k)) = evT w l * k := by
      intro l
      induction l with
      | nil => simp [evT]
      | cons t l ih => simp only [evT, List.map_cons, List.sum_cons] at ih ⊢; rw [ih]; ring
    rw [eval_eq, eval_eq, h]; ring
@[simp] theorem eval_neg (w : Asg p) (x : Lin p) : x.neg.eval w = -x.eval w := by
  have h : ∀ l, evT w (l.map fun t : ℕ × ZMod p => (t.1, -t.2)) = -evT w l := by
    intro l
    induction l with
    | nil => simp [evT]
    | cons t l ih => simp only [evT, List.map_cons, List.sum_cons] at ih ⊢; rw [ih]; ring
  rw [eval_eq, eval_eq]
  simp only [neg, h]; ring
@[simp] theorem eval_sub (w : Asg p) (x y : Lin p) : (x.sub y).eval w = x.eval w - y.eval w := by
  rw [sub, eval_add, eval_neg, sub_eq_add_neg]

@[simp] theorem bound_lit (k : ZMod p) : (lit k).bound = 0 := rfl
@[simp] theorem bound_wire (i : ℕ) : (wire i : Lin p).bound = i + 1 := by simp [wire, bound]
theorem bound_add (x y : Lin p) : (x.add y).bound ≤ max x.bound y.bound := by
  have h : ∀ l, bdT (l.foldr (fun t l => addTerm t.1 t.2 l) y.ts) ≤ max (bdT l) (bdT y.ts) := by
    intro l
    induction l with
    | nil => simp [bdT]
    | cons t l ih =>
      rw [List.foldr_cons]
      refine (bound_addTerm _ _ _).trans ?_
      simp only [bdT, List.foldr_cons] at ih ⊢
      omega
  exact h x.ts
theorem bound_map (x : List (ℕ × ZMod p)) (g : ZMod p → ZMod p) : bdT (x.map fun t => (t.1, g t.2)) = bdT x := by
  induction x with
  | nil => rfl
  | cons t l ih => simp only [bdT, List.map_cons, List.foldr_cons] at ih ⊢; rw [ih]
theorem bound_scale (x : Lin p) (k : ZMod p) : (x.scale k).bound ≤ x.bound := by
  unfold scale
  split
  · simp [bound]
  · exact (bound_map x.ts (· * k)).le
theorem bound_neg (x : Lin p) : x.neg.bound = x.bound := bound_map x.ts (-·)
theorem bound_sub (x y : Lin p) : (x.sub y).bound ≤ max x.bound y.bound := by
  rw [sub]; exact (bound_add _ _).trans (by rw [bound_neg])

theorem eval_congr {n : ℕ} {w w' : Asg p} (h : Agree n w w') {x : Lin p} (hx : x.bound ≤ n) : x.eval w' = x.eval w := by
  have : ∀ l, bdT l ≤ n → evT w' l = evT w l := by
    intro l
    induction l with
    | nil => intro _; rfl
    | cons t l ih =>
      intro hl
      simp only [bdT, List.foldr_cons] at hl ih
      have h1 := h t.1 (by omega)
      have h2 := ih (by omega)
      simp only [evT, List.map_cons, List.sum_cons] at h2 ⊢
      rw [h1, h2]
  rw [eval_eq, eval_eq, this x.ts hx]

theorem eval_const {x : Lin p} {k : ZMod p} (h : x.const? = some k) (w : Asg p) : x.eval w = k := by
  unfold const? at h
  split at h
  · rename_i h'; simp only [Option.some.injEq] at h; simp [eval, h', h]
  · simp at h

end Lin

/-! ### Constraint systems -/

theorem Cs.Holds.congr {σ : Cs p} {w w' : Asg p} (h : σ.Holds b w) (wf : σ.WF) (ha : Agree σ.next w w') : σ.Holds b w' := by
  refine ⟨fun r hr => ?_, fun c hc => ?_, fun q hq => ?_⟩
  · obtain ⟨h1, h2, h3⟩ := wf.1 r hr
    rw [Lin.eval_congr ha h1, Lin.eval_congr ha h2, Lin.eval_congr ha h3]; exact h.1 r hr
  · rw [Lin.eval_congr ha (wf.2.1 c hc)]; exact h.2.1 c hc
  · rw [Lin.eval_congr ha (wf.2.2 q hq)]; exact h.2.2 q hq

/-! ### The relation between compiled and documented meaning -/

/-- Pairs of expressions and their values. -/
abbrev Env (p : ℕ) := List (Lin p × ZMod p)

/-- The expressions have the values, and their wires exist. -/
def Env.Ok (n : ℕ) (w : Asg p) (Γ : Env p) : Prop := ∀ q ∈ Γ, q.1.bound ≤ n ∧ q.1.eval w = q.2

theorem Env.Ok.ext {n n' : ℕ} {w w' : Asg p} {Γ : Env p} (h : Γ.Ok n w) (ha : Agree n w w') (hn : n ≤ n') : Γ.Ok n' w' :=
  fun q hq => ⟨(h q hq).1.trans hn, (Lin.eval_congr ha (h q hq).1).trans (h q hq).2⟩

/-- Results of programs: which expression stands for which value. -/
class Out (p : ℕ) (α : Type) (β : outParam Type) where
  pairs : α → β → Env p
  ev : Asg p → α → β
  law : ∀ w a y, (∀ q ∈ pairs a y, q.1.eval w = q.2) ↔ ev w a = y

instance : Out p (Lin p) (ZMod p) := ⟨fun a y => [(a, y)], fun w a => a.eval w, fun w a y => by simp⟩

instance [Out p α β] [Out p γ δ] : Out p (α × γ) (β × δ) :=
  ⟨fun a y => Out.pairs (p := p) a.1 y.1 ++ Out.pairs a.2 y.2, fun w a => (Out.ev w a.1, Out.ev w a.2), fun w a y => by
    rw [Prod.ext_iff, ← Out.law w a.1 y.1, ← Out.law w a.2 y.2]
    simp only [List.mem_append, or_imp, forall_and]⟩

instance : Out p (FV (Lin p)) (FV (ZMod p)) :=
  ⟨fun a y => [(a.sign, y.sign), (a.exponent, y.exponent), (a.mantissa, y.mantissa), (a.isAbnormal, y.isAbnormal)],
    fun w a => ⟨a.sign.eval w, a.exponent.eval w, a.mantissa.eval w, a.isAbnormal.eval w⟩, fun w a y => by
    obtain ⟨y1, y2, y3, y4⟩ := y
    simp [FV.mk.injEq]⟩

instance instOutUnit : Out p Unit Unit := ⟨fun _ _ => [], fun _ a => a, fun w a y => by simp⟩

/-- The values in `Γ` are the values under `w`. -/
def Env.Ev (w : Asg p) (Γ : Env p) : Prop := ∀ q ∈ Γ, q.1.eval w = q.2

/-- What is marked as boolean is boolean under `w`. -/
def Cs.Bools (w : Asg p) (σ : Cs p) : Prop := ∀ x ∈ σ.bools, isBool (x.eval w) = true

/-- A program only adds constraints. -/
def Mono (b : ℕ) (m : Bld p α) : Prop := ∀ w σ a σ', m σ = some (a, σ') → σ'.Holds b w → σ.Holds b w

/-- The program `m` compiles to constraints that mean `c`, where `Γ` lists the values of the expressions in use: an assignment that satisfies the new constraints, and under which what was marked as
boolean is boolean, yields a result of `c`, and what is now marked as boolean is boolean; and for every result of `c` the program compiles and the assignment can be extended to the new wires, with that
result. -/
structure Ref (b : ℕ) [Out p α β] (Γ : Env p) (m : Bld p α) (c : Circ p β) : Prop where
  sound : ∀ w σ a σ', m σ = some (a, σ') → σ'.Holds b w → Γ.Ev w → σ.Bools w → c.Sat b true (Out.ev w a) ∧ σ'.Bools w
  complete : ∀ w σ r, σ.WF → σ.Holds b w → Γ.Ok σ.next w → c.Sat b true r →
    ∃ a σ' w', m σ = some (a, σ') ∧ σ'.WF ∧ σ.next ≤ σ'.next ∧ Agree σ.next w w' ∧ σ'.Holds b w' ∧ (Out.pairs a r).Ok σ'.next w'

/-- The expression `x` has value `v`, given the values in `Γ`. -/
def Der (Γ : Env p) (x : Lin p) (v : ZMod p) : Prop :=
  (∀ n, (∀ q ∈ Γ, q.1.bound ≤ n) → x.bound ≤ n) ∧ ∀ w, Γ.Ev w → x.eval w = v

/-- The same for results. -/
def DerO [Out p α β] (Γ : Env p) (a : α) (y : β) : Prop := ∀ q ∈ Out.pairs a y, Der Γ q.1 q.2

theorem Env.Ok.ev {n : ℕ} {w : Asg p} {Γ : Env p} (h : Γ.Ok n w) : Γ.Ev w := fun q hq => (h q hq).2

theorem Der.ok {Γ : Env p} {x : Lin p} {v : ZMod p} (h : Der Γ x v) {n : ℕ} {w : Asg p} (hΓ : Γ.Ok n w) : x.bound ≤ n ∧ x.eval w = v :=
  ⟨h.1 n fun q hq => (hΓ q hq).1, h.2 w hΓ.ev⟩

theorem der_var {Γ : Env p} {x : Lin p} {v : ZMod p} (h : (x, v) ∈ Γ) : Der Γ x v := ⟨fun _ hn => hn _ h, fun _ hw => hw _ h⟩
theorem der_lit {Γ : Env p} (k : ZMod p) : Der Γ (Ops.lit k : Lin p) (Ops.lit k : ZMod p) := ⟨fun _ _ => Nat.zero_le _, fun w _ => Lin.eval_lit w k⟩
theorem der_add {Γ : Env p} {x y : Lin p} {u v : ZMod p} (hx : Der Γ x u) (hy : Der Γ y v) : Der Γ (Ops.add x y) (Ops.add u v) :=
  ⟨fun n h => (Lin.bound_add x y).trans (max_le (hx.1 n h) (hy.1 n h)), fun w h => (Lin.eval_add w x y).trans (by rw [hx.2 w h, hy.2 w h]; rfl)⟩
theorem der_sub {Γ : Env p} {x y : Lin p} {u v : ZMod p} (hx : Der Γ x u) (hy : Der Γ y v) : Der Γ (Ops.sub x y) (Ops.sub u v) :=
  ⟨fun n h => (Lin.bound_sub x y).trans (max_le (hx.1 n h) (hy.1 n h)), fun w h => (Lin.eval_sub w x y).trans (by rw [hx.2 w h, hy.2 w h]; rfl)⟩
theorem der_neg {Γ : Env p} {x : Lin p} {u : ZMod p} (hx : Der Γ x u) : Der Γ (Ops.neg x) (Ops.neg u) :=
  ⟨fun n h => (Lin.bound_neg x).le.trans (hx.1 n h), fun w h => (Lin.eval_neg w x).trans (by rw [hx.2 w h]; rfl)⟩
theorem der_scale {Γ : Env p} {x : Lin p} {u : ZMod p} (hx : Der Γ x u) (k : ZMod p) : Der Γ (Ops.scale x k) (Ops.scale u k) :=
  ⟨fun n h => (Lin.bound_scale x k).trans (hx.1 n h), fun w h => (Lin.eval_scale w x k).trans (by rw [hx.2 w h]; rfl)⟩

theorem derO_unit {Γ : Env p} : DerO (p := p) Γ () () := fun _ h => by simp [Out.pairs] at h
theorem derO_lin {Γ : Env p} {x : Lin p} {v : ZMod p} (h : Der Γ x v) : DerO Γ x v := fun q hq => by
  simp only [Out.pairs, List.mem_singleton] at hq; rw [hq]; exact h
theorem derO_prod {Γ : Env p} [Out p α β] [Out p γ δ] {x : α} {v : β} {y : γ} {u : δ} (h : DerO Γ x v) (h' : DerO Γ y u) : DerO Γ (x, y) (v, u) := fun q hq => by
  simp only [Out.pairs, List.mem_append] at hq
  rcases hq with hq | hq
  · exact h q hq
  · exact h' q hq
theorem derO_fv {Γ : Env p} {x1 x2 x3 x4 : Lin p} {v1 v2 v3 v4 : ZMod p} (h1 : Der Γ x1 v1) (h2 : Der Γ x2 v2) (h3 : Der Γ x3 v3) (h4 : Der Γ x4 v4) :
    DerO Γ (⟨x1, x2, x3, x4⟩ : FV (Lin p)) ⟨v1, v2, v3, v4⟩ := fun q hq => by
  simp only [Out.pairs, List.mem_cons, List.not_mem_nil, or_false] at hq
  rcases hq with rfl | rfl | rfl | rfl <;> assumption

theorem mono_pure {a : α} : Mono b (pure a : Bld p α) := fun w σ a' σ' he hh => by
  obtain ⟨rfl, rfl⟩ : a = a' ∧ σ = σ' := by simpa [pure] using he
  exact hh

theorem mono_bind {m : Bld p α} {k : α → Bld p γ} (h : Mono b m) (h' : ∀ a, Mono b (k a)) : Mono b (m >>= k) := fun w σ r σ'' he hh => by
  obtain ⟨⟨a, σ'⟩, h1, h2⟩ := Option.bind_eq_some_iff.1 he
  exact h w σ a σ' h1 (h' a w σ' r σ'' h2 hh)

theorem ref_pure [Out p α β] {Γ : Env p} {a : α} {y : β} (h : DerO Γ a y) : Ref b Γ (pure a : Bld p α) (pure y : Circ p β) := by
  constructor
  · intro w σ a' σ' he hh hΓ hb
    obtain ⟨rfl, rfl⟩ : a = a' ∧ σ = σ' := by simpa [pure] using he
    exact ⟨(Out.law w a y).1 fun q hq => (h q hq).2 w hΓ, hb⟩
  · intro w σ r wf hh hΓ hr
    obtain rfl : r = y := hr
    exact ⟨a, σ, w, rfl, wf, le_rfl, fun _ _ => rfl, hh, fun q hq => (h q hq).ok hΓ⟩

theorem ref_bind [Out p α β] [Out p γ δ] {Γ : Env p} {m : Bld p α} {c : Circ p β} {k : α → Bld p γ} {d : β → Circ p δ} (h : Ref b Γ m c) (hm : ∀ a, Mono b (k a))
    (h' : ∀ a y, c.Sat b true y → Ref b (Out.pairs a y ++ Γ) (k a) (d y)) : Ref b Γ (m >>= k) (c >>= d) := by
  constructor
  · intro w σ r σ'' he hh hΓ hb
    obtain ⟨⟨a, σ'⟩, h1, h2⟩ := Option.bind_eq_some_iff.1 he
    obtain ⟨h3, h4⟩ := h.sound w σ a σ' h1 (hm a w σ' r σ'' h2 hh) hΓ hb
    obtain ⟨h5, h6⟩ := (h' a (Out.ev w a) h3).sound w σ' r σ'' h2 hh (fun q hq => by
      rcases List.mem_append.1 hq with hq | hq
      · exact (Out.law w a _).2 rfl q hq
      · exact hΓ q hq) h4
    exact ⟨(Circ.sat_bind c d _).2 ⟨_, h3, h5⟩, h6⟩
  · intro w σ r wf hh hΓ hr
    obtain ⟨y, h1, h2⟩ := (Circ.sat_bind c d _).1 hr
    obtain ⟨a, σ', w', e1, wf', n', ag, hh', ok⟩ := h.complete w σ y wf hh hΓ h1
    obtain ⟨a2, σ2, w2, e2, wf2, n2, ag2, hh2, ok2⟩ := (h' a y h1).complete w' σ' r wf' hh' (fun q hq => by
      rcases List.mem_append.1 hq with hq | hq
      · exact ok q hq
      · exact hΓ.ext ag n' q hq) h2
    refine ⟨a2, σ2, w2, ?_, wf2, n'.trans n2, ag.trans ag2 n', hh2, ok2⟩
    exact Option.bind_eq_some_iff.2 ⟨_, e1, e2⟩

/-- A larger environment does no harm. -/
theorem Der.weaken {Γ Δ : Env p} {x : Lin p} {v : ZMod p} (h : Der Γ x v) (hs : ∀ q ∈ Γ, Der Δ q.1 q.2) : Der Δ x v :=
  ⟨fun n hn => h.1 n fun q hq => (hs q hq).1 n hn, fun w hw => h.2 w fun q hq => (hs q hq).2 w hw⟩

theorem Ref.weaken [Out p α β] {Γ Δ : Env p} {m : Bld p α} {c : Circ p β} (h : Ref b Γ m c) (hs : ∀ q ∈ Γ, Der Δ q.1 q.2) : Ref b Δ m c :=
  ⟨fun w σ a σ' he hh hΓ => h.sound w σ a σ' he hh fun q hq => (hs q hq).2 w hΓ,
   fun w σ r wf hh hΓ => h.complete w σ r wf hh fun q hq => (hs q hq).ok hΓ⟩

/-! ### The calls -/

/-- Change the value of a wire. -/
def upd (w : Asg p) (n : ℕ) (v : ZMod p) : Asg p := fun i => if i = n then v else w i

theorem upd_agree (w : Asg p) (n : ℕ) (v : ZMod p) : Agree n w (upd w n v) := fun i hi => if_neg (by omega)
@[simp] theorem upd_self (w : Asg p) (n : ℕ) (v : ZMod p) : upd w n v n = v := if_pos rfl

/-- No more wires. -/
theorem Cs.WF.grow {σ : Cs p} (h : σ.WF) {n : ℕ} (hn : σ.next ≤ n) : Cs.WF { σ with next := n } := by
  refine ⟨fun r hr => ?_, fun c hc => (h.2.1 c hc).trans hn, fun q hq => (h.2.2 q hq).trans hn⟩
  obtain ⟨h1, h2, h3⟩ := h.1 r hr
  exact ⟨h1.trans hn, h2.trans hn, h3.trans hn⟩

theorem mono_wire : Mono b (newWire : Bld p (Lin p)) := fun w σ a σ' he hh => by
  simp only [newWire, Option.some.injEq, Prod.mk.injEq] at he
  obtain ⟨rfl, rfl⟩ := he
  exact hh

theorem mono_constrain {x y z : Lin p} : Mono b (constrain x y z) := fun w σ a σ' he hh => by
  simp only [constrain, Option.some.injEq, Prod.mk.injEq] at he
  obtain ⟨-, rfl⟩ := he
  exact ⟨fun r hr => hh.1 r (List.mem_cons_of_mem _ hr), hh.2.1, hh.2.2⟩

/-- A new wire has any value. -/
theorem ref_wire {Γ : Env p} (h : Option (ZMod p)) : Ref b Γ (newWire : Bld p (Lin p)) (newHint h) := by
  constructor
  · intro w σ a σ' he hh hΓ hb
    simp only [newWire, Option.some.injEq, Prod.mk.injEq] at he
    obtain ⟨rfl, rfl⟩ := he
    exact ⟨⟨_, rfl⟩, hb⟩
  · intro w σ r wf hh hΓ hr
    refine ⟨.wire σ.next, _, upd w σ.next r, rfl, wf.grow (Nat.le_succ _), Nat.le_succ _, upd_agree _ _ _, ?_, ?_⟩
    · exact hh.congr wf (upd_agree _ _ _)
    · intro q hq
      simp only [Out.pairs, List.mem_singleton] at hq
      subst hq
      simp

/-- A constraint. -/
theorem ref_constrain {Γ : Env p} {x y z : Lin p} {u v t : ZMod p} (hx : Der Γ x u) (hy : Der Γ y v) (hz : Der Γ z t) :
    Ref b Γ (constrain x y z) (Circ.assert (decide (u * v = t)) (.pure ()) : Circ p Unit) := by
  constructor
  · intro w σ a σ' he hh hΓ hb
    simp only [constrain, Option.some.injEq, Prod.mk.injEq] at he
    obtain ⟨-, rfl⟩ := he
    have := hh.1 _ (List.mem_cons_self)
    simp only [hx.2 w hΓ, hy.2 w hΓ, hz.2 w hΓ] at this
    exact ⟨⟨decide_eq_true this, rfl⟩, hb⟩
  · intro w σ r wf hh hΓ hr
    refine ⟨(), _, w, rfl, ⟨?_, wf.2⟩, le_rfl, fun _ _ => rfl, ⟨?_, hh.2⟩, fun q hq => by simp [Out.pairs] at hq⟩
    · intro r hr
      rcases List.mem_cons.1 hr with rfl | hr
      · exact ⟨(hx.ok hΓ).1, (hy.ok hΓ).1, (hz.ok hΓ).1⟩
      · exact wf.1 r hr
    · intro q hq
      rcases List.mem_cons.1 hq with rfl | hq
      · simp only [hx.2 w hΓ.ev, hy.2 w hΓ.ev, hz.2 w hΓ.ev]; exact of_decide_eq_true hr.1
      · exact hh.1 q hq

theorem mono_check {x : Lin p} {n : ℕ} {md : Mode} : Mono b (Api.check x n md : Bld p Unit) := fun w σ a σ' he hh => by
  simp only [Api.check, bCheck, Option.some.injEq, Prod.mk.injEq] at he
  obtain ⟨-, rfl⟩ := he
  exact ⟨hh.1, fun c hc => hh.2.1 c (List.mem_cons_of_mem _ hc), hh.2.2⟩

theorem ref_check {Γ : Env p} {x : Lin p} {u : ZMod p} (hx : Der Γ x u) (n : ℕ) (md : Mode) : Ref b Γ (Api.check x n md : Bld p Unit) (Api.check u n md : Circ p Unit) := by
  constructor
  · intro w σ a σ' he hh hΓ hb
    simp only [Api.check, bCheck, Option.some.injEq, Prod.mk.injEq] at he
    obtain ⟨-, rfl⟩ := he
    have := hh.2.1 _ (List.mem_cons_self)
    simp only [hx.2 w hΓ] at this
    exact ⟨⟨this, rfl⟩, hb⟩
  · intro w σ r wf hh hΓ hr
    refine ⟨(), _, w, rfl, ⟨wf.1, ?_, wf.2.2⟩, le_rfl, fun _ _ => rfl, ⟨hh.1, ?_, hh.2.2⟩, fun q hq => by simp [Out.pairs] at hq⟩
    · intro r hr
      rcases List.mem_cons.1 hr with rfl | hr
      · exact (hx.ok hΓ).1
      · exact wf.2.1 r hr
    · intro q hq
      rcases List.mem_cons.1 hq with rfl | hq
      · simp only [hx.2 w hΓ.ev]; exact hr.1
      · exact hh.2.1 q hq

theorem mono_query {x : Lin p} {n : ℕ} : Mono b (Api.query n x : Bld p Unit) := fun w σ a σ' he hh => by
  simp only [Api.query, bQuery, Option.some.injEq, Prod.mk.injEq] at he
  obtain ⟨-, rfl⟩ := he
  exact ⟨hh.1, hh.2.1, fun c hc => hh.2.2 c (List.mem_cons_of_mem _ hc)⟩

theorem ref_query {Γ : Env p} {x : Lin p} {u : ZMod p} (n : ℕ) (hx : Der Γ x u) : Ref b Γ (Api.query n x : Bld p Unit) (Api.query n u : Circ p Unit) := by
  constructor
  · intro w σ a σ' he hh hΓ hb
    simp only [Api.query, bQuery, Option.some.injEq, Prod.mk.injEq] at he
    obtain ⟨-, rfl⟩ := he
    have := hh.2.2 _ (List.mem_cons_self)
    simp only [hx.2 w hΓ] at this
    exact ⟨⟨this, rfl⟩, hb⟩
  · intro w σ r wf hh hΓ hr
    refine ⟨(), _, w, rfl, ⟨wf.1, wf.2.1, ?_⟩, le_rfl, fun _ _ => rfl, ⟨hh.1, hh.2.1, ?_⟩, fun q hq => by simp [Out.pairs] at hq⟩
    · intro r hr
      rcases List.mem_cons.1 hr with rfl | hr
      · exact (hx.ok hΓ).1
      · exact wf.2.2 r hr
    · intro q hq
      rcases List.mem_cons.1 hq with rfl | hq
      · simp only [hx.2 w hΓ.ev]; exact hr.1
      · exact hh.2.2 q hq

theorem mono_mark {x : Lin p} : Mono b (Api.mark x : Bld p Unit) := fun w σ a σ' he hh => by
  simp only [Api.mark, bMark] at he
  split at he
  · split at he
    · simp only [Option.some.injEq, Prod.mk.injEq] at he; obtain ⟨-, rfl⟩ := he; exact hh
    · simp at he
  · simp only [Option.some.injEq, Prod.mk.injEq] at he; obtain ⟨-, rfl⟩ := he; exact hh

/-- Marking as boolean is allowed where the value is boolean. -/
theorem ref_mark {Γ : Env p} {x : Lin p} {u : ZMod p} (hx : Der Γ x u) (hu : isBool u = true) : Ref b Γ (Api.mark x : Bld p Unit) (Api.mark u : Circ p Unit) := by
  constructor
  · intro w σ a σ' he hh hΓ hb
    refine ⟨rfl, ?_⟩
    simp only [Api.mark, bMark] at he
    split at he
    · split at he
      · simp only [Option.some.injEq, Prod.mk.injEq] at he; obtain ⟨-, rfl⟩ := he; exact hb
      · simp at he
    · simp only [Option.some.injEq, Prod.mk.injEq] at he; obtain ⟨-, rfl⟩ := he
      intro y hy
      rcases List.mem_cons.1 hy with rfl | hy
      · rw [hx.2 w hΓ]; exact hu
      · exact hb y hy
  · intro w σ r wf hh hΓ hr
    have hx' := hx.ok hΓ
    rcases hc : x.const? with _ | k
    · exact ⟨(), { σ with bools := x :: σ.bools }, w, by simp [Api.mark, bMark, hc], wf, le_rfl, fun _ _ => rfl, hh, fun q hq => by simp [Out.pairs] at hq⟩
    · have hk : isBool k = true := by rw [← Lin.eval_const hc w, hx'.2]; exact hu
      exact ⟨(), σ, w, by simp [Api.mark, bMark, hc, hk], wf, le_rfl, fun _ _ => rfl, hh, fun q hq => by simp [Out.pairs] at hq⟩

theorem mono_assertBool {x : Lin p} : Mono b (Api.assertBool x : Bld p Unit) := fun w σ a σ' he hh => by
  simp only [Api.assertBool, bAssertBool] at he
  split at he
  · split at he
    · simp only [Option.some.injEq, Prod.mk.injEq] at he; obtain ⟨-, rfl⟩ := he; exact hh
    · simp at he
  · split at he
    · simp only [Option.some.injEq, Prod.mk.injEq] at he; obtain ⟨-, rfl⟩ := he; exact hh
    · simp only [Option.some.injEq, Prod.mk.injEq] at he; obtain ⟨-, rfl⟩ := he
      exact ⟨fun r hr => hh.1 r (List.mem_cons_of_mem _ hr), hh.2⟩

theorem isBool_iff {v : ZMod p} : isBool v = true ↔ v = 0 ∨ v = 1 := by simp [isBool]

theorem isBool_mul [Fact p.Prime] {v : ZMod p} : isBool v = true ↔ v * (1 - v) = 0 := by
  rw [isBool_iff, mul_eq_zero, sub_eq_zero, eq_comm (a := (1 : ZMod p))]

theorem ref_assertBool [Fact p.Prime] {Γ : Env p} {x : Lin p} {u : ZMod p} (hx : Der Γ x u) : Ref b Γ (Api.assertBool x : Bld p Unit) (Api.assertBool u : Circ p Unit) := by
  constructor
  · intro w σ a σ' he hh hΓ hb
    have h : isBool u = true ∧ σ'.Bools w := by
      simp only [Api.assertBool, bAssertBool] at he
      split at he
      · rename_i k hk
        split at he
        · simp only [Option.some.injEq, Prod.mk.injEq] at he; obtain ⟨-, rfl⟩ := he
          rename_i hk'
          rw [← hx.2 w hΓ, Lin.eval_const hk w]
          exact ⟨hk', hb⟩
        · simp at he
      · split at he
        · rename_i hm
          simp only [Option.some.injEq, Prod.mk.injEq] at he; obtain ⟨-, rfl⟩ := he
          rw [← hx.2 w hΓ]
          exact ⟨hb x hm, hb⟩
        · simp only [Option.some.injEq, Prod.mk.injEq] at he; obtain ⟨-, rfl⟩ := he
          have h1 := hh.1 _ (List.mem_cons_self)
          simp only [Lin.eval_sub, Lin.eval_lit] at h1
          have h2 := isBool_mul.2 h1
          refine ⟨by rw [← hx.2 w hΓ]; exact h2, fun y hy => ?_⟩
          rcases List.mem_cons.1 hy with rfl | hy
          · exact h2
          · exact hb y hy
    exact ⟨⟨h.1, rfl⟩, h.2⟩
  · intro w σ r wf hh hΓ hr
    have hx' := hx.ok hΓ
    have hu : isBool u = true := hr.1
    rcases hc : x.const? with _ | k
    · by_cases hm : x ∈ σ.bools
      · exact ⟨(), σ, w, by simp [Api.assertBool, bAssertBool, hc, hm], wf, le_rfl, fun _ _ => rfl, hh, fun q hq => by simp [Out.pairs] at hq⟩
      · refine ⟨(), { σ with bools := x :: σ.bools, r1cs := (x, (Lin.lit 1).sub x, .lit 0) :: σ.r1cs }, w, by simp [Api.assertBool, bAssertBool, hc, hm], ⟨?_, wf.2⟩, le_rfl, fun _ _ => rfl, ⟨?_, hh.2⟩,
          fun q hq => by simp [Out.pairs] at hq⟩
        · intro q hq
          rcases List.mem_cons.1 hq with rfl | hq
          · exact ⟨hx'.1, (Lin.bound_sub _ _).trans (by simpa using hx'.1), by simp⟩
          · exact wf.1 q hq
        · intro q hq
          rcases List.mem_cons.1 hq with rfl | hq
          · simp only [Lin.eval_sub, Lin.eval_lit, hx'.2]; exact isBool_mul.1 hu
          · exact hh.1 q hq
    · have hk : isBool k = true := by rw [← Lin.eval_const hc w, hx'.2]; exact hu
      exact ⟨(), σ, w, by simp [Api.assertBool, bAssertBool, hc, hk], wf, le_rfl, fun _ _ => rfl, hh, fun q hq => by simp [Out.pairs] at hq⟩

theorem mono_assertEq {x y : Lin p} : Mono b (Api.assertEq x y : Bld p Unit) := fun w σ a σ' he hh => by
  simp only [Api.assertEq, bAssertEq] at he
  split at he
  · split at he
    · simp only [Option.some.injEq, Prod.mk.injEq] at he; obtain ⟨-, rfl⟩ := he; exact hh
    · simp at he
  · exact mono_constrain w σ a σ' he hh

theorem ref_assertEq {Γ : Env p} {x y : Lin p} {u v : ZMod p} (hx : Der Γ x u) (hy : Der Γ y v) :
    Ref b Γ (Api.assertEq x y : Bld p Unit) (Api.assertEq u v : Circ p Unit) := by
  have hc := ref_constrain (b := b) (der_lit (Γ := Γ) 1) hx hy
  simp only [Ops.lit, one_mul] at hc
  constructor
  · intro w σ a σ' he hh hΓ hb
    simp only [Api.assertEq, bAssertEq] at he
    split at he
    · rename_i k l hk hl
      split at he
      · simp only [Option.some.injEq, Prod.mk.injEq] at he; obtain ⟨-, rfl⟩ := he
        rename_i hkl
        refine ⟨⟨decide_eq_true ?_, rfl⟩, hb⟩
        rw [← hx.2 w hΓ, ← hy.2 w hΓ, Lin.eval_const hk, Lin.eval_const hl, hkl]
      · simp at he
    · exact hc.sound w σ a σ' he hh hΓ hb
  · intro w σ r wf hh hΓ hr
    by_cases hkl : ∃ k l, x.const? = some k ∧ y.const? = some l
    · obtain ⟨k, l, hk, hl⟩ := hkl
      have : k = l := by
        rw [← Lin.eval_const hk w, ← Lin.eval_const hl w, (hx.ok hΓ).2, (hy.ok hΓ).2]; exact of_decide_eq_true hr.1
      exact ⟨(), σ, w, by simp [Api.assertEq, bAssertEq, hk, hl, this], wf, le_rfl, fun _ _ => rfl, hh, fun q hq => by simp [Out.pairs] at hq⟩
    · obtain ⟨a, σ', w', e, rest⟩ := hc.complete w σ r wf hh hΓ hr
      refine ⟨a, σ', w', ?_, rest⟩
      simp only [Api.assertEq, bAssertEq]
      split
      · rename_i k l hk hl; exact absurd ⟨k, l, hk, hl⟩ hkl
      · exact e

/-- The meaning of a program may be replaced by an equivalent one. -/
theorem Ref.of_iff [Out p α β] {Γ : Env p} {m : Bld p α} {c d : Circ p β} (h : Ref b Γ m c) (hcd : ∀ r, c.Sat b true r ↔ d.Sat b true r) : Ref b Γ m d :=
  ⟨fun w σ a σ' he hh hΓ hb => ⟨(hcd _).1 (h.sound w σ a σ' he hh hΓ hb).1, (h.sound w σ a σ' he hh hΓ hb).2⟩,
   fun w σ r wf hh hΓ hr => h.complete w σ r wf hh hΓ ((hcd _).2 hr)⟩

/-- The wires of a program may be read off only once values are known for `Γ`; if there are none, nothing has to be shown. -/
theorem ref_of_val [Out p α β] {Γ : Env p} {m : Bld p α} {c : Circ p β} (h : (∃ w, Γ.Ev w) → Ref b Γ m c) : Ref b Γ m c :=
  ⟨fun w σ a σ' he hh hΓ => (h ⟨w, hΓ⟩).sound w σ a σ' he hh hΓ, fun w σ r wf hh hΓ => (h ⟨w, hΓ.ev⟩).complete w σ r wf hh hΓ⟩

theorem mono_mul {x y : Lin p} : Mono b (Api.mul x y : Bld p (Lin p)) := by
  simp only [Api.mul]
  unfold bMul
  split
  · exact mono_pure
  · exact mono_pure
  · exact mono_bind mono_wire fun _ => mono_bind mono_constrain fun _ => mono_pure

theorem ref_mul {Γ : Env p} {x y : Lin p} {u v : ZMod p} (hx : Der Γ x u) (hy : Der Γ y v) : Ref b Γ (Api.mul x y : Bld p (Lin p)) (Api.mul u v : Circ p (ZMod p)) := by
  refine ref_of_val fun ⟨w, hw⟩ => ?_
  simp only [Api.mul]
  unfold bMul
  split
  · rename_i k hk
    have : u = k := by rw [← hx.2 w hw, Lin.eval_const hk]
    subst this
    have := der_scale hy u
    exact ref_pure (derO_lin ⟨this.1, fun w h => (this.2 w h).trans (mul_comm _ _)⟩)
  · rename_i k _ hk
    have : v = k := by rw [← hy.2 w hw, Lin.eval_const hk]
    subst this
    exact ref_pure (derO_lin (der_scale hx v))
  · refine Ref.of_iff (ref_bind (ref_wire none) (fun _ => mono_bind mono_constrain fun _ => mono_pure) fun r t _ =>
      ref_bind (ref_constrain (hx.weaken fun q hq => der_var (by simp [hq])) (hy.weaken fun q hq => der_var (by simp [hq])) (der_var (v := t) (by simp [Out.pairs]))) (fun _ => mono_pure)
        fun _ _ _ => ref_pure (derO_lin (der_var (v := t) (by simp [Out.pairs])))) fun r => ?_
    simp [newHint, Circ.sat_bind, Circ.bind, Circ.Sat, eq_comm, bind, pure]

theorem Der.tail {Γ Δ : Env p} {x : Lin p} {v : ZMod p} (h : Der Γ x v) : Der (Δ ++ Γ) x v := h.weaken fun q hq => der_var (by simp [hq])

theorem mono_hint {xs : List (Lin p)} {f : List (ZMod p) → Option (ZMod p)} : Mono b (Api.hint xs f : Bld p (Lin p)) := mono_wire
theorem ref_hint {Γ : Env p} (xs : List (Lin p)) (us : List (ZMod p)) (f : List (ZMod p) → Option (ZMod p)) : Ref b Γ (Api.hint xs f : Bld p (Lin p)) (Api.hint us f : Circ p (ZMod p)) :=
  ref_wire _

theorem mono_select {c x y : Lin p} : Mono b (Api.select c x y : Bld p (Lin p)) := by
  simp only [Api.select]
  unfold bSelect
  refine mono_bind mono_assertBool fun _ => ?_
  split
  · exact mono_pure
  · exact mono_bind mono_mul fun _ => mono_pure

theorem ref_select [Fact p.Prime] {Γ : Env p} {c x y : Lin p} {t u v : ZMod p} (hc : Der Γ c t) (hx : Der Γ x u) (hy : Der Γ y v) :
    Ref b Γ (Api.select c x y : Bld p (Lin p)) (Api.select t u v : Circ p (ZMod p)) := by
  simp only [Api.select]
  unfold bSelect
  refine Ref.of_iff (ref_bind (ref_assertBool hc) (fun _ => ?_) (d := fun _ => (pure (sel t u v) : Circ p (ZMod p))) fun _ _ hb => ?_) fun r => ?_
  · split
    · exact mono_pure
    · exact mono_bind mono_mul fun _ => mono_pure
  · have hb : isBool t = true := hb.1
    refine ref_of_val fun ⟨w, hw⟩ => ?_
    split
    · rename_i k hk
      have : t = k := by rw [← (hc.tail (Δ := Out.pairs () ())).2 w hw, Lin.eval_const hk]
      subst this
      refine ref_pure (derO_lin ?_)
      rcases isBool_iff.1 hb with rfl | rfl
      · simpa [sel] using hy.tail
      · simpa [sel] using hx.tail
    · refine Ref.of_iff (ref_bind (ref_mul hc.tail (der_sub hx hy).tail) (fun _ => mono_pure) fun r z _ =>
        ref_pure (derO_lin (der_add (der_var (v := z) (by simp [Out.pairs])) hy.tail.tail))) fun r => ?_
      rfl
  · simp [Api.assertBool, ZkLoc.select, softBool, assertIsBoolean, bind, pure, Circ.bind, Circ.Sat]

theorem mono_and {x y : Lin p} : Mono b (Api.and x y : Bld p (Lin p)) := by
  simp only [Api.and]
  unfold bAnd
  exact mono_bind mono_assertBool fun _ => mono_bind mono_assertBool fun _ => mono_bind mono_mul fun _ => mono_bind mono_mark fun _ => mono_pure

theorem isBool_prod {u v : ZMod p} (hu : isBool u = true) (hv : isBool v = true) : isBool (u * v) = true := by
  rcases isBool_iff.1 hu with rfl | rfl
  · simp [isBool]
  · simpa using hv

theorem ref_and [Fact p.Prime] {Γ : Env p} {x y : Lin p} {u v : ZMod p} (hx : Der Γ x u) (hy : Der Γ y v) : Ref b Γ (Api.and x y : Bld p (Lin p)) (Api.and u v : Circ p (ZMod p)) := by
  refine Ref.of_iff (ref_bind (ref_assertBool hx) (fun _ => mono_bind mono_assertBool fun _ => mono_bind mono_mul fun _ => mono_bind mono_mark fun _ => mono_pure) fun _ _ h1 =>
    ref_bind (ref_assertBool hy.tail) (fun _ => mono_bind mono_mul fun _ => mono_bind mono_mark fun _ => mono_pure) fun _ _ h2 =>
    ref_bind (ref_mul hx.tail.tail hy.tail.tail) (fun _ => mono_bind mono_mark fun _ => mono_pure) fun r z h3 =>
    ref_bind (ref_mark (der_var (x := r) (v := z) (by simp [Out.pairs])) ?_) (fun _ => mono_pure) fun _ _ _ =>
    ref_pure (derO_lin (der_var (x := r) (v := z) (by simp [Out.pairs])))) fun r => ?_
  · obtain rfl : z = u * v := h3
    exact isBool_prod h1.1 h2.1
  · simp [Api.assertBool, Api.mul, Api.mark, Api.and, and', softBool, assertIsBoolean, bind, pure, Circ.bind, Circ.Sat]

theorem ref_wireTo [Fact p.Prime] {Γ : Env p} {x y z : Lin p} {u v t : ZMod p} (hx : Der Γ x u) (hy : Der Γ y v) (hz : Der Γ z t) (hb : isBool (t - u * v) = true) :
    Ref b Γ (newWire >>= fun r => (Api.mark r : Bld p Unit) >>= fun _ => constrain x y (z.sub r) >>= fun _ => pure r) (pure (t - u * v) : Circ p (ZMod p)) := by
  constructor
  · intro w σ a σ' he hh hΓ hbs
    simp only [newWire, constrain, Api.mark, bMark, bind, pure, Lin.const?, Lin.wire, Option.bind_some, Option.some.injEq, Prod.mk.injEq] at he
    obtain ⟨rfl, rfl⟩ := he
    have h1 := hh.1 _ (List.mem_cons_self)
    simp only [Lin.eval_sub, hx.2 w hΓ, hy.2 w hΓ, hz.2 w hΓ] at h1
    have h2 : Lin.eval w ⟨0, [(σ.next, 1)]⟩ = t - u * v := by linear_combination h1
    refine ⟨h2, fun q hq => ?_⟩
    rcases List.mem_cons.1 hq with rfl | hq
    · rw [h2]; exact hb
    · exact hbs q hq
  · intro w σ r wf hh hΓ hr
    obtain rfl : r = t - u * v := hr
    have ag := upd_agree w σ.next (t - u * v)
    have hΓ' := hΓ.ext ag (Nat.le_succ _)
    refine ⟨.wire σ.next, ⟨σ.next + 1, (x, y, z.sub (.wire σ.next)) :: σ.r1cs, .wire σ.next :: σ.bools, σ.checks, σ.queries⟩, upd w σ.next (t - u * v), rfl, ⟨?_, (wf.grow (Nat.le_succ _)).2⟩,
      Nat.le_succ _, ag, ⟨?_, (hh.congr wf ag).2⟩, fun q hq => ?_⟩
    · intro q hq
      rcases List.mem_cons.1 hq with rfl | hq
      · refine ⟨(hx.ok hΓ').1, (hy.ok hΓ').1, (Lin.bound_sub _ _).trans (max_le (hz.ok hΓ').1 ?_)⟩
        simp
      · exact (wf.grow (Nat.le_succ _)).1 q hq
    · intro q hq
      rcases List.mem_cons.1 hq with rfl | hq
      · simp only [Lin.eval_sub, (hx.ok hΓ').2, (hy.ok hΓ').2, (hz.ok hΓ').2, Lin.eval_wire, upd_self]; ring
      · exact (hh.congr wf ag).1 q hq
    · simp only [Out.pairs, List.mem_singleton] at hq
      subst hq
      simp

theorem mono_wireTo {x y : Lin p} {z : Lin p → Lin p} : Mono b (newWire >>= fun r => (Api.mark r : Bld p Unit) >>= fun _ => constrain x y (z r) >>= fun _ => pure r) :=
  mono_bind mono_wire fun _ => mono_bind mono_mark fun _ => mono_bind mono_constrain fun _ => mono_pure

theorem mono_or {x y : Lin p} : Mono b (Api.or x y : Bld p (Lin p)) := by
  simp only [Api.or]
  unfold bOr
  exact mono_bind mono_assertBool fun _ => mono_bind mono_assertBool fun _ => mono_wireTo
theorem mono_xor {x y : Lin p} : Mono b (Api.xor x y : Bld p (Lin p)) := by
  simp only [Api.xor]
  unfold bXor
  exact mono_bind mono_assertBool fun _ => mono_bind mono_assertBool fun _ => mono_wireTo

theorem isBool_or {u v : ZMod p} (hu : isBool u = true) (hv : isBool v = true) : isBool (u + v - u * v) = true := by
  rcases isBool_iff.1 hu with rfl | rfl
  · simpa using hv
  · simp [isBool]

theorem isBool_xor {u v : ZMod p} (hu : isBool u = true) (hv : isBool v = true) : isBool (u + v - u * 2 * v) = true := by
  rcases isBool_iff.1 hu with rfl | rfl
  · simpa using hv
  · rcases isBool_iff.1 hv with rfl | rfl
    · simp [isBool]
    · rw [isBool_iff]; left; ring

theorem ref_or [Fact p.Prime] {Γ : Env p} {x y : Lin p} {u v : ZMod p} (hx : Der Γ x u) (hy : Der Γ y v) : Ref b Γ (Api.or x y : Bld p (Lin p)) (Api.or u v : Circ p (ZMod p)) := by
  refine Ref.of_iff (ref_bind (ref_assertBool hx) (fun _ => mono_bind mono_assertBool fun _ => mono_wireTo) fun _ _ h1 =>
    ref_bind (ref_assertBool hy.tail) (fun _ => mono_wireTo) fun _ _ h2 =>
      ref_wireTo hx.tail.tail hy.tail.tail (der_add hx hy).tail.tail (isBool_or h1.1 h2.1)) fun r => ?_
  simp [Api.assertBool, Api.or, or', softBool, assertIsBoolean, bind, pure, Circ.bind, Circ.Sat, Ops.add]

theorem ref_xor [Fact p.Prime] {Γ : Env p} {x y : Lin p} {u v : ZMod p} (hx : Der Γ x u) (hy : Der Γ y v) : Ref b Γ (Api.xor x y : Bld p (Lin p)) (Api.xor u v : Circ p (ZMod p)) := by
  refine Ref.of_iff (ref_bind (ref_assertBool hx) (fun _ => mono_bind mono_assertBool fun _ => mono_wireTo) fun _ _ h1 =>
    ref_bind (ref_assertBool hy.tail) (fun _ => mono_wireTo) fun _ _ h2 =>
      ref_wireTo (der_scale hx 2).tail.tail hy.tail.tail (der_add hx hy).tail.tail (isBool_xor h1.1 h2.1)) fun r => ?_
  simp [Api.assertBool, Api.xor, xor', softBool, assertIsBoolean, bind, pure, Circ.bind, Circ.Sat, Ops.add, Ops.scale, mul_comm u 2]

theorem mono_isZero {x : Lin p} : Mono b (Api.isZero x : Bld p (Lin p)) := by
  simp only [Api.isZero]
  unfold bIsZero
  split
  · exact mono_pure
  · exact mono_bind mono_wire fun _ => mono_bind mono_wire fun _ => mono_bind mono_constrain fun _ => mono_bind mono_constrain fun _ => mono_bind mono_mark fun _ => mono_pure

theorem isBool_isZero {u : ZMod p} : isBool (ZkLoc.isZero u) = true := by
  unfold ZkLoc.isZero; split <;> simp [isBool]

theorem isZero_wires [Fact p.Prime] {u r i : ZMod p} (h1 : u * i = 1 - r) (h2 : u * r = 0) : r = ZkLoc.isZero u := by
  unfold ZkLoc.isZero
  split
  · rename_i h; subst h; linear_combination h1
  · rename_i h; exact (mul_eq_zero.1 h2).resolve_left h

theorem ref_isZero [Fact p.Prime] {Γ : Env p} {x : Lin p} {u : ZMod p} (hx : Der Γ x u) : Ref b Γ (Api.isZero x : Bld p (Lin p)) (Api.isZero u : Circ p (ZMod p)) := by
  refine ref_of_val fun ⟨w, hw⟩ => ?_
  simp only [Api.isZero]
  unfold bIsZero
  split
  · rename_i k hk
    have : u = k := by rw [← hx.2 w hw, Lin.eval_const hk]
    subst this
    exact ref_pure (derO_lin (der_lit _))
  · refine Ref.of_iff (ref_bind (ref_wire none) (fun _ => mono_bind mono_wire fun _ => mono_bind mono_constrain fun _ => mono_bind mono_constrain fun _ => mono_bind mono_mark fun _ => mono_pure)
      fun r s _ => ref_bind (ref_wire none) (fun _ => mono_bind mono_constrain fun _ => mono_bind mono_constrain fun _ => mono_bind mono_mark fun _ => mono_pure)
      fun i j _ => ref_bind (ref_constrain hx.tail.tail (der_var (v := j) (by simp [Out.pairs])) (der_sub (der_lit 1) (der_var (v := s) (by simp [Out.pairs]))))
          (fun _ => mono_bind mono_constrain fun _ => mono_bind mono_mark fun _ => mono_pure)
      fun _ _ h1 => ref_bind (ref_constrain hx.tail.tail.tail (der_var (v := s) (by simp [Out.pairs])) (der_lit 0)) (fun _ => mono_bind mono_mark fun _ => mono_pure)
      fun _ _ h2 => ref_bind (ref_mark (der_var (v := s) (by simp [Out.pairs])) ?_) (fun _ => mono_pure) fun _ _ _ => ref_pure (derO_lin (der_var (v := s) (by simp [Out.pairs])))) fun t => ?_
    · rw [isZero_wires (of_decide_eq_true h1.1) (of_decide_eq_true h2.1)]; exact isBool_isZero
    · constructor
      · intro h
        obtain ⟨s, -, h⟩ := (Circ.sat_bind _ _ _).1 h
        obtain ⟨j, -, h⟩ := (Circ.sat_bind _ _ _).1 h
        obtain ⟨_, h1, h⟩ := (Circ.sat_bind _ _ _).1 h
        obtain ⟨_, h2, h⟩ := (Circ.sat_bind _ _ _).1 h
        obtain rfl : t = s := h
        exact isZero_wires (of_decide_eq_true h1.1) (of_decide_eq_true h2.1)
      · intro h
        obtain rfl : t = ZkLoc.isZero u := h
        refine (Circ.sat_bind _ _ _).2 ⟨ZkLoc.isZero u, ⟨_, rfl⟩, (Circ.sat_bind _ _ _).2 ⟨u⁻¹, ⟨_, rfl⟩, (Circ.sat_bind _ _ _).2 ⟨(), ⟨decide_eq_true ?_, rfl⟩, (Circ.sat_bind _ _ _).2 ⟨(), ⟨decide_eq_true ?_, rfl⟩,
          rfl⟩⟩⟩⟩
        · unfold ZkLoc.isZero
          split
          · rename_i h; simp [h, Ops.sub, Ops.lit]
          · rename_i h; simp [mul_inv_cancel₀ h, Ops.sub, Ops.lit]
        · unfold ZkLoc.isZero
          split
          · rename_i h; simp [h, Ops.lit]
          · simp [Ops.lit]

theorem mono_inverse {x : Lin p} : Mono b (Api.inverse x : Bld p (Lin p)) := fun w σ a σ' he hh => by
  simp only [Api.inverse, bInverse] at he
  split at he
  · split at he
    · simp at he
    · simp only [Option.some.injEq, Prod.mk.injEq] at he; obtain ⟨-, rfl⟩ := he; exact hh
  · exact (mono_bind mono_wire fun _ => mono_bind mono_constrain fun _ => mono_pure) w σ a σ' he hh

theorem ref_inverse [Fact p.Prime] {Γ : Env p} {x : Lin p} {u : ZMod p} (hx : Der Γ x u) : Ref b Γ (Api.inverse x : Bld p (Lin p)) (Api.inverse u : Circ p (ZMod p)) := by
  rcases hc : x.const? with _ | k
  · have : (Api.inverse x : Bld p (Lin p)) = (newWire >>= fun r => constrain x r (.lit 1) >>= fun _ => pure r) := by
      funext σ; simp [Api.inverse, bInverse, hc]
    rw [this]
    refine Ref.of_iff (ref_bind (ref_wire none) (fun _ => mono_bind mono_constrain fun _ => mono_pure) fun r t _ =>
      ref_bind (ref_constrain hx.tail (der_var (v := t) (by simp [Out.pairs])) (der_lit 1)) (fun _ => mono_pure) fun _ _ _ => ref_pure (derO_lin (der_var (v := t) (by simp [Out.pairs])))) fun t => ?_
    constructor
    · intro h
      obtain ⟨s, -, h⟩ := (Circ.sat_bind _ _ _).1 h
      obtain ⟨_, h1, h⟩ := (Circ.sat_bind _ _ _).1 h
      obtain rfl : t = s := h
      have h1 : u * t = 1 := of_decide_eq_true h1.1
      have hu : u ≠ 0 := fun h => by simp [h] at h1
      exact ⟨decide_eq_true hu, eq_inv_of_mul_eq_one_right h1⟩
    · rintro ⟨h1, h2⟩
      have hu : u ≠ 0 := of_decide_eq_true h1
      obtain rfl : t = u⁻¹ := h2
      exact (Circ.sat_bind _ _ _).2 ⟨u⁻¹, ⟨_, rfl⟩, (Circ.sat_bind _ _ _).2 ⟨(), ⟨decide_eq_true (mul_inv_cancel₀ hu), rfl⟩, rfl⟩⟩
  · constructor
    · intro w σ a σ' he hh hΓ hb
      simp only [Api.inverse, bInverse, hc] at he
      split at he
      · simp at he
      · rename_i hk
        simp only [Option.some.injEq, Prod.mk.injEq] at he; obtain ⟨rfl, rfl⟩ := he
        have : u = k := by rw [← hx.2 w hΓ, Lin.eval_const hc]
        subst this
        exact ⟨⟨decide_eq_true hk, by simp [Circ.Sat, Out.ev]⟩, hb⟩
    · intro w σ r wf hh hΓ hr
      obtain ⟨h1, h2⟩ := hr
      have hu : u ≠ 0 := of_decide_eq_true h1
      obtain rfl : r = u⁻¹ := h2
      have : u = k := by rw [← (hx.ok hΓ).2, Lin.eval_const hc]
      subst this
      refine ⟨.lit u⁻¹, σ, w, by simp [Api.inverse, bInverse, hc, hu], wf, le_rfl, fun _ _ => rfl, hh, fun q hq => ?_⟩
      simp only [Out.pairs, List.mem_singleton] at hq
      subst hq
      simp

end ZkLoc.R1cs
