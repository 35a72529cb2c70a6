import Verif.R1csCirc
import Verif.R1csCommit
import Verif.R1csRef

/-!
# The compiled circuits of /repo/float/float_test.go
-/

namespace ZkLoc.R1cs

section
variable {p : ℕ}

/-- Some assignment with the given input values satisfies the system: a proof for these inputs can be produced. -/
def System.Accepts (s : System p) (b : ℕ) (xs : List (ZMod p)) : Prop := ∃ w : Asg p, (∀ i (h : i < xs.length), w i = xs[i]) ∧ s.Sat b w

/-- The input wires and their values. -/
def inputs (xs : List (ZMod p)) : Env p := xs.zipIdx.map fun t => (.wire t.2, t.1)

end

section
variable {p b : ℕ} [Fact p.Prime] {f : Fmt}

theorem inputs_ev {xs : List (ZMod p)} {w : Asg p} : (inputs xs).Ev w ↔ ∀ i (h : i < xs.length), w i = xs[i] := by
  constructor
  · intro h i hi
    have := h (.wire i, xs[i]) (List.mem_map.2 ⟨(xs[i], i), List.mk_mem_zipIdx_iff_getElem?.2 (List.getElem?_eq_getElem hi), rfl⟩)
    simpa using this
  · intro h q hq
    obtain ⟨⟨v, i⟩, hm, rfl⟩ := List.mem_map.1 hq
    obtain ⟨hi, rfl⟩ := List.getElem?_eq_some_iff.1 (List.mk_mem_zipIdx_iff_getElem?.1 hm)
    simpa using h i hi

theorem inputs_ok {xs : List (ZMod p)} {w : Asg p} (h : ∀ i (h : i < xs.length), w i = xs[i]) : (inputs xs).Ok xs.length w := by
  intro q hq
  refine ⟨?_, inputs_ev.2 h q hq⟩
  obtain ⟨⟨v, i⟩, hm, rfl⟩ := List.mem_map.1 hq
  obtain ⟨hi, rfl⟩ := List.getElem?_eq_some_iff.1 (List.mk_mem_zipIdx_iff_getElem?.1 hm)
  rw [Lin.bound_wire]; omega

/-- A program with `n` inputs that is satisfiable for some inputs compiles, and the system accepts the inputs for which it is. -/
theorem compile_accepts_at {n : ℕ} {m : Bld p Unit} {c : List (ZMod p) → Circ p Unit} (h : ∀ xs : List (ZMod p), xs.length = n → RefAt b ⟨n, [], [], [], []⟩ (inputs xs) m (c xs))
    (h0 : ∃ xs, xs.length = n ∧ (c xs).Sat b true ()) : ∃ s, compile b n m = some s ∧ ∀ xs, xs.length = n → (s.Accepts b xs ↔ (c xs).Sat b true ()) := by
  have hc : ∀ xs, xs.length = n → (c xs).Sat b true () → ∃ s, compile b n m = some s ∧ s.Accepts b xs := by
    intro xs hl hs
    obtain ⟨w, hw⟩ : ∃ w : Asg p, ∀ i (h : i < xs.length), w i = xs[i] := ⟨fun i => xs.getD i 0, fun i hi => by simp [hi]⟩
    obtain ⟨s, w', h1, h2, h3⟩ := compile_complete (h xs hl) (hl ▸ inputs_ok hw) hs
    exact ⟨s, h1, w', fun i hi => (h2 i (hl ▸ hi)).trans (hw i hi), h3⟩
  obtain ⟨x0, hl0, hs0⟩ := h0
  obtain ⟨s, hs, -⟩ := hc x0 hl0 hs0
  refine ⟨s, hs, fun xs hl => ⟨?_, fun hsat => ?_⟩⟩
  · rintro ⟨w, hw, hsat⟩
    exact compile_sound (h xs hl) hs hsat (inputs_ev.2 hw)
  · obtain ⟨s', hs', ha⟩ := hc xs hl hsat
    rw [hs, Option.some.injEq] at hs'
    exact hs' ▸ ha

theorem compile_accepts {n : ℕ} {m : Bld p Unit} {c : List (ZMod p) → Circ p Unit} (h : ∀ xs : List (ZMod p), xs.length = n → Ref b (inputs xs) m (c xs))
    (h0 : ∃ xs, xs.length = n ∧ (c xs).Sat b true ()) : ∃ s, compile b n m = some s ∧ ∀ xs, xs.length = n → (s.Accepts b xs ↔ (c xs).Sat b true ()) :=
  compile_accepts_at (fun xs hl => (h xs hl).at _) h0

theorem accepts1 {m : Bld p Unit} {c : ZMod p → Circ p Unit} (h : ∀ X, Ref b (inputs [X]) m (c X)) (h0 : ∃ X, (c X).Sat b true ()) :
    ∃ s, compile b 1 m = some s ∧ ∀ X, s.Accepts b [X] ↔ (c X).Sat b true () := by
  obtain ⟨s, h1, h2⟩ := compile_accepts (n := 1) (c := fun xs => c (xs.getD 0 0)) (fun xs hl => by
    obtain ⟨X, rfl⟩ := List.length_eq_one_iff.1 hl; exact h X) (h0.elim fun X hX => ⟨[X], rfl, hX⟩)
  exact ⟨s, h1, fun X => h2 [X] rfl⟩
theorem accepts2 {m : Bld p Unit} {c : ZMod p → ZMod p → Circ p Unit} (h : ∀ X Y, Ref b (inputs [X, Y]) m (c X Y)) (h0 : ∃ X Y, (c X Y).Sat b true ()) :
    ∃ s, compile b 2 m = some s ∧ ∀ X Y, s.Accepts b [X, Y] ↔ (c X Y).Sat b true () := by
  obtain ⟨s, h1, h2⟩ := compile_accepts (n := 2) (c := fun xs => c (xs.getD 0 0) (xs.getD 1 0)) (fun xs hl => by
    obtain ⟨X, Y, rfl⟩ := List.length_eq_two.1 hl; exact h X Y) (by obtain ⟨X, Y, hX⟩ := h0; exact ⟨[X, Y], rfl, hX⟩)
  exact ⟨s, h1, fun X Y => h2 [X, Y] rfl⟩
theorem accepts3 {m : Bld p Unit} {c : ZMod p → ZMod p → ZMod p → Circ p Unit} (h : ∀ X Y Z, Ref b (inputs [X, Y, Z]) m (c X Y Z)) (h0 : ∃ X Y Z, (c X Y Z).Sat b true ()) :
    ∃ s, compile b 3 m = some s ∧ ∀ X Y Z, s.Accepts b [X, Y, Z] ↔ (c X Y Z).Sat b true () := by
  obtain ⟨s, h1, h2⟩ := compile_accepts (n := 3) (c := fun xs => c (xs.getD 0 0) (xs.getD 1 0) (xs.getD 2 0)) (fun xs hl => by
    obtain ⟨X, Y, Z, rfl⟩ := List.length_eq_three.1 hl; exact h X Y Z) (by obtain ⟨X, Y, Z, hX⟩ := h0; exact ⟨[X, Y, Z], rfl, hX⟩)
  exact ⟨s, h1, fun X Y Z => h2 [X, Y, Z] rfl⟩

theorem der_in {xs : List (ZMod p)} {i : ℕ} (h : i < xs.length) : Der (inputs xs) (.wire i) xs[i] :=
  der_var (List.mem_map.2 ⟨(xs[i], i), List.mk_mem_zipIdx_iff_getElem?.2 (List.getElem?_eq_getElem h), rfl⟩)

/-- An operation on one float compiles to its meaning, for operands whose sign is a bit. -/
structure Unary (b : ℕ) (op : FV (Lin p) → Bld p (FV (Lin p))) (op' : FV (ZMod p) → Circ p (FV (ZMod p))) : Prop where
  mono : ∀ x, Mono b (op x)
  ref : ∀ (Γ : Env p) x x', DerO Γ x x' → isBool x'.sign = true → Ref b Γ (op x) (op' x')

/-- An operation on two floats. -/
structure Binary {α β : Type} [Out p α β] (b : ℕ) (op : FV (Lin p) → FV (Lin p) → Bld p α) (op' : FV (ZMod p) → FV (ZMod p) → Circ p β) : Prop where
  mono : ∀ x y, Mono b (op x y)
  ref : ∀ (Γ : Env p) x y x' y', DerO Γ x x' → DerO Γ y y' → isBool y'.sign = true → Ref b Γ (op x y) (op' x' y')

theorem ref_unaryCircuit {op : FV (Lin p) → Bld p (FV (Lin p))} {op' : FV (ZMod p) → Circ p (FV (ZMod p))} (h : Unary b op op') (X Y : ZMod p) :
    Ref b (inputs [X, Y]) (unaryCircuit f op (.wire 0) (.wire 1)) (unaryCircuit f op' X Y) := by
  unfold unaryCircuit
  refine ref_bind (ref_newFloat (der_in (i := 0) (xs := [X, Y]) (by simp))) (fun _ => mono_bind mono_newFloat fun _ => mono_bind (h.mono _) fun _ => mono_fAssertIsEqual) fun x x' hx => ?_
  refine ref_bind (ref_newFloat (der_in (i := 1) (xs := [X, Y]) (by simp)).tail) (fun _ => mono_bind (h.mono _) fun _ => mono_fAssertIsEqual) fun y y' hy => ?_
  refine ref_bind (h.ref _ _ _ derO_head.tail (newFloat_sign hx)) (fun _ => mono_fAssertIsEqual) fun r r' hr => ?_
  exact ref_fAssertIsEqual derO_head derO_head.tail

theorem ref_binaryCircuit {op : FV (Lin p) → FV (Lin p) → Bld p (FV (Lin p))} {op' : FV (ZMod p) → FV (ZMod p) → Circ p (FV (ZMod p))} (h : Binary b op op') (X Y Z : ZMod p) :
    Ref b (inputs [X, Y, Z]) (binaryCircuit f op (.wire 0) (.wire 1) (.wire 2)) (binaryCircuit f op' X Y Z) := by
  unfold binaryCircuit
  refine ref_bind (ref_newFloat (der_in (i := 0) (xs := [X, Y, Z]) (by simp)))
    (fun _ => mono_bind mono_newFloat fun _ => mono_bind mono_newFloat fun _ => mono_bind (h.mono _ _) fun _ => mono_fAssertIsEqual) fun x x' hx => ?_
  refine ref_bind (ref_newFloat (der_in (i := 1) (xs := [X, Y, Z]) (by simp)).tail) (fun _ => mono_bind mono_newFloat fun _ => mono_bind (h.mono _ _) fun _ => mono_fAssertIsEqual) fun y y' hy => ?_
  refine ref_bind (ref_newFloat (der_in (i := 2) (xs := [X, Y, Z]) (by simp)).tail.tail) (fun _ => mono_bind (h.mono _ _) fun _ => mono_fAssertIsEqual) fun z z' hz => ?_
  refine ref_bind (h.ref _ _ _ _ _ derO_head.tail.tail derO_head.tail (newFloat_sign hy)) (fun _ => mono_fAssertIsEqual) fun r r' hr => ?_
  exact ref_fAssertIsEqual derO_head derO_head.tail

theorem ref_comparisonCircuit {op : FV (Lin p) → FV (Lin p) → Bld p (Lin p)} {op' : FV (ZMod p) → FV (ZMod p) → Circ p (ZMod p)} (h : Binary b op op') (X Y Z : ZMod p) :
    Ref b (inputs [X, Y, Z]) (comparisonCircuit f op (.wire 0) (.wire 1) (.wire 2)) (comparisonCircuit f op' X Y Z) := by
  unfold comparisonCircuit
  refine ref_bind (ref_newFloat (der_in (i := 0) (xs := [X, Y, Z]) (by simp)))
    (fun _ => mono_bind mono_newFloat fun _ => mono_bind mono_assertBool fun _ => mono_bind (h.mono _ _) fun _ => mono_assertEq) fun x x' hx => ?_
  refine ref_bind (ref_newFloat (der_in (i := 1) (xs := [X, Y, Z]) (by simp)).tail) (fun _ => mono_bind mono_assertBool fun _ => mono_bind (h.mono _ _) fun _ => mono_assertEq) fun y y' hy => ?_
  refine ref_bind (ref_assertBool (der_in (i := 2) (xs := [X, Y, Z]) (by simp)).tail.tail) (fun _ => mono_bind (h.mono _ _) fun _ => mono_assertEq) fun _ _ hz => ?_
  refine ref_bind (h.ref _ _ _ _ _ derO_head.tail.tail derO_head.tail (newFloat_sign hy)) (fun _ => mono_assertEq) fun r r' hr => ?_
  exact ref_assertEq der_head (der_in (i := 2) (xs := [X, Y, Z]) (by simp)).tail.tail.tail.tail

theorem ref_allocationCircuit (y : ℕ) (X : ZMod p) : Ref b (inputs [X]) (allocationCircuit f y (.wire 0)) (allocationCircuit f y X) := by
  unfold allocationCircuit
  exact ref_bind (ref_newFloat (der_in (i := 0) (xs := [X]) (by simp))) (fun _ => mono_fAssertIsEqual) fun x x' hx => ref_fAssertIsEqual derO_head derO_newConstant

theorem ref_conversionCircuit {op : FV (Lin p) → Bld p (FV (Lin p))} {op' : FV (ZMod p) → Circ p (FV (ZMod p))} (h : Unary b op op') (X Y : ZMod p) :
    Ref b (inputs [X, Y]) (conversionCircuit f op (.wire 0) (.wire 1)) (conversionCircuit f op' X Y) := by
  unfold conversionCircuit
  refine ref_bind (ref_newFloat (der_in (i := 0) (xs := [X, Y]) (by simp))) (fun _ => mono_bind (h.mono _) fun _ => mono_bind mono_fToInt fun _ => mono_assertEq) fun x x' hx => ?_
  refine ref_bind (h.ref _ _ _ derO_head (newFloat_sign hx)) (fun _ => mono_bind mono_fToInt fun _ => mono_assertEq) fun r r' hr => ?_
  refine ref_bind (ref_fToInt derO_head) (fun _ => mono_assertEq) fun i i' hi => ?_
  exact ref_assertEq der_head (der_in (i := 1) (xs := [X, Y]) (by simp)).tail.tail.tail

theorem binary_fAdd : Binary (p := p) b (fAdd f) (fAdd f) := ⟨fun _ _ => mono_fAdd, fun _ _ _ _ _ hx hy _ => ref_fAdd hx hy⟩
theorem binary_fSub : Binary (p := p) b (fSub f) (fSub f) := ⟨fun _ _ => mono_fSub, fun _ _ _ _ _ hx hy hs => ref_fSub hx hy hs⟩
theorem binary_fMul : Binary (p := p) b (fMul f) (fMul f) := ⟨fun _ _ => mono_fMul, fun _ _ _ _ _ hx hy _ => ref_fMul hx hy⟩
theorem binary_fDiv : Binary (p := p) b (fDiv f) (fDiv f) := ⟨fun _ _ => mono_fDiv, fun _ _ _ _ _ hx hy _ => ref_fDiv hx hy⟩
theorem binary_fIsLt : Binary (p := p) b (fIsLt f) (fIsLt f) := ⟨fun _ _ => mono_fIsLt, fun _ _ _ _ _ hx hy _ => ref_fIsLt hx hy⟩
theorem binary_fIsLe : Binary (p := p) b (fIsLe f) (fIsLe f) := ⟨fun _ _ => mono_fIsLe, fun _ _ _ _ _ hx hy _ => ref_fIsLe hx hy⟩
theorem binary_fIsGt : Binary (p := p) b (fIsGt f) (fIsGt f) := ⟨fun _ _ => mono_fIsGt, fun _ _ _ _ _ hx hy _ => ref_fIsGt hx hy⟩
theorem binary_fIsGe : Binary (p := p) b (fIsGe f) (fIsGe f) := ⟨fun _ _ => mono_fIsGe, fun _ _ _ _ _ hx hy _ => ref_fIsGe hx hy⟩
theorem unary_fSqrt : Unary (p := p) b (fSqrt f) (fSqrt f) := ⟨fun _ => mono_fSqrt, fun _ _ _ hx _ => ref_fSqrt hx⟩
theorem unary_fTrunc : Unary (p := p) b (fTrunc f) (fTrunc f) := ⟨fun _ => mono_fTrunc, fun _ _ _ hx _ => ref_fTrunc hx⟩
theorem unary_fFloor : Unary (p := p) b (fFloor f) (fFloor f) := ⟨fun _ => mono_fFloor, fun _ _ _ hx _ => ref_fFloor hx⟩
theorem unary_fCeil : Unary (p := p) b (fCeil f) (fCeil f) := ⟨fun _ => mono_fCeil, fun _ _ _ hx hs => ref_fCeil hx hs⟩

end

end ZkLoc.R1cs
