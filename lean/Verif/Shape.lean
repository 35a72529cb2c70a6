import Verif.DeferredSpec
import Verif.Float

/-!
# Which range checks each operation records
-/

namespace ZkLoc

variable {p : ℕ} {α β : Type} {s : ℕ} {f : Fmt}

/-! A circuit that records nothing. -/

theorem shape_pure (a : α) : HasShape s (Circ.pure a : Circ p α) [] 0 := ⟨rfl, rfl⟩

theorem shape_bind0 {c : Circ p α} {d : α → Circ p β} {l : List (ℕ × Mode)} {q : ℕ} (h1 : HasShape s c [] 0)
    (h2 : ∀ a, HasShape s (d a) l q) : HasShape s (Circ.bind c d) l q := by
  have := h1.bind h2
  simpa using this

theorem shape_select (c x y : ZMod p) : HasShape s (select c x y) [] 0 := ⟨rfl, rfl⟩
theorem shape_and (a c : ZMod p) : HasShape s (and' a c) [] 0 := ⟨rfl, rfl⟩
theorem shape_or (a c : ZMod p) : HasShape s (or' a c) [] 0 := ⟨rfl, rfl⟩
theorem shape_xor (a c : ZMod p) : HasShape s (xor' a c) [] 0 := ⟨rfl, rfl⟩
theorem shape_hint (h : Option (ZMod p)) : HasShape s (newHint h) [] 0 := fun _ => ⟨rfl, rfl⟩
theorem shape_bool (a : ZMod p) : HasShape s (assertIsBoolean a) [] 0 := ⟨rfl, rfl⟩
theorem shape_eq (a c : ZMod p) : HasShape s (assertIsEqual a c) [] 0 := ⟨rfl, rfl⟩
theorem shape_inv (a : ZMod p) : HasShape s (inverse a) [] 0 := ⟨rfl, rfl⟩

theorem shape_check {v : ZMod p} {n : ℕ} {m : Mode} {d : Unit → Circ p β} {l : List (ℕ × Mode)} {q : ℕ}
    (h : HasShape s (d ()) l q) : HasShape s (Circ.bind (assertBitLength v n m) d) ((n, m) :: l) q :=
  ⟨l, rfl, h⟩

theorem shape_check_last {v : ZMod p} {n : ℕ} {m : Mode} : HasShape s (assertBitLength v n m) [(n, m)] 0 :=
  ⟨[], rfl, rfl, rfl⟩

theorem shape_query {v : ZMod p} {d : ZMod p → Circ p β} {l : List (ℕ × Mode)} {q : ℕ}
    (h : ∀ t, HasShape s (d t) l q) : HasShape s (Circ.bind (queryPowerOf2 s v) d) ((s, .loose) :: l) (q + 1) := by
  intro t
  exact ⟨l, rfl, rfl, q, rfl, h t⟩

theorem shape_abs (v : ZMod p) (n : ℕ) : HasShape s (gAbs v n) [(n, .loose)] 0 := by
  intro t u; exact ⟨[], rfl, rfl, rfl⟩

theorem shape_isPositive (v : ZMod p) (n : ℕ) : HasShape s (gIsPositive v n) [(n, .loose)] 0 := by
  intro t u; exact ⟨[], rfl, rfl, rfl⟩

theorem shape_max (a c : ZMod p) (n : ℕ) : HasShape s (gMax a c n) [(n, .loose)] 0 := by
  intro t u; exact ⟨[], rfl, rfl, rfl⟩

theorem shape_min (a c : ZMod p) (n : ℕ) : HasShape s (gMin a c n) [(n, .loose)] 0 := by
  intro t u; exact ⟨[], rfl, rfl, rfl⟩

/-- Prepend the records of a sub-circuit. -/
theorem shape_pre {c : Circ p α} {d : α → Circ p β} {l₁ l : List (ℕ × Mode)} {q₁ q : ℕ} (h1 : HasShape s c l₁ q₁)
    (h2 : ∀ a, HasShape s (d a) l q) : HasShape s (Circ.bind c d) (l₁ ++ l) (q + q₁) := by
  have := h1.bind h2
  rwa [Nat.add_comm] at this

/-- Range checks recorded by `NewFloat`. -/
def newFloatShape (f : Fmt) : List (ℕ × Mode) :=
  [(f.E, .unknown), (f.M, .unknown), (bitLen f.M, .loose), (f.pow2Size, .loose), (f.M - 1, .smallAbs)]

/-- Range checks recorded by `round`. -/
def roundShape (f : Fmt) (len shiftMax : ℕ) : List (ℕ × Mode) :=
  [(f.pow2Size, .loose), (f.M, .loose), (shiftMax + len - f.M - 2, .smallAbs)]

/-- Range checks recorded by `Add` and `Sub`. -/
def addShape (f : Fmt) : List (ℕ × Mode) :=
  [(f.E + 1, .loose), (f.E, .loose), (f.pow2Size, .loose), (bitLen (f.M + 3 + (f.M + 1) + 1), .loose), (f.pow2Size, .loose),
    (f.M + 3 + (f.M + 1) + 1 - 1, .smallAbs)] ++ roundShape f (f.M + 3 + (f.M + 1) + 1) 0 ++ [(f.E + 1, .loose)]

/-- Range checks recorded by `Mul`. -/
def mulShape (f : Fmt) : List (ℕ × Mode) :=
  [((f.M + 1) * 2 - 1, .smallAbs), (f.E + 1, .loose), (f.E + 1, .loose)] ++ roundShape f ((f.M + 1) * 2) (f.M + 2) ++
    [(f.E + 1, .loose)]

/-- Range checks recorded by `Div`. -/
def divShape (f : Fmt) : List (ℕ × Mode) :=
  [(f.M + 1, .loose), (f.M + 1, .loose), (f.M + 2 + 1 - 1, .unknown), (f.E + 1, .loose), (f.E + 1, .loose)] ++
    roundShape f (f.M + 2 + 1) (f.M + 2) ++ [(f.E + 1, .loose)]

/-- Range checks recorded by `Sqrt`. -/
def sqrtShape (f : Fmt) : List (ℕ × Mode) :=
  [(f.E - 1, .loose), (f.M + 3 + 1, .loose), (f.M + 3 + 1, .loose)] ++ roundShape f (f.M + 3) 0

/-- Range checks recorded by the comparisons. -/
def lessShape (f : Fmt) : List (ℕ × Mode) := [(f.E + 1, .loose), (f.M + 1, .loose)]

/-- Range checks recorded by `Trunc`, `Floor` and `Ceil`. -/
def truncShape (f : Fmt) : List (ℕ × Mode) :=
  [(f.E, .loose), (f.E, .loose), (f.pow2Size, .loose), (f.M + 1, .loose), (f.M + 1, .smallAbs)]

theorem shape_newFloat (v : ZMod p) : HasShape f.pow2Size (newFloat f v) (newFloatShape f) 1 := by
  unfold newFloat newFloatShape
  simp only [Circ.bind_eq]
  refine shape_bind0 (shape_hint _) fun _ => ?_
  refine shape_bind0 (shape_hint _) fun _ => ?_
  refine shape_bind0 (shape_bool _) fun _ => ?_
  refine shape_check (shape_check ?_)
  refine shape_bind0 (shape_hint _) fun _ => ?_
  refine shape_check (shape_query fun _ => shape_check ?_)
  exact ⟨rfl, rfl⟩

theorem shape_round (a : ZMod p) (len : ℕ) (sh : ZMod p) (sm : ℕ) (hf : ZMod p) :
    HasShape f.pow2Size (round f a len sh sm hf) (roundShape f len sm) 1 := by
  unfold round roundShape
  simp only [Circ.bind_eq]
  refine shape_query fun _ => ?_
  refine shape_bind0 (shape_hint _) fun _ => ?_
  refine shape_bind0 (shape_hint _) fun _ => ?_
  refine shape_bind0 (shape_hint _) fun _ => ?_
  refine shape_bind0 (shape_hint _) fun _ => ?_
  refine shape_bind0 (shape_bool _) fun _ => ?_
  refine shape_bind0 (shape_bool _) fun _ => ?_
  refine shape_check (shape_check ?_)
  exact ⟨rfl, rfl⟩

theorem shape_fix (m z e a : ZMod p) : HasShape s (fixOverflow f m z e a) [(f.E + 1, .loose)] 0 := by
  unfold fixOverflow
  simp only [Circ.bind_eq]
  refine shape_pre (l₁ := [(f.E + 1, .loose)]) (l := []) (q := 0) (q₁ := 0) (shape_isPositive _ _) fun _ => ?_
  exact ⟨rfl, rfl⟩

theorem shape_add (x y : FloatVar p) : HasShape f.pow2Size (fAdd f x y) (addShape f) 3 := by
  unfold fAdd addShape
  simp only [Circ.bind_eq, List.cons_append, List.nil_append, List.append_assoc]
  refine shape_pre (l₁ := [_]) (q := 3) (q₁ := 0) (shape_abs _ _) fun _ => ?_
  refine shape_bind0 (shape_select _ _ _) fun _ => ?_
  refine shape_pre (l₁ := [_]) (q := 3) (q₁ := 0) (shape_max _ _ _) fun _ => ?_
  refine shape_query (q := 2) fun _ => ?_
  refine shape_bind0 (shape_select _ _ _) fun _ => ?_
  refine shape_bind0 (shape_select _ _ _) fun _ => ?_
  refine shape_bind0 (shape_select _ _ _) fun _ => ?_
  refine shape_bind0 (shape_hint _) fun _ => ?_
  refine shape_bind0 (shape_hint _) fun _ => ?_
  refine shape_bind0 (shape_bool _) fun _ => ?_
  refine shape_bind0 (shape_hint _) fun _ => ?_
  refine shape_check (shape_query (q := 1) fun _ => ?_)
  refine shape_bind0 (shape_select _ _ _) fun _ => ?_
  refine shape_check ?_
  refine shape_bind0 (shape_select _ _ _) fun _ => ?_
  refine shape_pre (q := 0) (q₁ := 1) (shape_round _ _ _ _ _) fun _ => ?_
  refine shape_bind0 (shape_or _ _) fun _ => ?_
  refine shape_pre (l₁ := [_]) (l := []) (q := 0) (q₁ := 0) (shape_fix _ _ _ _) fun _ => ?_
  exact ⟨rfl, rfl⟩

theorem shape_sub (x y : FloatVar p) : HasShape f.pow2Size (fSub f x y) (addShape f) 3 := shape_add _ _

theorem shape_mul (x y : FloatVar p) : HasShape f.pow2Size (fMul f x y) (mulShape f) 1 := by
  unfold fMul mulShape subnormalShift
  simp only [Circ.bind_eq, List.cons_append, List.nil_append, List.append_assoc]
  refine shape_bind0 (shape_xor _ _) fun _ => ?_
  refine shape_bind0 (shape_hint _) fun _ => ?_
  refine shape_bind0 (shape_bool _) fun _ => ?_
  refine shape_check ?_
  refine shape_bind0 (shape_select _ _ _) fun _ => ?_
  refine shape_pre (l₁ := [_, _]) (q := 1) (q₁ := 0)
    (shape_pre (l₁ := [_]) (l := [_]) (q := 0) (q₁ := 0) (shape_min _ _ _) fun _ => shape_max _ _ _) fun _ => ?_
  refine shape_pre (q := 0) (q₁ := 1) (shape_round _ _ _ _ _) fun _ => ?_
  refine shape_bind0 (shape_or _ _) fun _ => ?_
  refine shape_pre (l₁ := [_]) (l := []) (q := 0) (q₁ := 0) (shape_fix _ _ _ _) fun _ => ?_
  exact ⟨rfl, rfl⟩

theorem shape_div (x y : FloatVar p) : HasShape f.pow2Size (fDiv f x y) (divShape f) 1 := by
  unfold fDiv divShape subnormalShift
  simp only [Circ.bind_eq, List.cons_append, List.nil_append, List.append_assoc]
  refine shape_bind0 (shape_xor _ _) fun _ => ?_
  refine shape_bind0 (shape_select _ _ _) fun _ => ?_
  refine shape_bind0 (shape_hint _) fun _ => ?_
  refine shape_bind0 (shape_hint _) fun _ => ?_
  refine shape_bind0 (shape_bool _) fun _ => ?_
  refine shape_check (shape_check (shape_check ?_))
  refine shape_bind0 (shape_select _ _ _) fun _ => ?_
  refine shape_pre (l₁ := [_, _]) (q := 1) (q₁ := 0)
    (shape_pre (l₁ := [_]) (l := [_]) (q := 0) (q₁ := 0) (shape_min _ _ _) fun _ => shape_max _ _ _) fun _ => ?_
  refine shape_pre (q := 0) (q₁ := 1) (shape_round _ _ _ _ _) fun _ => ?_
  refine shape_bind0 (shape_or _ _) fun _ => ?_
  refine shape_bind0 (shape_or _ _) fun _ => ?_
  refine shape_pre (l₁ := [_]) (l := []) (q := 0) (q₁ := 0) (shape_fix _ _ _ _) fun _ => ?_
  exact ⟨rfl, rfl⟩

theorem shape_sqrt (x : FloatVar p) : HasShape f.pow2Size (fSqrt f x) (sqrtShape f) 1 := by
  unfold fSqrt sqrtShape
  simp only [Circ.bind_eq, List.cons_append, List.nil_append]
  refine shape_bind0 (shape_hint _) fun _ => ?_
  refine shape_bind0 (shape_bool _) fun _ => ?_
  refine shape_bind0 (shape_inv _) fun _ => ?_
  refine shape_pre (l₁ := [_]) (q := 1) (q₁ := 0) (shape_abs _ _) fun _ => ?_
  refine shape_bind0 (shape_select _ _ _) fun _ => ?_
  refine shape_bind0 (shape_hint _) fun _ => ?_
  refine shape_check (shape_check ?_)
  rw [← List.append_nil (roundShape f (f.M + 3) 0)]
  refine shape_pre (q := 0) (q₁ := 1) (shape_round _ _ _ _ _) fun _ => ?_
  exact ⟨rfl, rfl⟩

theorem shape_less (x y : FloatVar p) (a : ℕ) : HasShape s (fLess f x y a) (lessShape f) 0 := by
  unfold fLess lessShape
  simp only [Circ.bind_eq]
  refine shape_pre (l₁ := [_]) (q := 0) (q₁ := 0) (shape_isPositive _ _) fun _ => ?_
  refine shape_pre (l₁ := [_]) (q := 0) (q₁ := 0) (shape_isPositive _ _) fun _ => ?_
  exact ⟨rfl, rfl⟩

theorem shape_trunc (x : FloatVar p) : HasShape f.pow2Size (fTrunc f x) (truncShape f) 1 := by
  unfold fTrunc truncShape
  simp only [Circ.bind_eq]
  refine shape_pre (l₁ := [_]) (q := 1) (q₁ := 0) (shape_isPositive _ _) fun _ => ?_
  refine shape_bind0 (shape_select _ _ _) fun _ => ?_
  refine shape_pre (l₁ := [_]) (q := 1) (q₁ := 0) (shape_max _ _ _) fun _ => ?_
  refine shape_query (q := 0) fun _ => ?_
  refine shape_bind0 (shape_inv _) fun _ => ?_
  refine shape_bind0 (shape_hint _) fun _ => ?_
  refine shape_check (shape_check ?_)
  exact ⟨rfl, rfl⟩

theorem shape_floor (x : FloatVar p) : HasShape f.pow2Size (fFloor f x) (truncShape f) 1 := by
  unfold fFloor truncShape
  simp only [Circ.bind_eq]
  refine shape_pre (l₁ := [_]) (q := 1) (q₁ := 0) (shape_isPositive _ _) fun _ => ?_
  refine shape_bind0 (shape_select _ _ _) fun _ => ?_
  refine shape_pre (l₁ := [_]) (q := 1) (q₁ := 0) (shape_max _ _ _) fun _ => ?_
  refine shape_query (q := 0) fun _ => ?_
  refine shape_bind0 (shape_inv _) fun _ => ?_
  refine shape_bind0 (shape_hint _) fun _ => ?_
  refine shape_check ?_
  refine shape_bind0 (shape_select _ _ _) fun _ => ?_
  refine shape_check ?_
  exact ⟨rfl, rfl⟩

theorem shape_ceil (x : FloatVar p) : HasShape f.pow2Size (fCeil f x) (truncShape f) 1 := by
  unfold fCeil
  simp only [Circ.bind_eq]
  rw [← List.append_nil (truncShape f)]
  refine shape_pre (q := 0) (q₁ := 1) (shape_floor _) fun _ => ⟨rfl, rfl⟩

theorem shape_toInt (x : FloatVar p) : HasShape f.pow2Size (fToInt f x) [(f.pow2Size, .loose)] 1 := by
  unfold fToInt
  simp only [Circ.bind_eq]
  refine shape_bind0 (shape_select _ _ _) fun _ => ?_
  refine shape_query (q := 0) fun _ => ?_
  exact ⟨rfl, rfl⟩

theorem shape_fSelect (c : ZMod p) (x y : FloatVar p) : HasShape s (fSelect c x y) [] 0 := ⟨rfl, rfl⟩

theorem shape_assertIsEqual (x y : FloatVar p) : HasShape s (fAssertIsEqual x y) [] 0 := ⟨rfl, rfl⟩

end ZkLoc
