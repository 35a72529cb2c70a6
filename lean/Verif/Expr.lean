import Verif.Spec.Expr
import Verif.Honest

/-!
# Circuits of expressions

How Go code composes the operations of /repo/float/float.go: operands first, then the operation (for example
/repo/loc2index32/loc2index32.go:40-44, 124-146). Not a function of the repository; it stands for all straight-line code over the
library.
-/

namespace ZkLoc

open Ieee (Datum)

variable {p : ℕ}

instance : DecidableEq (FloatVar p) := fun _ _ => decidable_of_iff _ FloatVar.ext_iff.symm

/-- The comparison as a circuit. -/
def Rel.circ (f : Fmt) : Rel → FloatVar p → FloatVar p → Circ p (ZMod p)
  | .lt => fIsLt f
  | .le => fIsLe f
  | .gt => fIsGt f
  | .ge => fIsGe f

/-- The circuit of an expression. -/
def Expr.circ (f : Fmt) (env : ℕ → FloatVar p) : Expr → Circ p (FloatVar p)
  | .var i => pure (env i)
  | .const v => pure (newConstant f v)
  | .add a b => do let x ← a.circ f env; let y ← b.circ f env; fAdd f x y
  | .sub a b => do let x ← a.circ f env; let y ← b.circ f env; fSub f x y
  | .mul a b => do let x ← a.circ f env; let y ← b.circ f env; fMul f x y
  | .div a b => do let x ← a.circ f env; let y ← b.circ f env; fDiv f x y
  | .sqrt a => do let x ← a.circ f env; fSqrt f x
  | .neg a => do let x ← a.circ f env; pure (fNeg x)
  | .abs a => do let x ← a.circ f env; pure (fAbs x)
  | .trunc a => do let x ← a.circ f env; fTrunc f x
  | .floor a => do let x ← a.circ f env; fFloor f x
  | .ceil a => do let x ← a.circ f env; fCeil f x
  | .ite r a b t e => do
    let x ← a.circ f env
    let y ← b.circ f env
    let u ← t.circ f env
    let v ← e.circ f env
    let c ← r.circ f x y
    fSelect c u v

/-- Integer-level comparison. -/
def Rel.evalZ : Rel → Flt → Flt → Bool
  | .lt, x, y => lessZ x y false
  | .le, x, y => lessZ x y true
  | .gt, x, y => lessZ y x false
  | .ge, x, y => lessZ y x true

/-- Integer-level evaluation with honest hints. -/
def Expr.evalZ (f : Fmt) (env : ℕ → Flt) : Expr → Flt
  | .var i => env i
  | .const v => fltOf f v
  | .add a b => Flt.add f (a.evalZ f env) (b.evalZ f env)
  | .sub a b => Flt.sub f (a.evalZ f env) (b.evalZ f env)
  | .mul a b => Flt.mul f (a.evalZ f env) (b.evalZ f env)
  | .div a b => Flt.div f (a.evalZ f env) (b.evalZ f env)
  | .sqrt a => Flt.sqrt f (a.evalZ f env)
  | .neg a => (a.evalZ f env).neg
  | .abs a => (a.evalZ f env).abs
  | .trunc a => Flt.trunc f (a.evalZ f env)
  | .floor a => Flt.floor f (a.evalZ f env)
  | .ceil a => Flt.ceil f (a.evalZ f env)
  | .ite r a b t e => if r.evalZ (a.evalZ f env) (b.evalZ f env) then t.evalZ f env else e.evalZ f env

variable [Fact p.Prime] {b : ℕ} {f : Fmt}

theorem newConstant_toVar (hE : 1 ≤ f.E) (h64 : 1 + f.E + f.M ≤ 64) {v : ℕ} (hv : v < 2 ^ (1 + f.E + f.M)) :
    (newConstant f v : FloatVar p) = (fltOf f v).toVar := by
  unfold newConstant
  rw [componentsOf_eq hE h64 hv, comps_toVar]

theorem Rel.run_circ (G : Good p b f) (r : Rel) {x y : Flt} (hx : x.Valid f) (hy : y.Valid f) :
    (r.circ f (x.toVar : FloatVar p) y.toVar).run b = some (B (r.evalZ x y)) := by
  cases r
  · exact run_isLt G hx hy
  · exact run_isLe G hx hy
  · exact run_isGt G hx hy
  · exact run_isGe G hx hy

/-- The wires determine the canonical record. -/
theorem toVar_inj (G : Good p b f) {x y : Flt} (hx : x.Valid f) (hy : y.Valid f) (h : (x.toVar : FloatVar p) = y.toVar) : x = y := by
  unfold Flt.toVar at h
  injection h with hs he hm ha
  have hE := G.hE
  have hEM := G.hEM
  have hMz := G.hMz
  have hzE := G.zE1
  have hmn := f.eMin_eq
  have hpE : (2:ℤ) ^ (f.E + 1) ≤ p := by exact_mod_cast G.pow_le (k := f.E + 1) (by omega)
  have hpM := G.pow_le (k := f.M + 1) (by omega)
  have h1 := hx.exp_ge G
  have h2 := hy.exp_ge G
  have h3 := hx.exp_le G
  have h4 := hy.exp_le G
  have h5 := hx.man_lt
  have h6 := hy.man_lt
  rw [intCast_inj (by rw [abs_lt]; constructor <;> omega)] at he
  rw [natCast_inj (by omega) (by omega)] at hm
  ext1
  · exact B_inj.1 hs
  · exact he
  · exact hm
  · exact B_inj.1 ha

/-- Wires encode at most one datum. -/
theorem encodes_unique (G : Good p b f) {r : FloatVar p} {d d' : Datum} (h : Encodes f r d) (h' : Encodes f r d') : d = d' := by
  obtain ⟨x, hx, rfl, rfl⟩ := encodes_iff.1 h
  obtain ⟨y, hy, rfl, he⟩ := encodes_iff.1 h'
  rw [toVar_inj G hx hy he]

theorem overflowed_rounds {s t : Bool} {v : ℝ} {r : FloatVar p} {d : Datum} (h : Overflowed f s v r) (hd : Ieee.RoundsTo ⟨f.E, f.M⟩ t v d) :
    d = .inf t := by
  obtain ⟨n, h1, h2, h3, _⟩ := h
  obtain ⟨q, h4, -, h5⟩ := hd
  obtain rfl := h3.unique h4
  refine h5 ?_
  have : (Ieee.Format.bias ⟨f.E, f.M⟩) + 1 = f.eMax := by simp [Ieee.Format.bias, Fmt.eMax]
  rw [this]
  exact pow_real_ge (f := f) (e := f.eMax) h1

/-- The honest prover computes the integer-level value, which is canonical. -/
theorem Expr.run_circ (G : Good p b f) (h64 : 1 + f.E + f.M ≤ 64) {env : ℕ → Flt} (henv : ∀ i, (env i).Valid f) {e : Expr} (hw : e.WF f) :
    (e.evalZ f env).Valid f ∧ (e.circ f (fun i => ((env i).toVar : FloatVar p))).run b = some (e.evalZ f env).toVar := by
  have hE := G.hE
  induction e with
  | var i => exact ⟨henv i, rfl⟩
  | const v =>
    refine ⟨fltOf_valid (by omega) hw, ?_⟩
    show some (newConstant f v) = _
    rw [newConstant_toVar (by omega) h64 hw]; rfl
  | add a b iha ihb =>
    obtain ⟨h1, h2⟩ := iha hw.1
    obtain ⟨h3, h4⟩ := ihb hw.2
    refine ⟨h1.add G h3, ?_⟩
    simp only [Expr.circ, Circ.bind_eq, Circ.run_bind, h2, h4, Option.bind_some]
    exact run_add G h1 h3
  | sub a b iha ihb =>
    obtain ⟨h1, h2⟩ := iha hw.1
    obtain ⟨h3, h4⟩ := ihb hw.2
    refine ⟨h1.sub G h3, ?_⟩
    simp only [Expr.circ, Circ.bind_eq, Circ.run_bind, h2, h4, Option.bind_some]
    exact run_sub G h1 h3
  | mul a b iha ihb =>
    obtain ⟨h1, h2⟩ := iha hw.1
    obtain ⟨h3, h4⟩ := ihb hw.2
    refine ⟨h1.mul G h3, ?_⟩
    simp only [Expr.circ, Circ.bind_eq, Circ.run_bind, h2, h4, Option.bind_some]
    exact run_mul G h1 h3
  | div a b iha ihb =>
    obtain ⟨h1, h2⟩ := iha hw.1
    obtain ⟨h3, h4⟩ := ihb hw.2
    refine ⟨h1.div G h3, ?_⟩
    simp only [Expr.circ, Circ.bind_eq, Circ.run_bind, h2, h4, Option.bind_some]
    exact run_div G h1 h3
  | sqrt a iha =>
    obtain ⟨h1, h2⟩ := iha hw
    refine ⟨h1.sqrt G, ?_⟩
    simp only [Expr.circ, Circ.bind_eq, Circ.run_bind, h2, Option.bind_some]
    exact run_sqrt G h1
  | neg a iha =>
    obtain ⟨h1, h2⟩ := iha hw
    refine ⟨h1.neg, ?_⟩
    simp only [Expr.circ, Circ.bind_eq, Circ.run_bind, h2, Option.bind_some, Circ.pure_eq, Circ.run, fNeg_toVar]
    rfl
  | abs a iha =>
    obtain ⟨h1, h2⟩ := iha hw
    refine ⟨h1.abs, ?_⟩
    simp only [Expr.circ, Circ.bind_eq, Circ.run_bind, h2, Option.bind_some, Circ.pure_eq, Circ.run, fAbs_toVar]
    rfl
  | trunc a iha =>
    obtain ⟨h1, h2⟩ := iha hw
    refine ⟨h1.trunc G, ?_⟩
    simp only [Expr.circ, Circ.bind_eq, Circ.run_bind, h2, Option.bind_some]
    exact run_trunc G h1
  | floor a iha =>
    obtain ⟨h1, h2⟩ := iha hw
    refine ⟨h1.floor G, ?_⟩
    simp only [Expr.circ, Circ.bind_eq, Circ.run_bind, h2, Option.bind_some]
    exact run_floor G h1
  | ceil a iha =>
    obtain ⟨h1, h2⟩ := iha hw
    refine ⟨h1.ceil G, ?_⟩
    simp only [Expr.circ, Circ.bind_eq, Circ.run_bind, h2, Option.bind_some]
    exact run_ceil G h1
  | ite r a b t e iha ihb iht ihe =>
    obtain ⟨h1, h2⟩ := iha hw.1
    obtain ⟨h3, h4⟩ := ihb hw.2.1
    obtain ⟨h5, h6⟩ := iht hw.2.2.1
    obtain ⟨h7, h8⟩ := ihe hw.2.2.2
    simp only [Expr.circ, Circ.bind_eq, Circ.run_bind, h2, h4, h6, h8, Option.bind_some, Rel.run_circ G r h1 h3, run_fSelect, Expr.evalZ]
    cases r.evalZ (a.evalZ f env) (b.evalZ f env)
    · exact ⟨h7, rfl⟩
    · exact ⟨h5, rfl⟩

theorem Rel.evalZ_iff (G : Good p b f) (r : Rel) {x y : Flt} (hx : x.Valid f) (hy : y.Valid f) :
    r.evalZ x y = true ↔ r.Holds (x.datum f) (y.datum f) := by
  cases r
  · exact lt_iff G hx hy
  · exact le_iff G hx hy
  · exact lt_iff G hy hx
  · exact le_iff G hy hx

theorem code_add (G : Good p b f) {x y : Flt} (hx : x.Valid f) (hy : y.Valid f) :
    CodeAdd f (x.datum f) (y.datum f) ((Flt.add f x y).datum f) := by
  constructor
  · intro hnt
    unfold Flt.add
    rcases add_outcomes G hx hy true true with ⟨_, h2⟩ | ⟨h, _⟩ | ⟨_, h, _⟩ | ⟨h, _⟩
    · exact h2
    · cases h
    · exact absurd h hnt
    · cases h
  · intro ht
    obtain ⟨r, h1, h2, -⟩ := C15_add_top_cancel_gives_inf (p := p) (b := b) G (encodes_iff.2 ⟨x, hx, rfl, rfl⟩) (encodes_iff.2 ⟨y, hy, rfl, rfl⟩) ht
    rw [run_add G hx hy] at h1
    injection h1 with h1
    exact encodes_unique G (encodes_iff.2 ⟨_, hx.add G hy, rfl, h1.symm⟩) h2

theorem code_sub (G : Good p b f) {x y : Flt} (hx : x.Valid f) (hy : y.Valid f) :
    CodeSub f (x.datum f) (y.datum f) ((Flt.sub f x y).datum f) := by
  have h := code_add G hx hy.neg
  rw [neg_datum] at h
  exact ⟨fun hn => sub_iff_add_neg.2 (h.1 hn), h.2⟩

/-- The integer-level value is the value of the expression. -/
theorem Expr.eval_evalZ (G : Good p b f) (h64 : 1 + f.E + f.M ≤ 64) {env : ℕ → Flt} (henv : ∀ i, (env i).Valid f) {e : Expr} (hw : e.WF f) :
    e.Eval f (CodeAdd f) (CodeSub f) (fun i => (env i).datum f) ((e.evalZ f env).datum f) := by
  have hE := G.hE
  have hv : ∀ e : Expr, e.WF f → (e.evalZ f env).Valid f := fun e hw => (Expr.run_circ G h64 henv hw).1
  induction e with
  | var i => rfl
  | const v => exact fltOf_datum (by omega) hw
  | add a b iha ihb => exact ⟨_, _, iha hw.1, ihb hw.2, code_add G (hv _ hw.1) (hv _ hw.2)⟩
  | sub a b iha ihb => exact ⟨_, _, iha hw.1, ihb hw.2, code_sub G (hv _ hw.1) (hv _ hw.2)⟩
  | mul a b iha ihb => exact ⟨_, _, iha hw.1, ihb hw.2, (mulZ_correct G (hv _ hw.1) (hv _ hw.2)).2.1⟩
  | div a b iha ihb => exact ⟨_, _, iha hw.1, ihb hw.2, (divZ_correct G (hv _ hw.1) (hv _ hw.2)).2.1⟩
  | sqrt a iha => exact ⟨_, iha hw, (sqrtZ_correct G (hv a hw)).2⟩
  | neg a iha => exact ⟨_, iha hw, neg_datum _⟩
  | abs a iha => exact ⟨_, iha hw, abs_datum _⟩
  | trunc a iha => exact ⟨_, iha hw, (truncZ_honest G (hv a hw)).2⟩
  | floor a iha => exact ⟨_, iha hw, (floorZ_honest G (hv a hw)).2⟩
  | ceil a iha =>
    refine ⟨_, iha hw, ?_⟩
    have h := (floorZ_honest G (hv a hw).neg).2
    rw [neg_datum] at h
    have := integral_neg h
    rw [← neg_datum] at this
    exact this
  | ite r a b t e iha ihb iht ihe =>
    refine ⟨_, _, _, _, iha hw.1, ihb hw.2.1, iht hw.2.2.1, ihe hw.2.2.2, ?_, ?_⟩
    · intro h
      rw [← Rel.evalZ_iff G r (hv _ hw.1) (hv _ hw.2.1)] at h
      simp only [Expr.evalZ, h, if_true]
    · intro h
      rw [← Rel.evalZ_iff G r (hv _ hw.1) (hv _ hw.2.1)] at h
      simp only [Expr.evalZ, h, Bool.false_eq_true, if_false]

end ZkLoc
