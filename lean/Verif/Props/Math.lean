import Verif.Math
import Verif.Props.Expr
import Verif.Consts
import Mathlib.Analysis.Real.Pi.Bounds

/-!
# Properties C33, C34: /repo/math/math.go
-/

namespace ZkLoc

open Ieee (Datum)

variable {p : ℕ}

/-! ### C33: polynomial evaluation -/

theorem evalKLoop_one (f : Fmt) (x : FloatVar p) (cs : List (FloatVar p)) (acc : FloatVar p) :
    evalKLoop f x cs [acc] = Circ.bind (horner f x cs acc) (fun r => .pure [r]) := by
  induction cs generalizing acc with
  | nil => rfl
  | cons c cs ih =>
    simp only [evalKLoop, evalKStep, horner, Circ.bind_eq, Circ.pure_eq, Circ.bind_assoc, Circ.bind, ih]

/-- `EvalK` with `k = 1` is Horner's rule over the coefficients in the given order. -/
theorem evalK_one (f : Fmt) (x : FloatVar p) (cs : List (FloatVar p)) :
    evalK f cs x 1 = horner f x cs (newConstant f 0) := by
  unfold evalK
  simp only [List.replicate, Circ.bind_eq, evalKLoop_one, Circ.bind_assoc, Circ.bind, sumParts, Circ.pure_eq]
  exact Circ.bind_pure _

/-- **C33** `Eval` and `EvalK` with `k = 1` read the coefficients in opposite order: they are the same circuit on reversed lists. -/
theorem C33_eval_reverse (f : Fmt) (x : FloatVar p) (cs : List (FloatVar p)) :
    polyEval f cs x = evalK f cs.reverse x 1 ∧ evalK f cs x 1 = polyEval f cs.reverse x := by
  rw [evalK_one, evalK_one]
  unfold polyEval
  rw [List.reverse_reverse]
  exact ⟨rfl, rfl⟩

/-- Horner's rule as an expression in the variable `0`: `((acc·x + c₀)·x + c₁)·x + …` for the coefficients `c₀, c₁, …` (bit patterns). -/
def hornerExpr : List ℕ → Expr → Expr
  | [], acc => acc
  | c :: cs, acc => hornerExpr cs (.add (.mul acc (.var 0)) (.const c))

theorem hornerExpr_wf {f : Fmt} {cs : List ℕ} (h : ∀ c ∈ cs, c < 2 ^ (1 + f.E + f.M)) {acc : Expr} (ha : acc.WF f) :
    (hornerExpr cs acc).WF f := by
  induction cs generalizing acc with
  | nil => exact ha
  | cons c cs ih =>
    exact ih (fun c hc => h c (List.mem_cons_of_mem _ hc)) ⟨⟨ha, trivial⟩, h c List.mem_cons_self⟩

theorem hornerExpr_circ (f : Fmt) (env : ℕ → FloatVar p) (cs : List ℕ) (acc : Expr) :
    (hornerExpr cs acc).circ f env = Circ.bind (acc.circ f env) (horner f (env 0) (cs.map (newConstant f))) := by
  induction cs generalizing acc with
  | nil => exact (Circ.bind_pure _).symm
  | cons c cs ih =>
    simp only [hornerExpr, ih, Expr.circ, horner, List.map, Circ.bind_eq, Circ.bind_assoc, Circ.pure_eq, Circ.bind]

/-- The circuit of `EvalK` with `k = 1` on constant coefficients is the circuit of Horner's expression. -/
theorem C33_evalK_expr (f : Fmt) (x : FloatVar p) (cs : List ℕ) :
    evalK f (cs.map (newConstant f)) x 1 = (hornerExpr cs (.const 0)).circ f (fun _ => x) := by
  rw [evalK_one, hornerExpr_circ]
  rfl

variable [Fact p.Prime] {b : ℕ} {f : Fmt}

/-- **C33** The honest prover's value of `EvalK` with `k = 1` (and of `Eval` on the reversed list) is that of Horner's expression, highest
coefficient first, in the arithmetic of the library. -/
theorem C33_evalK_value (G : Good p b f) (h64 : 1 + f.E + f.M ≤ 64) {cs : List ℕ} (hc : ∀ c ∈ cs, c < 2 ^ (1 + f.E + f.M))
    {x : FloatVar p} {dx : Datum} (ex : Encodes f x dx) :
    ∃ r d, (evalK f (cs.map (newConstant f)) x 1).run b = some r ∧ (polyEval f (cs.reverse.map (newConstant f)) x).run b = some r ∧
      Encodes f r d ∧ (hornerExpr cs (.const 0)).Eval f (CodeAdd f) (CodeSub f) (fun _ => dx) d := by
  obtain ⟨r, d, h1, h2, h3⟩ := C31_expr_complete (b := b) G h64
    (hornerExpr_wf hc (acc := .const 0) (show 0 < 2 ^ (1 + f.E + f.M) by positivity)) (env := fun _ => x) (denv := fun _ => dx) (fun _ => ex)
  rw [← C33_evalK_expr] at h1
  refine ⟨r, d, h1, ?_, h2, h3⟩
  rw [(C33_eval_reverse f x _).1, ← List.map_reverse, List.reverse_reverse]
  exact h1

/-- The coefficient orders differ: `[1, 2]` at `3` is `1 + 2·3 = 7` for `Eval`, `1·3 + 2 = 5` for `EvalK`. -/
theorem C33_order_matters :
    (polyEval f32 [w32 0x3F800000, w32 0x40000000] (w32 0x40400000)).run 8 = some (w32 0x40E00000) ∧
    (evalK f32 [w32 0x3F800000, w32 0x40000000] (w32 0x40400000) 1).run 8 = some (w32 0x40A00000) := by
  decide +kernel

/-- **C33** For `k = 2`, `EvalK` is not an evaluation of the polynomial: the constant `1` "evaluates" to `3` at `2`. -/
theorem C33_evalK_two_violated :
    (evalK f32 [w32 0x3F800000] (w32 0x40000000) 2).run 8 = some (w32 0x40400000) := by
  decide +kernel

theorem evalKLoop_nil (f : Fmt) (x : FloatVar p) (cs : List (FloatVar p)) : evalKLoop f x cs [] = .pure [] := by
  induction cs with
  | nil => rfl
  | cons c cs ih => simp only [evalKLoop, evalKStep, Circ.bind_eq, Circ.pure_eq, Circ.bind, ih]

/-- **C33** For `k = 0` there is no circuit. -/
theorem C33_evalK_zero (f : Fmt) (x : FloatVar p) (cs : List (FloatVar p)) (st : Bool) (r : FloatVar p) :
    ¬ (evalK f cs x 0).Sat b st r := by
  unfold evalK
  simp only [List.replicate, evalKLoop_nil, Circ.bind_eq, Circ.bind, Circ.Sat]
  simp

/-- The vector of /repo/math/math_test.go:55-56 is reproduced by the model. That of lines 130-131 is not: it expects the exactly evaluated and
then rounded polynomial `…95`, Horner's rule in float64 gives `…94` (so `TestPolynomialEvalDegTen` cannot succeed). -/
example : (polyEval f64 ([0x4014000000000000, 0x3ff0000000000000, 0x4000000000000000, 0x4008000000000000].map (newConstant f64))
      (newConstant f64 0xC0439E19C2746C32 : FloatVar bn254)).run 8 = some (newConstant f64 0xC105BF38139DAE59) := by decide +kernel
example : (evalK f64 ([0x3ff0000000000000, 0x4022000000000000, 0x4020000000000000, 0x401c000000000000, 0x4018000000000000,
      0x4014000000000000, 0x4010000000000000, 0x4008000000000000, 0x4000000000000000, 0x3ff0000000000000, 0x3ff0000000000000].map
      (newConstant f64)) (newConstant f64 0x4052804B7BF6345E : FloatVar bn254) 1).run 8 = some (newConstant f64 0x43D332C535AA3D94) := by
  decide +kernel

/-! ### The constants -/

/-- The bit pattern is the decimal `± n / 10^k` rounded to nearest-even, which is what the Go compiler makes of the literal. -/
def IsDecimal (f : Fmt) (q : Bool × ℕ × ℕ) (v : ℕ) : Prop :=
  Ieee.RoundsTo ⟨f.E, f.M⟩ q.1 (q.2.1 / 10 ^ q.2.2) (Ieee.decodeBits ⟨f.E, f.M⟩ v)

theorem forall₂_of_zip {α β : Type} {R : α → β → Prop} {l : List α} {m : List β} (hl : l.length = m.length)
    (h : ∀ q ∈ l.zip m, R q.1 q.2) : List.Forall₂ R l m := by
  induction l generalizing m with
  | nil => cases m with
    | nil => exact .nil
    | cons _ _ => cases hl
  | cons a l ih => cases m with
    | nil => cases hl
    | cons b m =>
      refine .cons (h (a, b) (by simp)) (ih (by simpa using hl) fun q hq => h q ?_)
      rw [List.zip_cons_cons]
      exact List.mem_cons_of_mem _ hq

theorem isDecimal_of_nearest {f : Fmt} (hE : 1 ≤ f.E) (hM : 1 ≤ f.M) {q : (Bool × ℕ × ℕ) × ℕ}
    (h : nearestBits f.E f.M q.1.1 q.1.2.1 q.1.2.1 (10 ^ q.1.2.2) q.2 = true) : IsDecimal f q.1 q.2 := by
  refine nearestBits_rounds hE hM h ?_ ?_ <;> push_cast <;> exact le_refl _

/-- **C34** The coefficients used for single precision are the decimals of /repo/math/math.go:168-178. -/
theorem C34_constants32 : List.Forall₂ (IsDecimal f32)
    [(false, 22023164, 9), (true, 13374522, 8), (false, 32946652, 8), (true, 37905943, 8), (false, 1053119, 7),
      (false, 16982068, 8), (false, 5476566, 9), (true, 33393043, 8), (false, 35324891, 12), (false, 99999905, 8),
      (false, 73035884, 16)] consts32.atanCoeffs := by
  refine forall₂_of_zip (by decide) fun q hq => isDecimal_of_nearest (by decide) (by decide) ?_
  have : ∀ q ∈ List.zip [(false, 22023164, 9), (true, 13374522, 8), (false, 32946652, 8), (true, 37905943, 8), (false, 1053119, 7),
      (false, 16982068, 8), (false, 5476566, 9), (true, 33393043, 8), (false, 35324891, 12), (false, 99999905, 8),
      (false, 73035884, 16)]
      consts32.atanCoeffs, nearestBits 8 23 q.1.1 q.1.2.1 q.1.2.1 (10 ^ q.1.2.2) q.2 = true := by decide +kernel
  exact this q hq

/-- **C34** The coefficients used for double precision are the decimals of /repo/math/math.go:100-124. -/
theorem C34_constants64 : List.Forall₂ (IsDecimal f64)
    [(true, 942885517390737, 18), (false, 12831303689781028, 18), (true, 8114401696242823, 17), (false, 31521931513648976, 17),
      (true, 8366759947462465, 16), (false, 15941310579396186, 16), (true, 2225620203806413, 15), (false, 2283041197386529, 15),
      (true, 1716279012920493, 15), (false, 9814600474792705, 16), (true, 5135300638813421, 16), (false, 28006786416868995, 17),
      (true, 649531804791716, 16), (true, 7417760886128402, 17), (true, 34470515096669467, 19), (false, 11167263969100766, 17),
      (true, 711657573061619, 19), (true, 14285027929722588, 17), (true, 4888898128412832, 22), (false, 2000000246846688, 16),
      (true, 833552299173139, 24), (true, 3333333333160862, 16), (true, 18894178462249048, 29), (false, 10000000000000009, 16),
      (true, 41904552294565837, 35)] consts64.atanCoeffs := by
  refine forall₂_of_zip (by decide) fun q hq => isDecimal_of_nearest (by decide) (by decide) ?_
  have : ∀ q ∈ List.zip [(true, 942885517390737, 18), (false, 12831303689781028, 18), (true, 8114401696242823, 17), (false, 31521931513648976, 17),
      (true, 8366759947462465, 16), (false, 15941310579396186, 16), (true, 2225620203806413, 15), (false, 2283041197386529, 15),
      (true, 1716279012920493, 15), (false, 9814600474792705, 16), (true, 5135300638813421, 16), (false, 28006786416868995, 17),
      (true, 649531804791716, 16), (true, 7417760886128402, 17), (true, 34470515096669467, 19), (false, 11167263969100766, 17),
      (true, 711657573061619, 19), (true, 14285027929722588, 17), (true, 4888898128412832, 22), (false, 2000000246846688, 16),
      (true, 833552299173139, 24), (true, 3333333333160862, 16), (true, 18894178462249048, 29), (false, 10000000000000009, 16),
      (true, 41904552294565837, 35)]
      consts64.atanCoeffs, nearestBits 11 52 q.1.1 q.1.2.1 q.1.2.1 (10 ^ q.1.2.2) q.2 = true := by decide +kernel
  exact this q hq

/-- **C34** The constants for `π` and `π/2` are the nearest numbers to the real `π` and `π/2`. -/
theorem C34_constants_pi :
    Ieee.RoundsTo ⟨8, 23⟩ false Real.pi (Ieee.decodeBits ⟨8, 23⟩ consts32.pi) ∧
    Ieee.RoundsTo ⟨8, 23⟩ false (Real.pi / 2) (Ieee.decodeBits ⟨8, 23⟩ consts32.halfPi) ∧
    Ieee.RoundsTo ⟨11, 52⟩ false Real.pi (Ieee.decodeBits ⟨11, 52⟩ consts64.pi) ∧
    Ieee.RoundsTo ⟨11, 52⟩ false (Real.pi / 2) (Ieee.decodeBits ⟨11, 52⟩ consts64.halfPi) := by
  have h1 := Real.pi_gt_d20
  have h2 := Real.pi_lt_d20
  refine ⟨nearestBits_rounds (lo := 314159265358979323846) (hi := 314159265358979323847) (den := 10 ^ 20) (by norm_num) (by norm_num) (by decide +kernel) ?_ ?_,
    nearestBits_rounds (lo := 314159265358979323846) (hi := 314159265358979323847) (den := 2 * 10 ^ 20) (by norm_num) (by norm_num) (by decide +kernel) ?_ ?_,
    nearestBits_rounds (lo := 314159265358979323846) (hi := 314159265358979323847) (den := 10 ^ 20) (by norm_num) (by norm_num) (by decide +kernel) ?_ ?_,
    nearestBits_rounds (lo := 314159265358979323846) (hi := 314159265358979323847) (den := 2 * 10 ^ 20) (by norm_num) (by norm_num) (by decide +kernel) ?_ ?_⟩ <;>
  · push_cast
    norm_num at h1 h2 ⊢
    linarith

/-- **C34** The divisors of the fifteen steps of `SinTaylor` are `2i(2i+1)`, exactly. -/
theorem C34_denominators : sinDenoms32.length = 15 ∧ sinDenoms64.length = 15 ∧ ∀ i < 15,
    Ieee.decodeBits ⟨8, 23⟩ (sinDenoms32.getD i 0) = .fin false (2 * (i + 1) * (2 * (i + 1) + 1)) ∧
    Ieee.decodeBits ⟨11, 52⟩ (sinDenoms64.getD i 0) = .fin false (2 * (i + 1) * (2 * (i + 1) + 1)) := by
  refine ⟨rfl, rfl, fun i hi => ?_⟩
  have h1 : ∀ i < 15, exactBits 8 23 false (2 * (i + 1) * (2 * (i + 1) + 1)) 1 (sinDenoms32.getD i 0) = true := by decide +kernel
  have h2 : ∀ i < 15, exactBits 11 52 false (2 * (i + 1) * (2 * (i + 1) + 1)) 1 (sinDenoms64.getD i 0) = true := by decide +kernel
  rw [exactBits_decode (h1 i hi), exactBits_decode (h2 i hi)]
  push_cast
  rw [div_one]
  exact ⟨rfl, rfl⟩

/-! ### C34: sign and oddness of the trigonometric approximations -/

theorem sat_atanRemez {k : TrigConsts} {x r : FloatVar p} {st : Bool} :
    (atanRemez f k x).Sat b st r ↔ ∃ e m, (atanMag f k { x with sign := 0 }).Sat b st (e, m) ∧ r = ⟨x.sign, e, m, 0⟩ := by
  unfold atanRemez
  simp only [Circ.bind_eq, Circ.sat_bind, Circ.pure_eq, Circ.Sat, Prod.exists]

theorem run_atanRemez {k : TrigConsts} {x : FloatVar p} :
    (atanRemez f k x).run b = ((atanMag f k { x with sign := 0 }).run b).map (fun r => ⟨x.sign, r.1, r.2, 0⟩) := by
  unfold atanRemez
  simp only [Circ.bind_eq, Circ.run_bind, Circ.pure_eq, Circ.run]
  cases (atanMag f k { x with sign := 0 }).run b <;> rfl

/-- **C34** Whatever the prover does and whatever the argument's wires are, the result of `AtanRemez` carries the sign of the argument and is
marked normal, and its magnitude is one the prover could have given for any argument of the same magnitude: the set of outcomes is exactly odd. -/
theorem C34_atan_odd (k : TrigConsts) (x r : FloatVar p) (st : Bool) :
    ((atanRemez f k x).Sat b st r → r.sign = x.sign ∧ r.isAbnormal = 0) ∧
    ((atanRemez f k (fNeg x)).Sat b st (fNeg r) ↔ (atanRemez f k x).Sat b st r) := by
  constructor
  · intro h
    obtain ⟨e, m, -, rfl⟩ := sat_atanRemez.1 h
    exact ⟨rfl, rfl⟩
  · rw [sat_atanRemez, sat_atanRemez]
    constructor
    · rintro ⟨e, m, h, hr⟩
      refine ⟨e, m, h, ?_⟩
      unfold fNeg at hr
      rw [FloatVar.mk.injEq] at hr
      obtain ⟨h1, h2, h3, h4⟩ := hr
      ext1
      · simpa using h1
      · exact h2
      · exact h3
      · exact h4
    · rintro ⟨e, m, h, rfl⟩
      exact ⟨e, m, h, rfl⟩

/-- **C34** The honest prover's `AtanRemez` is exactly odd. -/
theorem C34_atan_odd_run (k : TrigConsts) (x : FloatVar p) :
    (atanRemez f k (fNeg x)).run b = ((atanRemez f k x).run b).map fNeg := by
  rw [run_atanRemez, run_atanRemez, Option.map_map]
  rfl

theorem sat_sinTaylor {k : TrigConsts} {ds : List ℕ} {x r : FloatVar p} {st : Bool} :
    (sinTaylor f k ds x).Sat b st r ↔ ∃ g fo e m ret, (fIsGt f x (newConstant f k.halfPi)).Sat b st g ∧
      (fSub f (newConstant f k.pi) x).Sat b st fo ∧ (select g fo.exponent x.exponent).Sat b st e ∧
      (select g fo.mantissa x.mantissa).Sat b st m ∧ (sinMag f ds e m).Sat b st ret ∧ r = { ret with sign := x.sign } := by
  unfold sinTaylor
  simp only [Circ.bind_eq, Circ.sat_bind, Circ.pure_eq, Circ.Sat, exists_and_left]

theorem sat_select_zero {u v e : ZMod p} {st : Bool} : (select (0 : ZMod p) u v).Sat b st e ↔ e = v := by
  simp [select, softBool, Circ.bind_eq, Circ.bind, Circ.Sat, sel, isBool]

/-- **C34** Whatever the prover does, the result of `SinTaylor` carries the sign of the argument. -/
theorem C34_sin_sign (k : TrigConsts) (ds : List ℕ) (x r : FloatVar p) (st : Bool) (h : (sinTaylor f k ds x).Sat b st r) :
    r.sign = x.sign := by
  obtain ⟨_, _, _, _, _, _, _, _, _, _, rfl⟩ := sat_sinTaylor.1 h
  rfl

/-- For an argument that does not exceed `π/2`, `SinTaylor` works on the magnitude of the argument. -/
theorem sat_sinTaylor_low (G : Good p b f) (h64 : 1 + f.E + f.M ≤ 64) {k : TrigConsts} (hk : k.pi < 2 ^ (1 + f.E + f.M) ∧ k.halfPi < 2 ^ (1 + f.E + f.M))
    {ds : List ℕ} {x : FloatVar p} {d : Datum} (ex : Encodes f x d) (hl : ¬ Ieee.Lt (Ieee.decodeBits ⟨f.E, f.M⟩ k.halfPi) d)
    (st : Bool) (r : FloatVar p) :
    (sinTaylor f k ds x).Sat b st r ↔ ∃ ret, (sinMag f ds x.exponent x.mantissa).Sat b st ret ∧ r = { ret with sign := x.sign } := by
  have hE2 : 2 ≤ f.E := le_trans (by norm_num) G.hE
  have hE : 1 ≤ f.E := le_trans (by norm_num) G.hE
  have hc : ∀ v, v < 2 ^ (1 + f.E + f.M) → Encodes f (newConstant f v : FloatVar p) (Ieee.decodeBits ⟨f.E, f.M⟩ v) := fun v hv =>
    encodes_iff.2 ⟨_, fltOf_valid hE2 hv, fltOf_datum hE hv, newConstant_toVar hE h64 hv⟩
  have hg := (C24_isGt G ex (hc _ hk.2)).2 st
  obtain ⟨fo, hfo⟩ : ∃ fo, (fSub f (newConstant f k.pi) x).Sat b st fo := by
    obtain ⟨x', hx', rfl, rfl⟩ := encodes_iff.1 ex
    rw [newConstant_toVar hE h64 hk.1]
    exact ⟨_, Circ.sat_of_run _ _ (run_sub G (fltOf_valid hE2 hk.1) hx')⟩
  rw [sat_sinTaylor]
  constructor
  · rintro ⟨g, fo', e, m, ret, h1, -, h3, h4, h5, h6⟩
    rw [hg, wireOf_zero.2 hl] at h1
    subst h1
    rw [sat_select_zero] at h3 h4
    subst h3 h4
    exact ⟨ret, h5, h6⟩
  · rintro ⟨ret, h5, h6⟩
    refine ⟨0, fo, _, _, ret, ?_, hfo, ?_, ?_, h5, h6⟩
    · rw [hg, wireOf_zero.2 hl]
    · rw [sat_select_zero]
    · rw [sat_select_zero]

/-- **C34** For arguments of magnitude at most `π/2`, the outcomes of `SinTaylor` are exactly odd, for every prover. -/
theorem C34_sin_odd (G : Good p b f) (h64 : 1 + f.E + f.M ≤ 64) {k : TrigConsts} (hk : k.pi < 2 ^ (1 + f.E + f.M) ∧ k.halfPi < 2 ^ (1 + f.E + f.M))
    {ds : List ℕ} {x : FloatVar p} {d : Datum} (ex : Encodes f x d) (hl : ¬ Ieee.Lt (Ieee.decodeBits ⟨f.E, f.M⟩ k.halfPi) d)
    (hl' : ¬ Ieee.Lt (Ieee.decodeBits ⟨f.E, f.M⟩ k.halfPi) d.neg) (st : Bool) (r : FloatVar p) :
    (sinTaylor f k ds (fNeg x)).Sat b st (fNeg r) ↔ (sinTaylor f k ds x).Sat b st r := by
  rw [sat_sinTaylor_low G h64 hk ex hl, sat_sinTaylor_low G h64 hk (encodes_neg ex) hl']
  constructor
  · rintro ⟨ret, h, hr⟩
    refine ⟨ret, h, ?_⟩
    unfold fNeg at hr
    rw [FloatVar.mk.injEq] at hr
    obtain ⟨h1, h2, h3, h4⟩ := hr
    ext1
    · simpa using h1
    · exact h2
    · exact h3
    · exact h4
  · rintro ⟨ret, h, rfl⟩
    exact ⟨ret, h, rfl⟩

/-- Hypotheses of `C34_sin_odd` are met: the argument `1`, in single precision on BN254. -/
example (st : Bool) (r : FloatVar bn254) :
    (sinTaylor32 (fNeg (w32 0x3F800000))).Sat 8 st (fNeg r) ↔ (sinTaylor32 (w32 0x3F800000)).Sat 8 st r := by
  have h1 : Ieee.decodeBits ⟨8, 23⟩ 0x3F800000 = .fin false 1 := by
    norm_num [Ieee.decodeBits, Ieee.Format.bias]; decide
  have h2 : Ieee.decodeBits ⟨8, 23⟩ 0x3fc90fdb = .fin false (13176795 / 8388608) := by
    norm_num [Ieee.decodeBits, Ieee.Format.bias]; decide
  refine C34_sin_odd (f := f32) (good_bn254_f32 width8) (by decide) (by decide) (w32_encodes (by norm_num)) ?_ ?_ st r
  · rintro ⟨a, c, ha, hc, h⟩
    change (Ieee.decodeBits ⟨8, 23⟩ 0x3fc90fdb).value = _ at ha
    rw [h2] at ha
    rw [h1] at hc
    simp only [Ieee.Datum.value, Ieee.signed, Option.some.injEq, if_false, Bool.false_eq_true] at ha hc
    subst ha hc
    rw [EReal.coe_lt_coe_iff] at h
    norm_num at h
  · rintro ⟨a, c, ha, hc, h⟩
    change (Ieee.decodeBits ⟨8, 23⟩ 0x3fc90fdb).value = _ at ha
    rw [h2] at ha
    rw [h1] at hc
    simp only [Ieee.Datum.value, Ieee.Datum.neg, Ieee.signed, Option.some.injEq, if_false, Bool.false_eq_true, Bool.not_false, if_true] at ha hc
    subst ha hc
    rw [EReal.coe_lt_coe_iff] at h
    norm_num at h

/-- **C34** Above `π/2` oddness is lost: the results at `2.5` and `-2.5` differ by three units in the last place. -/
theorem C34_sin_odd_violated :
    (sinTaylor32 (w32 0x40200000)).run 8 = some (w32 0x3f19357a) ∧ (sinTaylor32 (w32 0xC0200000)).run 8 = some (w32 0xbf193577) := by
  decide +kernel

/-- Nothing bounds the argument (the TODO in /repo/math/math.go:260): at `4 > π` the result is `+0.7568…`, the sine is negative. -/
theorem C34_sin_above_pi_violated : (sinTaylor32 (w32 0x40800000)).run 8 = some (w32 0x3f41bdcf) := by
  decide +kernel

/-- The arctangent of `0` is computed as `7.3e-9`, not as `0`. -/
theorem C34_atan_zero_violated : (atanRemez32 (w32 0)).run 8 = some (w32 0x31faf30b) := by
  decide +kernel

/-- Infinities and NaN give a record that encodes nothing: the exponent of the special values with the flag cleared. -/
theorem C34_atan_special_violated :
    (atanRemez32 (w32 0x7f800000)).run 8 = some ⟨0, 128, 0, 0⟩ ∧ (atanRemez32 (w32 0x7fc00000)).run 8 = some ⟨0, 128, 0, 0⟩ := by
  decide +kernel

/-- `Atan2` on the ordinate axis (the TODO in /repo/math/math.go:84-87): `atan2(1, 0)` is such a record, not `π/2`. -/
theorem C34_atan2_axis_violated :
    (atan2 f64 consts64 (newConstant f64 0x3ff0000000000000) (newConstant f64 0 : FloatVar bn254)).run 8 = some ⟨0, 1024, 0, 0⟩ := by
  decide +kernel

/-- `Atan2` in the second quadrant is right: `atan2(1, -1) = 3π/4`, correctly rounded. -/
example : (atan2 f64 consts64 (newConstant f64 0x3ff0000000000000) (newConstant f64 0xbff0000000000000 : FloatVar bn254)).run 8 =
    some (newConstant f64 0x4002d97c7f3321d2) := by
  decide +kernel

/-- Vectors of /repo/data/f32/atan_ulp, /repo/data/f64/atan (and /repo/data/f64/sin, which is met up to the last unit). -/
example : (atanRemez32 (w32 0x42AD7C41)).run 8 = some (w32 0x3FC7961C) := by decide +kernel
example : (atanRemez64 (newConstant f64 0x3FDB98673E909250 : FloatVar bn254)).run 8 = some (newConstant f64 0x3FDA0DC7201202C6) := by
  decide +kernel
example : (sinTaylor64 (newConstant f64 0x400378279F6AEAE6 : FloatVar bn254)).run 8 = some (newConstant f64 0x3FE4CEE8D05A5BBD) := by
  decide +kernel

end ZkLoc
