import Verif.R1csWidth
import Verif.TrigCircuits

/-!
# The circuits of /repo/math/math_test.go as programs against `frontend.API`

The same code as in Math.lean and TrigCircuits.lean, call by call, for any meaning of the calls; their compiled meaning, and the range checks they record.
-/

namespace ZkLoc.R1cs

set_option maxRecDepth 8000

open Ops

/-- One more call that `Api` lacks: the constraint `(1 - t - a) * a = 0` of gnark's `MustBeLessOrEqCst` and `mustBeLessOrEqVar`. -/
class ApiFree (V : outParam Type) (m : Type → Type) where
  freeBit : V → V → m Unit

instance circFree (p : ℕ) : ApiFree (ZMod p) (Circ p) := ⟨fun t a => .assert (decide ((1 - t - a) * a = 0)) (.pure ())⟩
instance bldFree (p : ℕ) : ApiFree (Lin p) (Bld p) := ⟨fun t a => constrain (((Lin.lit 1).sub t).sub a) a (.lit 0)⟩

section
variable {p : ℕ} {V : Type} {m : Type → Type} [Ops p V] [Api p V m]

/-- The loop of `Polynomial.Eval`, /repo/math/math.go:19-23, and of `Polynomial.EvalK` for `k = 1`, lines 39-48: `result = Add(Mul(result, at), c)` over the coefficients in the order of the loop, given as
bit patterns of constants. -/
def horner (f : Fmt) (x : FV V) : List ℕ → FV V → m (FV V)
  | [], result => pure result
  | c :: cs, result => do
    let q ← fMul f result x
    let r ← fAdd f q (newConstant f c)
    horner f x cs r

/-- `Polynomial.Eval`, /repo/math/math.go:13-26: from the last coefficient to the first. -/
def polyEval (f : Fmt) (cs : List ℕ) (x : FV V) : m (FV V) := horner f x cs.reverse (newConstant f 0)

/-- `Polynomial.EvalK` with `k = 1`, its value in all calls, /repo/math/math.go:31-57: the coefficients in order, one part, and so no final sum. -/
def evalK1 (f : Fmt) (cs : List ℕ) (x : FV V) : m (FV V) := horner f x cs (newConstant f 0)

/-- `AtanRemez32`, /repo/math/math.go:161-211, and `AtanRemez64`, /repo/math/math.go:92-157, after the sign of the argument has been cleared. -/
def atanMag (f : Fmt) (k : TrigConsts) (x : FV V) : m (V × V) := do
  let greaterOne ← fIsGt f x (newConstant f k.one)
  let reciprocal ← fDiv f (newConstant f k.one) x
  let e ← Api.select greaterOne reciprocal.exponent x.exponent
  let mm ← Api.select greaterOne reciprocal.mantissa x.mantissa
  let result ← evalK1 f k.atanCoeffs ⟨x.sign, e, mm, x.isAbnormal⟩
  let sub ← fSub f (newConstant f k.halfPi) result
  let resultE ← Api.select greaterOne sub.exponent result.exponent
  let resultM ← Api.select greaterOne sub.mantissa result.mantissa
  pure (resultE, resultM)

/-- `AtanRemez32`, `AtanRemez64`. -/
def atanRemez (f : Fmt) (k : TrigConsts) (x : FV V) : m (FV V) := do
  let r ← atanMag f k ⟨lit 0, x.exponent, x.mantissa, x.isAbnormal⟩
  pure ⟨x.sign, r.1, r.2, lit 0⟩

/-- The common shape of `PolynomialEvalCircuit`, `PolynomialEvalCircuitDegTen`, `CircuitATanRemez64` and `SinCircuit`, /repo/math/math_test.go:24-49, 92-129, 176-189, 255-267. -/
def funcCircuit (f : Fmt) (op : FV V → m (FV V)) (X Z : V) : m Unit := do
  let x ← newFloat f X
  let z ← newFloat f Z
  let result ← op x
  Api.assertEq result.exponent z.exponent
  Api.assertEq result.mantissa z.mantissa

/-- One step of the comparison of the bits of a number with the constant `modulus - 1` (`MustBeLessOrEqCst`, called by `ToBinary` for as many bits as the field has): `q` is 1 as long as the bits above agree with
those of the constant. (The boolean constraint of the bits under ones of the constant is not repeated: gnark has it from `ToBinary`.) -/
def canonStep [ApiFree V m] (i : ℕ) (q c : V) : m V :=
  if (p - 1).testBit i then Api.mul q c else do
    ApiFree.freeBit q c
    pure q

/-- One step of the comparison with a variable bound: `t` is 1 as long as the bits above agree and 0 after, and `a` is free to be 1 only if the bit of the bound is 1 or a bit above was less. -/
def leStep [ApiFree V m] (t a c : V) : m V := do
  let v ← Api.mul t a
  let t' ← Api.select c v t
  let u ← Api.select c (lit 0) t
  ApiFree.freeBit u a
  pure t'

/-- The lower `i` bits of `api.AssertIsLessOrEqual(v, bound)` for a variable bound, gnark 0.9.1 (`mustBeLessOrEqVar`): `ToBinary` of `v` with unconstrained outputs, `ToBinary` of `bound` with the check
against the modulus, then bit by bit from the most significant. (gnark makes all bits before it constrains them, and makes once more bits of `v` which it does not use.) -/
def leVarBits [ApiFree V m] (v bound : V) : ℕ → V → V → V → V → m Unit
  | 0, _, _, accV, accB => do
    Api.assertEq accV v
    Api.assertEq accB bound
  | i + 1, t, q, accV, accB => do
    let a ← Api.hint [v] fun l => some (((l.getD 0 0).val / 2 ^ i % 2 : ℕ) : ZMod p)
    let c ← bitWire bound i
    let q' ← canonStep i q c
    let t' ← leStep t a c
    leVarBits v bound i t' q' (add accV (scale a (2 ^ i))) (add accB (scale c (2 ^ i)))

/-- `api.AssertIsLessOrEqual(v, bound)` for a variable bound and a field of `nbBits` bits. -/
def lessOrEqualVar [ApiFree V m] (nbBits : ℕ) (v bound : V) : m Unit := leVarBits v bound nbBits (lit 1) (lit 1) (lit 0) (lit 0)

/-- The common shape of `CircuitATanRemez32ULP`, `CircuitATanRemez64ULP` and `CircuitSin64ULP`, /repo/math/math_test.go:199-215, 225-241, 277-294. -/
def ulpCircuit [ApiFree V m] (nbBits : ℕ) (f : Fmt) (op : FV V → m (FV V)) (X Z L U : V) : m Unit := do
  let x ← newFloat f X
  let z ← newFloat f Z
  let z_lower ← newFloat f L
  let z_upper ← newFloat f U
  let result ← op x
  Api.assertEq result.exponent z.exponent
  lessOrEqualVar nbBits z_lower.mantissa result.mantissa
  lessOrEqualVar nbBits result.mantissa z_upper.mantissa

end

variable {p : ℕ} {b : ℕ} {f : Fmt} {Γ : Env p}

section
variable [Fact p.Prime]

/-! ### Refinement -/

theorem mono_horner {x : FV (Lin p)} : ∀ (cs : List ℕ) (r : FV (Lin p)), Mono b (horner f x cs r : Bld p _)
  | [], _ => mono_pure
  | c :: cs, _ => by
    unfold horner
    exact mono_bind mono_fMul fun _ => mono_bind mono_fAdd fun _ => mono_horner cs _
theorem ref_horner {x : FV (Lin p)} {x' : FV (ZMod p)} : ∀ (cs : List ℕ) (Γ : Env p) (r : FV (Lin p)) (r' : FV (ZMod p)), DerO Γ x x' → DerO Γ r r' →
    Ref b Γ (horner f x cs r : Bld p _) (horner f x' cs r' : Circ p _)
  | [], _, _, _, _, hr => ref_pure hr
  | c :: cs, Γ, r, r', hx, hr => by
    unfold horner
    refine ref_bind (ref_fMul hr hx) (fun _ => mono_bind mono_fAdd fun _ => mono_horner cs _) fun q q' _ => ?_
    exact ref_bind (ref_fAdd derO_head derO_newConstant) (fun _ => mono_horner cs _) fun s s' _ => ref_horner cs _ _ _ hx.tail.tail derO_head
theorem horner_sign {u : FV (ZMod p)} : ∀ (cs : List ℕ) (r y : FV (ZMod p)), isBool r.sign = true → (horner f u cs r : Circ p _).Sat b true y → isBool y.sign = true
  | [], r, y, hr, h => by rw [show y = r from h]; exact hr
  | c :: cs, r, y, hr, h => by
    unfold horner at h
    obtain ⟨q, -, h⟩ := (Circ.sat_bind _ _ _).1 h
    obtain ⟨s, h1, h⟩ := (Circ.sat_bind _ _ _).1 h
    exact horner_sign cs s y (fAdd_sign h1) h

theorem mono_polyEval {cs : List ℕ} {x : FV (Lin p)} : Mono b (polyEval f cs x : Bld p _) := mono_horner _ _
theorem ref_polyEval {cs : List ℕ} {x : FV (Lin p)} {x' : FV (ZMod p)} (hx : DerO Γ x x') : Ref b Γ (polyEval f cs x : Bld p _) (polyEval f cs x' : Circ p _) :=
  ref_horner _ _ _ _ hx derO_newConstant
theorem mono_evalK1 {cs : List ℕ} {x : FV (Lin p)} : Mono b (evalK1 f cs x : Bld p _) := mono_horner _ _
theorem ref_evalK1 {cs : List ℕ} {x : FV (Lin p)} {x' : FV (ZMod p)} (hx : DerO Γ x x') : Ref b Γ (evalK1 f cs x : Bld p _) (evalK1 f cs x' : Circ p _) :=
  ref_horner _ _ _ _ hx derO_newConstant
theorem evalK1_sign {cs : List ℕ} {u y : FV (ZMod p)} (h : (evalK1 f cs u : Circ p _).Sat b true y) : isBool y.sign = true :=
  horner_sign cs _ y (newConstant_sign (by positivity)) h
macro_rules | `(tactic| boolean) => `(tactic| with_reducible exact evalK1_sign (by assumption))

theorem mono_atanMag {k : TrigConsts} {x : FV (Lin p)} : Mono b (atanMag f k x : Bld p _) := by
  unfold atanMag
  mono
theorem ref_atanMag {k : TrigConsts} {x : FV (Lin p)} {x' : FV (ZMod p)} (hx : DerO Γ x x') : Ref b Γ (atanMag f k x : Bld p _) (atanMag f k x' : Circ p _) := by
  unfold atanMag
  ref
theorem mono_atanRemez {k : TrigConsts} {x : FV (Lin p)} : Mono b (atanRemez f k x : Bld p _) := by
  unfold atanRemez
  mono
theorem ref_atanRemez {k : TrigConsts} {x : FV (Lin p)} {x' : FV (ZMod p)} (hx : DerO Γ x x') : Ref b Γ (atanRemez f k x : Bld p _) (atanRemez f k x' : Circ p _) := by
  unfold atanRemez
  ref

theorem ref_funcCircuit {op : FV (Lin p) → Bld p (FV (Lin p))} {op' : FV (ZMod p) → Circ p (FV (ZMod p))} (h : Unary b op op') (X Z : ZMod p) :
    Ref b (inputs [X, Z]) (funcCircuit f op (.wire 0) (.wire 1)) (funcCircuit f op' X Z) := by
  unfold funcCircuit
  refine ref_bind (ref_newFloat (der_in (i := 0) (xs := [X, Z]) (by simp))) (fun _ => mono_bind mono_newFloat fun _ => mono_bind (h.mono _) fun _ => mono_bind mono_assertEq fun _ => mono_assertEq) fun x x' hx => ?_
  refine ref_bind (ref_newFloat (der_in (i := 1) (xs := [X, Z]) (by simp)).tail) (fun _ => mono_bind (h.mono _) fun _ => mono_bind mono_assertEq fun _ => mono_assertEq) fun y y' hy => ?_
  refine ref_bind (h.ref _ _ _ derO_head.tail (newFloat_sign hx)) (fun _ => mono_bind mono_assertEq fun _ => mono_assertEq) fun r r' hr => ?_
  refine ref_bind (ref_assertEq derO_head.exponent derO_head.tail.exponent) (fun _ => mono_assertEq) fun _ _ _ => ?_
  exact ref_assertEq derO_head.tail.mantissa derO_head.tail.tail.mantissa

theorem unary_polyEval {cs : List ℕ} : Unary (p := p) b (polyEval f cs) (polyEval f cs) := ⟨fun _ => mono_polyEval, fun _ _ _ hx _ => ref_polyEval hx⟩
theorem unary_evalK1 {cs : List ℕ} : Unary (p := p) b (evalK1 f cs) (evalK1 f cs) := ⟨fun _ => mono_evalK1, fun _ _ _ hx _ => ref_evalK1 hx⟩
theorem unary_atanRemez {k : TrigConsts} : Unary (p := p) b (atanRemez f k) (atanRemez f k) := ⟨fun _ => mono_atanRemez, fun _ _ _ hx _ => ref_atanRemez hx⟩
theorem unary_sinTaylor {k : TrigConsts} {ds : List ℕ} : Unary (p := p) b (sinTaylor f k ds) (sinTaylor f k ds) := ⟨fun _ => mono_sinTaylor, fun _ _ _ hx hs => ref_sinTaylor hx hs⟩

/-! ### The comparison with a variable bound -/

theorem mono_freeBit {t a : Lin p} : Mono b (ApiFree.freeBit t a : Bld p Unit) := mono_constrain
theorem ref_freeBit {t a : Lin p} {t' a' : ZMod p} (ht : Der Γ t t') (ha : Der Γ a a') : Ref b Γ (ApiFree.freeBit t a : Bld p Unit) (ApiFree.freeBit t' a' : Circ p Unit) :=
  ref_constrain (der_sub (der_sub (der_lit 1) ht) ha) ha (der_lit 0)

theorem mono_canonStep {i : ℕ} {q c : Lin p} : Mono b (canonStep i q c : Bld p _) := by
  unfold canonStep
  split
  · exact mono_mul
  · exact mono_bind mono_freeBit fun _ => mono_pure
theorem ref_canonStep {i : ℕ} {q c : Lin p} {q' c' : ZMod p} (hq : Der Γ q q') (hc : Der Γ c c') : Ref b Γ (canonStep i q c : Bld p _) (canonStep i q' c' : Circ p _) := by
  unfold canonStep
  split
  · exact ref_mul hq hc
  · exact ref_bind (ref_freeBit hq hc) (fun _ => mono_pure) fun _ _ _ => ref_pure (derO_lin hq.tail)

theorem mono_leStep {t a c : Lin p} : Mono b (leStep t a c : Bld p _) := by
  unfold leStep
  exact mono_bind mono_mul fun _ => mono_bind mono_select fun _ => mono_bind mono_select fun _ => mono_bind mono_freeBit fun _ => mono_pure
theorem ref_leStep {t a c : Lin p} {t' a' c' : ZMod p} (ht : Der Γ t t') (ha : Der Γ a a') (hc : Der Γ c c') : Ref b Γ (leStep t a c : Bld p _) (leStep t' a' c' : Circ p _) := by
  unfold leStep
  refine ref_bind (ref_mul ht ha) (fun _ => mono_bind mono_select fun _ => mono_bind mono_select fun _ => mono_bind mono_freeBit fun _ => mono_pure) fun v v' _ => ?_
  refine ref_bind (ref_select hc.tail der_head ht.tail) (fun _ => mono_bind mono_select fun _ => mono_bind mono_freeBit fun _ => mono_pure) fun s s' _ => ?_
  refine ref_bind (ref_select hc.tail.tail (der_lit 0) ht.tail.tail) (fun _ => mono_bind mono_freeBit fun _ => mono_pure) fun u u' _ => ?_
  exact ref_bind (ref_freeBit der_head ha.tail.tail.tail) (fun _ => mono_pure) fun _ _ _ => ref_pure (derO_lin der_head.tail.tail)

theorem mono_leVarBits {v w : Lin p} : ∀ (n : ℕ) (t q accV accB : Lin p), Mono b (leVarBits v w n t q accV accB : Bld p _)
  | 0, _, _, _, _ => mono_bind mono_assertEq fun _ => mono_assertEq
  | n + 1, _, _, _, _ => by
    unfold leVarBits
    exact mono_bind mono_hint fun _ => mono_bind mono_bitWire fun _ => mono_bind mono_canonStep fun _ => mono_bind mono_leStep fun _ => mono_leVarBits n _ _ _ _
theorem ref_leVarBits {v w : Lin p} {v' w' : ZMod p} : ∀ (n : ℕ) (Γ : Env p) (t q accV accB : Lin p) (t' q' accV' accB' : ZMod p), Der Γ v v' → Der Γ w w' → Der Γ t t' → Der Γ q q' →
    Der Γ accV accV' → Der Γ accB accB' → Ref b Γ (leVarBits v w n t q accV accB : Bld p _) (leVarBits v' w' n t' q' accV' accB' : Circ p _)
  | 0, Γ, _, _, _, _, _, _, _, _, hv, hw, _, _, h1, h2 => ref_bind (ref_assertEq h1 hv) (fun _ => mono_assertEq) fun _ _ _ => ref_assertEq h2.tail hw.tail
  | n + 1, Γ, t, q, accV, accB, t', q', accV', accB', hv, hw, ht, hq, h1, h2 => by
    unfold leVarBits
    refine ref_bind (ref_hint _ _ _) (fun _ => mono_bind mono_bitWire fun _ => mono_bind mono_canonStep fun _ => mono_bind mono_leStep fun _ => mono_leVarBits n _ _ _ _) fun a a' _ => ?_
    refine ref_bind (ref_bitWire hw.tail) (fun _ => mono_bind mono_canonStep fun _ => mono_bind mono_leStep fun _ => mono_leVarBits n _ _ _ _) fun c c' _ => ?_
    refine ref_bind (ref_canonStep hq.tail.tail der_head) (fun _ => mono_bind mono_leStep fun _ => mono_leVarBits n _ _ _ _) fun s s' _ => ?_
    refine ref_bind (ref_leStep ht.tail.tail.tail der_head.tail.tail der_head.tail) (fun _ => mono_leVarBits n _ _ _ _) fun r r' _ => ?_
    exact ref_leVarBits n _ _ _ _ _ _ _ _ _ hv.tail.tail.tail.tail hw.tail.tail.tail.tail der_head der_head.tail (der_add h1.tail.tail.tail.tail (der_scale der_head.tail.tail.tail _))
      (der_add h2.tail.tail.tail.tail (der_scale der_head.tail.tail _))

/-- A truth value in the field. -/
def bit (t : Bool) : ZMod p := if t then 1 else 0

theorem isBool_iff_bit {c : ZMod p} : isBool c = true ↔ ∃ t, c = bit t := by
  unfold isBool bit
  constructor
  · intro h
    simp only [Bool.or_eq_true, decide_eq_true_eq] at h
    rcases h with rfl | rfl
    exacts [⟨false, rfl⟩, ⟨true, rfl⟩]
  · rintro ⟨t, rfl⟩
    cases t <;> simp

theorem freeBit_sat {t a : ZMod p} : (ApiFree.freeBit t a : Circ p Unit).Sat b true () ↔ (1 - t - a) * a = 0 := by
  show (decide _ = true ∧ _) ↔ _
  rw [decide_eq_true_iff]
  exact and_iff_left rfl

theorem free_one {a : ZMod p} : (1 - 1 - a) * a = 0 ↔ a = bit false := by
  rw [sub_self, zero_sub, neg_mul, neg_eq_zero, mul_self_eq_zero]; rfl
theorem free_zero {a : ZMod p} : (1 - 0 - a) * a = 0 ↔ ∃ t, a = bit t := by
  rw [sub_zero, mul_eq_zero, ← isBool_iff_bit]
  unfold isBool
  simp only [Bool.or_eq_true, decide_eq_true_eq, sub_eq_zero]
  exact ⟨fun h => h.elim (fun h => .inr h.symm) .inl, fun h => h.elim .inr fun h => .inl h.symm⟩

theorem canonStep_sat {i : ℕ} (q c : Bool) (r : ZMod p) : (canonStep i (bit q) (bit c) : Circ p _).Sat b true r ↔ (q = true → c ≤ (p - 1).testBit i) ∧ r = bit (q && (c == (p - 1).testBit i)) := by
  unfold canonStep
  cases h : (p - 1).testBit i
  · rw [if_neg (by simp)]
    refine (Circ.sat_bind _ _ _).trans ?_
    have h1 : (∃ a : Unit, (ApiFree.freeBit (bit q) (bit c) : Circ p Unit).Sat b true a ∧ (pure (bit q) : Circ p (ZMod p)).Sat b true r) ↔ (1 - (bit q : ZMod p) - bit c) * bit c = 0 ∧ r = bit q :=
      ⟨fun ⟨_, h1, h2⟩ => ⟨freeBit_sat.1 h1, h2⟩, fun ⟨h1, h2⟩ => ⟨(), freeBit_sat.2 h1, h2⟩⟩
    refine h1.trans ?_
    cases q <;> cases c <;> simp [bit]
  · rw [if_pos rfl]
    refine (show _ ↔ r = bit q * bit c from Iff.rfl).trans ?_
    cases q <;> cases c <;> simp [bit]

theorem leStep_sat (t c : Bool) (a r : ZMod p) : (leStep (bit t) a (bit c) : Circ p _).Sat b true r ↔ ∃ u : Bool, a = bit u ∧ (t = true → u ≤ c) ∧ r = bit (t && (u == c)) := by
  have h1 : (leStep (bit t) a (bit c) : Circ p _).Sat b true r ↔ (1 - sel (bit c) 0 (bit t) - a) * a = 0 ∧ r = sel (bit c) (bit t * a) (bit t) := by
    have hs : ∀ x y s : ZMod p, (Api.select (bit c) x y : Circ p _).Sat b true s ↔ s = sel (bit c) x y := fun x y s =>
      ⟨fun h => h.2, fun h => ⟨fun _ => isBool_iff_bit.2 ⟨c, rfl⟩, h⟩⟩
    unfold leStep
    constructor
    · intro h
      obtain ⟨v, h1, k1⟩ := (Circ.sat_bind _ _ _).1 h
      obtain ⟨s, h2, k2⟩ := (Circ.sat_bind _ _ _).1 k1
      obtain ⟨u, h3, k3⟩ := (Circ.sat_bind _ _ _).1 k2
      obtain ⟨_, h4, k4⟩ := (Circ.sat_bind _ _ _).1 k3
      obtain rfl : v = bit t * a := h1
      obtain rfl := (hs _ _ _).1 h2
      obtain rfl := (hs _ _ _).1 h3
      exact ⟨freeBit_sat.1 h4, k4⟩
    · rintro ⟨h1, h2⟩
      exact (Circ.sat_bind _ _ _).2 ⟨_, rfl, (Circ.sat_bind _ _ _).2 ⟨_, (hs _ _ _).2 rfl, (Circ.sat_bind _ _ _).2 ⟨_, (hs _ _ _).2 rfl, (Circ.sat_bind _ _ _).2 ⟨(), freeBit_sat.2 h1, h2⟩⟩⟩⟩
  rw [h1]
  have e0 : ∀ x y : ZMod p, sel (bit false) x y = y := fun x y => by simp [sel, bit]
  have e1 : ∀ x y : ZMod p, sel (bit true) x y = x := fun x y => by simp [sel, bit]
  cases c <;> cases t <;> simp only [e0, e1]
  · rw [show (bit false : ZMod p) = 0 from rfl, free_zero]
    simp [bit]
  · rw [show (bit true : ZMod p) = 1 from rfl, free_one]
    simp [bit]
  · rw [free_zero]
    simp [bit]
  · rw [free_zero]
    constructor
    · rintro ⟨⟨u, rfl⟩, rfl⟩
      exact ⟨u, rfl, fun _ => Bool.le_true u, by cases u <;> simp [bit]⟩
    · rintro ⟨u, rfl, -, rfl⟩
      exact ⟨⟨u, rfl⟩, by cases u <;> simp [bit]⟩

theorem leVarBits_step {v w : ZMod p} (n : ℕ) (t q x y : ZMod p) : (leVarBits v w (n + 1) t q x y : Circ p Unit).Sat b true () ↔
    ∃ a c : ZMod p, isBool c = true ∧ ∃ q', (canonStep n q c : Circ p _).Sat b true q' ∧ ∃ t', (leStep t a c : Circ p _).Sat b true t' ∧
      (leVarBits v w n t' q' (x + a * 2 ^ n) (y + c * 2 ^ n) : Circ p Unit).Sat b true () := by
  conv_lhs => unfold leVarBits
  constructor
  · intro h
    obtain ⟨a, -, h⟩ := (Circ.sat_bind _ _ _).1 h
    obtain ⟨c, hc, h⟩ := (Circ.sat_bind _ _ _).1 h
    obtain ⟨q', hq, h⟩ := (Circ.sat_bind _ _ _).1 h
    obtain ⟨t', ht, h⟩ := (Circ.sat_bind _ _ _).1 h
    refine ⟨a, c, ?_, q', hq, t', ht, h⟩
    obtain ⟨c', hc'⟩ := hc
    obtain ⟨h1, h2⟩ : isBool c' = true ∧ c = c' := hc'
    rw [h2]; exact h1
  · rintro ⟨a, c, hc, q', hq, t', ht, h⟩
    exact (Circ.sat_bind _ _ _).2 ⟨a, ⟨a, rfl⟩, (Circ.sat_bind _ _ _).2 ⟨c, ⟨c, hc, rfl⟩, (Circ.sat_bind _ _ _).2 ⟨q', hq, (Circ.sat_bind _ _ _).2 ⟨t', ht, h⟩⟩⟩⟩

/-- The comparison of the upper bits decides or leaves it to the lower ones. -/
theorem le_digits {P A C : ℕ} (hA : A < P) (hC : C < P) (t u c : Bool) : (t = true → u.toNat * P + A ≤ c.toNat * P + C) ↔ (t = true → u ≤ c) ∧ ((t && (u == c)) = true → A ≤ C) := by
  have h : ¬(true ≤ false) := by decide
  cases t <;> cases u <;> cases c <;> simp [h] <;> omega

theorem mod_digit (m n : ℕ) : m % 2 ^ (n + 1) = (m.testBit n).toNat * 2 ^ n + m % 2 ^ n := by
  rw [Nat.pow_succ, Nat.mod_mul, Nat.toNat_testBit, add_comm, mul_comm]

theorem bit_toNat (t : Bool) : (bit t : ZMod p) = (t.toNat : ℕ) := by cases t <;> simp [bit]

/-- What the constraints on the lower `n` bits mean: two numbers of `n` bits complete the sums; the first is at most the second unless an upper bit has decided, and the second at most `p - 1`. -/
theorem leVarBits_sat {v w : ZMod p} : ∀ (n : ℕ) (t q : Bool) (x y : ZMod p), (leVarBits v w n (bit t) (bit q) x y : Circ p Unit).Sat b true () ↔
    ∃ A C : ℕ, A < 2 ^ n ∧ C < 2 ^ n ∧ x + A = v ∧ y + C = w ∧ (t = true → A ≤ C) ∧ (q = true → C ≤ (p - 1) % 2 ^ n)
  | 0, t, q, x, y => by
    have h1 : (leVarBits v w 0 (bit t) (bit q) x y : Circ p Unit).Sat b true () ↔ x = v ∧ y = w := by
      refine (Circ.sat_bind _ _ _).trans ?_
      have h : ∀ u u' : ZMod p, ∀ r, (Api.assertEq u u' : Circ p Unit).Sat b true r ↔ u = u' := fun u u' r => by
        show (decide _ = true ∧ _) ↔ _
        rw [decide_eq_true_iff]
        exact and_iff_left rfl
      exact ⟨fun ⟨_, h1, h2⟩ => ⟨(h _ _ _).1 h1, (h _ _ _).1 h2⟩, fun ⟨h1, h2⟩ => ⟨(), (h _ _ _).2 h1, (h _ _ _).2 h2⟩⟩
    rw [h1]
    constructor
    · rintro ⟨rfl, rfl⟩
      exact ⟨0, 0, by simp⟩
    · rintro ⟨A, C, hA, hC, h2, h3, -⟩
      obtain rfl : A = 0 := by simpa using hA
      obtain rfl : C = 0 := by simpa using hC
      simpa using And.intro h2 h3
  | n + 1, t, q, x, y => by
    have hP : 2 ^ (n + 1) = 2 ^ n + 2 ^ n := by rw [pow_succ]; omega
    have hm : (p - 1) % 2 ^ n < 2 ^ n := Nat.mod_lt _ (by positivity)
    rw [leVarBits_step]
    constructor
    · rintro ⟨a, c, hc, q', hq, t', ht, h⟩
      obtain ⟨c, rfl⟩ := isBool_iff_bit.1 hc
      obtain ⟨hq1, rfl⟩ := (canonStep_sat q c q').1 hq
      obtain ⟨u, rfl, ht1, rfl⟩ := (leStep_sat t c a t').1 ht
      obtain ⟨A, C, hA, hC, h1, h2, h3, h4⟩ := (leVarBits_sat n _ _ _ _).1 h
      refine ⟨u.toNat * 2 ^ n + A, c.toNat * 2 ^ n + C, ?_, ?_, ?_, ?_, (le_digits hA hC t u c).2 ⟨ht1, h3⟩, ?_⟩
      · cases u <;> simp <;> omega
      · cases c <;> simp <;> omega
      · rw [← h1, bit_toNat]; push_cast; ring
      · rw [← h2, bit_toNat]; push_cast; ring
      · rw [mod_digit]
        exact (le_digits hC hm q c _).2 ⟨hq1, h4⟩
    · rintro ⟨A, C, hA, hC, h1, h2, h3, h4⟩
      have key : ∀ X : ℕ, X < 2 ^ (n + 1) → ∃ u : Bool, ∃ X', X' < 2 ^ n ∧ X = u.toNat * 2 ^ n + X' := fun X hX => by
        by_cases h : X < 2 ^ n
        · exact ⟨false, X, h, by simp⟩
        · exact ⟨true, X - 2 ^ n, by omega, by simp; omega⟩
      obtain ⟨u, A, hA', rfl⟩ := key A hA
      obtain ⟨c, C, hC', rfl⟩ := key C hC
      rw [mod_digit] at h4
      obtain ⟨h5, h6⟩ := (le_digits hA' hC' t u c).1 h3
      obtain ⟨h7, h8⟩ := (le_digits hC' hm q c _).1 h4
      refine ⟨bit u, bit c, isBool_iff_bit.2 ⟨c, rfl⟩, _, (canonStep_sat q c _).2 ⟨h7, rfl⟩, _, (leStep_sat t c _ _).2 ⟨u, rfl, h5, rfl⟩, (leVarBits_sat n _ _ _ _).2 ⟨A, C, hA', hC', ?_, ?_, h6, h8⟩⟩
      · rw [← h1, bit_toNat]; push_cast; ring
      · rw [← h2, bit_toNat]; push_cast; ring

/-- gnark's comparison with a variable bound is the comparison of the canonical representatives. -/
theorem lessOrEqualVar_sat {n : ℕ} (hn : p ≤ 2 ^ n) (v w : ZMod p) (r : Unit) : (lessOrEqualVar n v w : Circ p Unit).Sat b true r ↔ (assertLeVar v w).Sat b true r := by
  have hp : 0 < p := (Fact.out : p.Prime).pos
  have : NeZero p := ⟨hp.ne'⟩
  have h2 : (assertLeVar v w).Sat b true () ↔ v.val ≤ w.val := by
    show (decide _ = true ∧ _) ↔ _
    rw [decide_eq_true_iff]
    exact and_iff_left rfl
  rw [show r = () from rfl, h2]
  refine (leVarBits_sat n true true 0 0).trans ?_
  simp only [zero_add, true_imp_iff]
  rw [Nat.mod_eq_of_lt (by omega : p - 1 < 2 ^ n)]
  constructor
  · rintro ⟨A, C, -, -, rfl, rfl, h3, h4⟩
    rw [ZMod.val_natCast_of_lt (by omega), ZMod.val_natCast_of_lt (by omega)]
    exact h3
  · intro h
    have := ZMod.val_lt v
    have := ZMod.val_lt w
    exact ⟨v.val, w.val, by omega, by omega, ZMod.natCast_zmod_val v, ZMod.natCast_zmod_val w, h, by omega⟩

theorem mono_lessOrEqualVar {n : ℕ} {v w : Lin p} : Mono b (lessOrEqualVar n v w : Bld p _) := mono_leVarBits _ _ _ _ _
theorem ref_lessOrEqualVar {n : ℕ} {v w : Lin p} {v' w' : ZMod p} (hv : Der Γ v v') (hw : Der Γ w w') :
    Ref b Γ (lessOrEqualVar n v w : Bld p _) (lessOrEqualVar n v' w' : Circ p _) :=
  ref_leVarBits n _ _ _ _ _ _ _ _ _ hv hw (der_lit 1) (der_lit 1) (der_lit 0) (der_lit 0)

theorem ref_ulpCircuit {n : ℕ} {op : FV (Lin p) → Bld p (FV (Lin p))} {op' : FV (ZMod p) → Circ p (FV (ZMod p))} (h : Unary b op op') (X Z L U : ZMod p) :
    Ref b (inputs [X, Z, L, U]) (ulpCircuit n f op (.wire 0) (.wire 1) (.wire 2) (.wire 3)) (ulpCircuit n f op' X Z L U) := by
  have d : ∀ i (hi : i < 4), Der (inputs [X, Z, L, U]) (.wire i) ([X, Z, L, U][i]) := fun i hi => der_in (xs := [X, Z, L, U]) (by simpa using hi)
  have m1 : ∀ (z l u r : FV (Lin p)), Mono b (Api.assertEq r.exponent z.exponent >>= fun _ => lessOrEqualVar n l.mantissa r.mantissa >>= fun _ => lessOrEqualVar n r.mantissa u.mantissa : Bld p Unit) :=
    fun _ _ _ _ => mono_bind mono_assertEq fun _ => mono_bind mono_lessOrEqualVar fun _ => mono_lessOrEqualVar
  unfold ulpCircuit
  refine ref_bind (ref_newFloat (d 0 (by norm_num))) (fun _ => mono_bind mono_newFloat fun _ => mono_bind mono_newFloat fun _ => mono_bind mono_newFloat fun _ => mono_bind (h.mono _) fun _ => m1 _ _ _ _) fun x x' hx => ?_
  refine ref_bind (ref_newFloat (d 1 (by norm_num)).tail) (fun _ => mono_bind mono_newFloat fun _ => mono_bind mono_newFloat fun _ => mono_bind (h.mono _) fun _ => m1 _ _ _ _) fun z z' _ => ?_
  refine ref_bind (ref_newFloat (d 2 (by norm_num)).tail.tail) (fun _ => mono_bind mono_newFloat fun _ => mono_bind (h.mono _) fun _ => m1 _ _ _ _) fun l l' _ => ?_
  refine ref_bind (ref_newFloat (d 3 (by norm_num)).tail.tail.tail) (fun _ => mono_bind (h.mono _) fun _ => m1 _ _ _ _) fun u u' _ => ?_
  refine ref_bind (h.ref _ _ _ derO_head.tail.tail.tail (newFloat_sign hx)) (fun _ => m1 _ _ _ _) fun r r' _ => ?_
  refine ref_bind (ref_assertEq derO_head.exponent derO_head.tail.tail.tail.exponent) (fun _ => mono_bind mono_lessOrEqualVar fun _ => mono_lessOrEqualVar) fun _ _ _ => ?_
  refine ref_bind (ref_lessOrEqualVar derO_head.tail.tail.tail.mantissa derO_head.tail.mantissa) (fun _ => mono_lessOrEqualVar) fun _ _ _ => ?_
  exact ref_lessOrEqualVar derO_head.tail.tail.mantissa derO_head.tail.tail.tail.mantissa

end

/-! ### The programs with the meaning `circApi` are those of Math.lean and TrigCircuits.lean -/

theorem eq_horner (x : FV (ZMod p)) : ∀ (cs : List ℕ) (r : FV (ZMod p)), Map FV.var (horner f x cs r : Circ p _) (ZkLoc.horner f x.var (cs.map (ZkLoc.newConstant f)) r.var)
  | [], r => map_pure rfl
  | c :: cs, r => map_bind (eq_fMul f r x) fun q => map_bind (eq_fAdd f q (newConstant f c)) fun s => eq_horner x cs s

theorem eq_polyEval (cs : List ℕ) (x : FV (ZMod p)) : Map FV.var (polyEval f cs x : Circ p _) (ZkLoc.polyEval f (cs.map (ZkLoc.newConstant f)) x.var) := by
  unfold polyEval ZkLoc.polyEval
  rw [← List.map_reverse]
  exact eq_horner x _ (newConstant f 0)

/-- One part. -/
theorem evalK_one (x : FloatVar p) : ∀ (cs : List (FloatVar p)) (r : FloatVar p), (ZkLoc.evalKLoop f x cs [r] >>= fun parts => match parts with
      | [] => .assert false (pure (ZkLoc.newConstant f 0))
      | q :: qs => sumParts f qs q) = ZkLoc.horner f x cs r
  | [], r => rfl
  | c :: cs, r => by
    have ih := fun s => evalK_one x cs s
    unfold ZkLoc.evalKLoop ZkLoc.evalKStep ZkLoc.horner ZkLoc.evalKStep
    simp only [Circ.bind_eq, Circ.bind_assoc, Circ.pure_eq, Circ.bind] at ih ⊢
    exact congrArg _ (funext fun q => congrArg _ (funext fun s => ih s))

theorem eq_evalK1 (cs : List ℕ) (x : FV (ZMod p)) : Map FV.var (evalK1 f cs x : Circ p _) (ZkLoc.evalK f (cs.map (ZkLoc.newConstant f)) x.var 1) := by
  have h := eq_horner (f := f) x cs (newConstant f 0)
  rw [← evalK_one] at h
  exact h
macro_rules | `(tactic| sameV) => `(tactic| with_reducible exact eq_evalK1 _ _)

theorem eq_atanMag (k : TrigConsts) (x : FV (ZMod p)) : (atanMag f k x : Circ p _) = ZkLoc.atanMag f k x.var := by
  refine Map.eq ?_
  unfold atanMag ZkLoc.atanMag
  refine map_bind_id (eq_fIsGt f x (newConstant f k.one)) fun g => map_bind (eq_fDiv f (newConstant f k.one) x) fun r => map_bind_id rfl fun e => map_bind_id rfl fun m => ?_
  refine map_bind (eq_evalK1 (f := f) k.atanCoeffs ⟨x.sign, e, m, x.isAbnormal⟩) fun r => map_bind (eq_fSub f (newConstant f k.halfPi) r) fun s => map_bind_id rfl fun e => map_bind_id rfl fun m => map_pure rfl
theorem eq_atanRemez (k : TrigConsts) (x : FV (ZMod p)) : Map FV.var (atanRemez f k x : Circ p _) (ZkLoc.atanRemez f k x.var) :=
  map_bind_id (eq_atanMag k ⟨0, x.exponent, x.mantissa, x.isAbnormal⟩) fun _ => map_pure rfl

theorem eq_funcCircuit {op : FV (ZMod p) → Circ p (FV (ZMod p))} {op' : FloatVar p → Circ p (FloatVar p)} (h : ∀ x, Map FV.var (op x) (op' x.var)) (X Z : ZMod p) :
    funcCircuit f op X Z = ZkLoc.funcCircuit f op' X Z :=
  Map.eq (map_bind (eq_newFloat f X) fun x => map_bind (eq_newFloat f Z) fun z => map_bind (h x) fun r => map_bind_id rfl fun _ => map_id rfl)

theorem eq_ulpCircuit [Fact p.Prime] {n : ℕ} (hn : p ≤ 2 ^ n) {op : FV (ZMod p) → Circ p (FV (ZMod p))} {op' : FloatVar p → Circ p (FloatVar p)} (h : ∀ x, Map FV.var (op x) (op' x.var)) (X Z L U : ZMod p) :
    (ulpCircuit n f op X Z L U : Circ p Unit).Sat b true () ↔ (ZkLoc.ulpCircuit f op' X Z L U).Sat b true () := by
  have hle : ∀ v w : ZMod p, SMap b (id : Unit → Unit) (lessOrEqualVar n v w : Circ p Unit) (assertLeVar v w) := fun v w r =>
    ⟨fun hr => ⟨r, (lessOrEqualVar_sat hn v w r).2 hr, rfl⟩, fun ⟨_, hr, _⟩ => (lessOrEqualVar_sat hn v w r).1 hr⟩
  have hs : SMap b (id : Unit → Unit) (ulpCircuit n f op X Z L U : Circ p Unit) (ZkLoc.ulpCircuit f op' X Z L U) :=
    smap_bind (eq_newFloat f X).smap fun x => smap_bind (eq_newFloat f Z).smap fun z => smap_bind (eq_newFloat f L).smap fun l => smap_bind (eq_newFloat f U).smap fun u => smap_bind (h x).smap fun r =>
      smap_bind (map_id rfl).smap fun _ => smap_bind (hle _ _) fun _ => hle _ _
  exact ⟨fun h => (hs ()).2 ⟨(), h, rfl⟩, fun h => by obtain ⟨_, h, -⟩ := (hs ()).1 h; exact h⟩

/-! ### The range checks recorded -/

variable {x : FV (Lin p)} {x' : FV (ZMod p)}

theorem wid_horner : ∀ (cs : List ℕ) (r : FV (Lin p)) (r' : FV (ZMod p)), Wid (horner f x cs r : Bld p _) (horner f x' cs r' : Circ p _)
  | [], _, _ => wid_pure
  | c :: cs, _, _ => wid_bind wid_fMul fun _ _ => wid_bind wid_fAdd fun _ _ => wid_horner cs _ _
theorem wid_evalK1 {cs : List ℕ} : Wid (evalK1 f cs x : Bld p _) (evalK1 f cs x' : Circ p _) := wid_horner _ _ _
theorem wid_polyEval {cs : List ℕ} : Wid (polyEval f cs x : Bld p _) (polyEval f cs x' : Circ p _) := wid_horner _ _ _
theorem wid_atanMag {k : TrigConsts} : Wid (atanMag f k x : Bld p _) (atanMag f k x' : Circ p _) := by unfold atanMag; wids
theorem wid_atanRemez {k : TrigConsts} : Wid (atanRemez f k x : Bld p _) (atanRemez f k x' : Circ p _) := by unfold atanRemez; wids

theorem quiet_leVarBits {v w : Lin p} : ∀ (n : ℕ) (t q s r : Lin p), Quiet (leVarBits v w n t q s r : Bld p _)
  | 0, _, _, _, _ => quiet_bind (quiet_assertEq _ _) fun _ => quiet_assertEq _ _
  | n + 1, t, q, s, r => by
    unfold leVarBits
    refine quiet_bind quiet_wire fun a => quiet_bind (quiet_bind quiet_wire fun _ => quiet_bind (quiet_assertBool _) fun _ => quiet_pure _) fun c => quiet_bind ?_ fun _ => quiet_bind ?_ fun _ => quiet_leVarBits n _ _ _ _
    · unfold canonStep
      split
      · exact quiet_mul _ _
      · exact quiet_bind (quiet_constrain _ _ _) fun _ => quiet_pure _
    · unfold leStep
      exact quiet_bind (quiet_mul _ _) fun _ => quiet_bind (quiet_select _ _ _) fun _ => quiet_bind (quiet_select _ _ _) fun _ => quiet_bind (quiet_constrain _ _ _) fun _ => quiet_pure _
theorem wid_leVar {n : ℕ} {v w : Lin p} {v' w' : ZMod p} : Wid (lessOrEqualVar n v w : Bld p _) (assertLeVar v' w') := (quiet_leVarBits _ _ _ _ _).wid rfl

theorem wid_funcCircuit {op : FV (Lin p) → Bld p (FV (Lin p))} {op' : FV (ZMod p) → Circ p (FV (ZMod p))} {op'' : FloatVar p → Circ p (FloatVar p)} (hw : ∀ x x', Wid (op x) (op' x'))
    (hm : ∀ x, Map FV.var (op' x) (op'' x.var)) {X Z : Lin p} {X' Z' : ZMod p} : Wid (funcCircuit f op X Z) (ZkLoc.funcCircuit f op'' X' Z') := by
  unfold funcCircuit ZkLoc.funcCircuit
  refine wid_bind (wid_map wid_newFloat (eq_newFloat f X')) fun _ x => wid_bind (wid_map wid_newFloat (eq_newFloat f Z')) fun _ z => ?_
  exact wid_bind (wid_map (hw _ _) (hm ⟨x.1, x.2, x.3, x.4⟩)) fun _ _ => wid_bind wid_assertEq fun _ _ => wid_assertEq
theorem wid_ulpCircuit {n : ℕ} {op : FV (Lin p) → Bld p (FV (Lin p))} {op' : FV (ZMod p) → Circ p (FV (ZMod p))} {op'' : FloatVar p → Circ p (FloatVar p)} (hw : ∀ x x', Wid (op x) (op' x'))
    (hm : ∀ x, Map FV.var (op' x) (op'' x.var)) {X Z L U : Lin p} {X' Z' L' U' : ZMod p} : Wid (ulpCircuit n f op X Z L U) (ZkLoc.ulpCircuit f op'' X' Z' L' U') := by
  unfold ulpCircuit ZkLoc.ulpCircuit
  refine wid_bind (wid_map wid_newFloat (eq_newFloat f X')) fun _ x => wid_bind (wid_map wid_newFloat (eq_newFloat f Z')) fun _ z => ?_
  refine wid_bind (wid_map wid_newFloat (eq_newFloat f L')) fun _ l => wid_bind (wid_map wid_newFloat (eq_newFloat f U')) fun _ u => ?_
  exact wid_bind (wid_map (hw _ _) (hm ⟨x.1, x.2, x.3, x.4⟩)) fun _ _ => wid_bind wid_assertEq fun _ _ => wid_bind wid_leVar fun _ _ => wid_leVar

end ZkLoc.R1cs
