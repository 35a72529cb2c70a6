import Verif.R1csLoc
import Mathlib.Tactic.IntervalCases

/-!
# The compiled location circuit
-/

namespace ZkLoc.R1cs

set_option maxRecDepth 8000

variable {p : ℕ} {b : ℕ}

instance : Out p (FD (Lin p)) (FD (ZMod p)) :=
  ⟨fun a y => Out.pairs a.sqDist y.sqDist ++ (Out.pairs a.sinFaceLat y.sinFaceLat ++ (Out.pairs a.cosFaceLat y.cosFaceLat ++ (Out.pairs a.sinFaceLng y.sinFaceLng ++
      (Out.pairs a.cosFaceLng y.cosFaceLng ++ (Out.pairs a.sinAzimuth y.sinAzimuth ++ (Out.pairs a.cosAzimuth y.cosAzimuth ++ (Out.pairs a.sinAzimuthRot y.sinAzimuthRot ++
        Out.pairs a.cosAzimuthRot y.cosAzimuthRot))))))),
    fun w a => ⟨Out.ev w a.sqDist, Out.ev w a.sinFaceLat, Out.ev w a.cosFaceLat, Out.ev w a.sinFaceLng, Out.ev w a.cosFaceLng, Out.ev w a.sinAzimuth, Out.ev w a.cosAzimuth,
      Out.ev w a.sinAzimuthRot, Out.ev w a.cosAzimuthRot⟩, fun w a y => by
    obtain ⟨y1, y2, y3, y4, y5, y6, y7, y8, y9⟩ := y
    simp only [FD.mk.injEq, ← Out.law w, List.mem_append, or_imp, forall_and]⟩

section
variable {Γ : Env p}

theorem derO_mk {x1 x2 x3 x4 x5 x6 x7 x8 x9 : FV (Lin p)} {v1 v2 v3 v4 v5 v6 v7 v8 v9 : FV (ZMod p)} (h1 : DerO Γ x1 v1) (h2 : DerO Γ x2 v2) (h3 : DerO Γ x3 v3) (h4 : DerO Γ x4 v4)
    (h5 : DerO Γ x5 v5) (h6 : DerO Γ x6 v6) (h7 : DerO Γ x7 v7) (h8 : DerO Γ x8 v8) (h9 : DerO Γ x9 v9) :
    DerO Γ (FD.mk x1 x2 x3 x4 x5 x6 x7 x8 x9) (FD.mk v1 v2 v3 v4 v5 v6 v7 v8 v9) := fun q hq => by
  simp only [Out.pairs, List.mem_append] at hq
  rcases hq with h | h | h | h | h | h | h | h | h
  exacts [h1 q h, h2 q h, h3 q h, h4 q h, h5 q h, h6 q h, h7 q h, h8 q h, h9 q h]

variable {a : FD (Lin p)} {y : FD (ZMod p)}
theorem mem_fd {q : Lin p × ZMod p} : q ∈ Out.pairs a y ↔ q ∈ Out.pairs a.sqDist y.sqDist ∨ q ∈ Out.pairs a.sinFaceLat y.sinFaceLat ∨ q ∈ Out.pairs a.cosFaceLat y.cosFaceLat ∨
    q ∈ Out.pairs a.sinFaceLng y.sinFaceLng ∨ q ∈ Out.pairs a.cosFaceLng y.cosFaceLng ∨ q ∈ Out.pairs a.sinAzimuth y.sinAzimuth ∨ q ∈ Out.pairs a.cosAzimuth y.cosAzimuth ∨
    q ∈ Out.pairs a.sinAzimuthRot y.sinAzimuthRot ∨ q ∈ Out.pairs a.cosAzimuthRot y.cosAzimuthRot := by
  show q ∈ (_ ++ _ : List _) ↔ _
  simp only [List.mem_append]
theorem derO_sqDist (h : DerO Γ a y) : DerO Γ a.sqDist y.sqDist := fun q hq => h q (mem_fd.2 (by simp only [hq, true_or]))
theorem derO_sinFaceLat (h : DerO Γ a y) : DerO Γ a.sinFaceLat y.sinFaceLat := fun q hq => h q (mem_fd.2 (by simp only [hq, true_or, or_true]))
theorem derO_cosFaceLat (h : DerO Γ a y) : DerO Γ a.cosFaceLat y.cosFaceLat := fun q hq => h q (mem_fd.2 (by simp only [hq, true_or, or_true]))
theorem derO_sinFaceLng (h : DerO Γ a y) : DerO Γ a.sinFaceLng y.sinFaceLng := fun q hq => h q (mem_fd.2 (by simp only [hq, true_or, or_true]))
theorem derO_cosFaceLng (h : DerO Γ a y) : DerO Γ a.cosFaceLng y.cosFaceLng := fun q hq => h q (mem_fd.2 (by simp only [hq, true_or, or_true]))
theorem derO_sinAzimuth (h : DerO Γ a y) : DerO Γ a.sinAzimuth y.sinAzimuth := fun q hq => h q (mem_fd.2 (by simp only [hq, true_or, or_true]))
theorem derO_cosAzimuth (h : DerO Γ a y) : DerO Γ a.cosAzimuth y.cosAzimuth := fun q hq => h q (mem_fd.2 (by simp only [hq, true_or, or_true]))
theorem derO_sinAzimuthRot (h : DerO Γ a y) : DerO Γ a.sinAzimuthRot y.sinAzimuthRot := fun q hq => h q (mem_fd.2 (by simp only [hq, true_or, or_true]))
theorem derO_cosAzimuthRot (h : DerO Γ a y) : DerO Γ a.cosAzimuthRot y.cosAzimuthRot := fun q hq => h q (mem_fd.2 (by simp only [hq, or_true]))

end

/-! ### Signs -/

variable [Fact p.Prime]
theorem fSub_sign {f : Fmt} {u v y : FV (ZMod p)} (h : (fSub f u v : Circ p _).Sat b true y) : isBool y.sign = true := by
  obtain ⟨v', -, h2⟩ := (Circ.sat_bind _ _ _).1 h
  exact fAdd_sign h2
macro_rules | `(tactic| boolean) => `(tactic| with_reducible exact fSub_sign (by assumption))

variable {Γ : Env p} {f : Fmt}

/-! ### Sines -/

theorem mono_sinTerm {even : Bool} {ret term : FV (Lin p)} : Mono b (sinTerm f even ret term : Bld p _) := by
  cases even
  · exact mono_fAdd
  · exact mono_fSub
theorem ref_sinTerm {even : Bool} {ret term : FV (Lin p)} {ret' term' : FV (ZMod p)} (hr : DerO Γ ret ret') (ht : DerO Γ term term') (hs : isBool term'.sign = true) :
    Ref b Γ (sinTerm f even ret term : Bld p _) (sinTerm f even ret' term' : Circ p _) := by
  cases even
  · exact ref_fAdd hr ht
  · exact ref_fSub hr ht hs

theorem mono_sinLoop {xs : FV (Lin p)} : ∀ (ds : List ℕ) (even : Bool) (ret term : FV (Lin p)), Mono b (sinLoop f xs ds even ret term : Bld p _)
  | [], even, ret, term => mono_pure
  | d :: ds, even, ret, term => by
    unfold sinLoop
    exact mono_bind mono_sinTerm fun _ => mono_bind mono_fMul fun _ => mono_bind mono_fDiv fun _ => mono_sinLoop ds _ _ _

theorem ref_sinLoop {xs : FV (Lin p)} {xs' : FV (ZMod p)} : ∀ (ds : List ℕ) (even : Bool) (Γ : Env p) (ret term : FV (Lin p)) (ret' term' : FV (ZMod p)), DerO Γ xs xs' → DerO Γ ret ret' →
    DerO Γ term term' → isBool term'.sign = true → Ref b Γ (sinLoop f xs ds even ret term : Bld p _) (sinLoop f xs' ds even ret' term' : Circ p _)
  | [], even, Γ, ret, term, ret', term', hx, hr, ht, hs => ref_pure hr
  | d :: ds, even, Γ, ret, term, ret', term', hx, hr, ht, hs => by
    unfold sinLoop
    refine ref_bind (ref_sinTerm hr ht hs) (fun _ => mono_bind mono_fMul fun _ => mono_bind mono_fDiv fun _ => mono_sinLoop ds _ _ _) fun r r' _ => ?_
    refine ref_bind (ref_fMul ht.tail hx.tail) (fun _ => mono_bind mono_fDiv fun _ => mono_sinLoop ds _ _ _) fun n n' _ => ?_
    refine ref_bind (ref_fDiv derO_head derO_newConstant) (fun _ => mono_sinLoop ds _ _ _) fun t t' h => ?_
    exact ref_sinLoop ds _ _ _ _ _ _ hx.tail.tail.tail derO_head.tail.tail derO_head (fDiv_sign h)

theorem mono_sinMag {ds : List ℕ} {e m : Lin p} : Mono b (sinMag f ds e m : Bld p _) := by
  unfold sinMag
  exact mono_bind mono_fMul fun _ => mono_sinLoop _ _ _ _
theorem ref_sinMag {ds : List ℕ} {e m : Lin p} {e' m' : ZMod p} (he : Der Γ e e') (hm : Der Γ m m') : Ref b Γ (sinMag f ds e m : Bld p _) (sinMag f ds e' m' : Circ p _) := by
  unfold sinMag
  have ht : DerO Γ (⟨Ops.lit 0, e, m, Ops.lit 0⟩ : FV (Lin p)) (⟨Ops.lit 0, e', m', Ops.lit 0⟩ : FV (ZMod p)) := derO_fv (der_lit _) he hm (der_lit _)
  exact ref_bind (ref_fMul ht ht) (fun _ => mono_sinLoop _ _ _ _) fun x x' h => ref_sinLoop ds _ _ _ _ _ _ derO_head derO_newConstant ht.tail (by simp [isBool, Ops.lit])

theorem mono_sinTaylor {k : TrigConsts} {ds : List ℕ} {x : FV (Lin p)} : Mono b (sinTaylor f k ds x : Bld p _) := by
  unfold sinTaylor; try dsimp only
  mono
theorem ref_sinTaylor {k : TrigConsts} {ds : List ℕ} {x : FV (Lin p)} {x' : FV (ZMod p)} (hx : DerO Γ x x') (hs : isBool x'.sign = true) :
    Ref b Γ (sinTaylor f k ds x : Bld p _) (sinTaylor f k ds x' : Circ p _) := by
  unfold sinTaylor; try dsimp only
  ref
theorem sinTaylor_sign {k : TrigConsts} {ds : List ℕ} {u y : FV (ZMod p)} (h : (sinTaylor f k ds u : Circ p _).Sat b true y) (hu : isBool u.sign = true) : isBool y.sign = true := by
  have : Post b (sinTaylor f k ds u : Circ p _) fun y => isBool y.sign = true := by
    unfold sinTaylor
    exact post_bind fun _ _ => post_bind fun _ _ => post_bind fun _ _ => post_bind fun _ _ => post_bind fun _ _ => post_pure hu
  exact this y h
macro_rules | `(tactic| boolean) => `(tactic| (with_reducible refine sinTaylor_sign (by assumption) ?_; boolean))

/-! ### Bits -/

theorem mono_bitWire {v : Lin p} {i : ℕ} : Mono b (bitWire v i : Bld p _) := by unfold bitWire; mono
theorem ref_bitWire {v : Lin p} {u : ZMod p} {i : ℕ} (hv : Der Γ v u) : Ref b Γ (bitWire v i : Bld p _) (bitWire u i : Circ p _) := by unfold bitWire; ref
theorem mono_toBinary4 {v : Lin p} : Mono b (toBinary4 v : Bld p _) := by unfold toBinary4; mono
theorem ref_toBinary4 {v : Lin p} {u : ZMod p} (hv : Der Γ v u) : Ref b Γ (toBinary4 v : Bld p _) (toBinary4 u : Circ p _) := by unfold toBinary4; ref

theorem mono_zeroBit {x : Lin p} : Mono b (ApiZero.zeroBit x : Bld p Unit) := mono_constrain
theorem ref_zeroBit {x : Lin p} {u : ZMod p} (hx : Der Γ x u) : Ref b Γ (ApiZero.zeroBit x : Bld p Unit) (ApiZero.zeroBit u : Circ p Unit) := by
  refine (ref_constrain (der_sub (der_sub (der_lit 1) (der_lit 1)) hx) hx (der_lit 0)).of_iff fun r => ?_
  have h : (((1 : ZMod p) - 1 - u) * u = 0) ↔ u = 0 := by
    rw [sub_self, zero_sub, neg_mul, neg_eq_zero, mul_self_eq_zero]
  show (decide _ = true ∧ _) ↔ (decide _ = true ∧ _)
  rw [decide_eq_true_iff, decide_eq_true_iff]
  exact and_congr_left fun _ => h

theorem mono_leBit {i : ℕ} {x : Lin p} : Mono b (leBit i x : Bld p Unit) := by
  unfold leBit
  split
  · exact mono_assertBool
  · exact mono_zeroBit
theorem ref_leBit {i : ℕ} {x : Lin p} {u : ZMod p} (hx : Der Γ x u) : Ref b Γ (leBit i x : Bld p Unit) (leBit i u : Circ p Unit) := by
  unfold leBit
  split
  · exact ref_assertBool hx
  · exact ref_zeroBit hx

theorem mono_leBits {v : Lin p} : ∀ (n i : ℕ) (acc : Lin p), Mono b (leBits v n i acc : Bld p _)
  | 0, i, acc => mono_assertEq
  | n + 1, i, acc => by
    unfold leBits
    exact mono_bind mono_hint fun _ => mono_bind mono_leBit fun _ => mono_leBits n _ _
theorem ref_leBits {v : Lin p} {u : ZMod p} : ∀ (n i : ℕ) (Γ : Env p) (acc : Lin p) (acc' : ZMod p), Der Γ v u → Der Γ acc acc' → Ref b Γ (leBits v n i acc : Bld p _) (leBits u n i acc' : Circ p _)
  | 0, i, Γ, acc, acc', hv, ha => ref_assertEq ha hv
  | n + 1, i, Γ, acc, acc', hv, ha => by
    unfold leBits
    refine ref_bind (ref_hint _ _ _) (fun _ => mono_bind mono_leBit fun _ => mono_leBits n _ _) fun bit bit' _ => ?_
    exact ref_bind (ref_leBit der_head) (fun _ => mono_leBits n _ _) fun _ _ _ => ref_leBits n _ _ _ _ hv.tail.tail (der_add ha.tail.tail (der_scale der_head.tail _))

/-- One step. -/
theorem leBits_step {u : ZMod p} (n i : ℕ) (acc : ZMod p) : (leBits u (n + 1) i acc : Circ p Unit).Sat b true () ↔
    ∃ x : ZMod p, (if i < 4 then isBool x = true else x = 0) ∧ (leBits u n (i + 1) (acc + x * 2 ^ i) : Circ p Unit).Sat b true () := by
  conv_lhs => unfold leBits
  refine exists_congr fun x => ?_
  show ((leBit i x : Circ p Unit) >>= fun _ => leBits u n (i + 1) (acc + x * 2 ^ i)).Sat b true () ↔ _
  unfold leBit
  split
  · exact Iff.rfl
  · show (decide (x = 0) = true ∧ _) ↔ _
    rw [decide_eq_true_iff]; exact Iff.rfl

/-- Bits from the fifth on are zero. -/
theorem leBits_high {u : ZMod p} : ∀ (n i : ℕ) (acc : ZMod p), 4 ≤ i → ((leBits u n i acc : Circ p Unit).Sat b true () ↔ acc = u)
  | 0, i, acc, _ => by
    show (assertIsEqual acc u : Circ p Unit).Sat b true () ↔ _
    simp [assertIsEqual, Circ.Sat]
  | n + 1, i, acc, hi => by
    have ih := fun x : ZMod p => leBits_high (u := u) n (i + 1) (acc + x * 2 ^ i) (by omega)
    rw [leBits_step]
    simp only [ih, if_neg (by omega : ¬i < 4)]
    simp

/-- gnark's comparison with 15 is the comparison of the canonical representative. -/
theorem lessOrEqual15_sat (hp : 15 < p) (n : ℕ) (hn : 4 ≤ n) (u : ZMod p) (r : Unit) : (lessOrEqual15 n u : Circ p Unit).Sat b true r ↔ (assertIsLessOrEqual u 15).Sat b true r := by
  obtain ⟨n, rfl⟩ := Nat.exists_eq_add_of_le' hn
  have h1 : (lessOrEqual15 (n + 4) u : Circ p Unit).Sat b true () ↔ ∃ x0 x1 x2 x3 : ZMod p, isBool x0 = true ∧ isBool x1 = true ∧ isBool x2 = true ∧ isBool x3 = true ∧ x0 + x1 * 2 + x2 * 4 + x3 * 8 = u := by
    unfold lessOrEqual15
    have e : (Ops.lit 0 : ZMod p) = 0 := rfl
    simp only [leBits_step, leBits_high n (0 + 1 + 1 + 1 + 1) _ (by omega), e]
    norm_num
  have h2 : (assertIsLessOrEqual u 15).Sat b true () ↔ u.val ≤ 15 := by
    show (decide _ = true ∧ _) ↔ _
    rw [decide_eq_true_iff]
    exact and_iff_left rfl
  show _ ↔ _
  rw [show r = () from rfl, h1, h2]
  constructor
  · clear h1 h2
    rintro ⟨x0, x1, x2, x3, h0, h1, h2, h3, rfl⟩
    have hv : ∀ k : ℕ, k ≤ 15 → ((k : ℕ) : ZMod p).val ≤ 15 := fun k hk => (ZMod.val_natCast_of_lt (by omega : k < p)).trans_le hk
    rcases isBool_iff.1 h0 with rfl | rfl <;> rcases isBool_iff.1 h1 with rfl | rfl <;> rcases isBool_iff.1 h2 with rfl | rfl <;> rcases isBool_iff.1 h3 with rfl | rfl <;>
      norm_num <;> first | exact_mod_cast hv 1 (by norm_num) | exact_mod_cast hv _ (by norm_num)
  · intro h
    have hu : u = ((u.val : ℕ) : ZMod p) := (ZMod.natCast_zmod_val u).symm
    have hb : ∀ k : ℕ, isBool ((k % 2 : ℕ) : ZMod p) = true := fun k => by
      rcases Nat.mod_two_eq_zero_or_one k with h | h <;> rw [h] <;> simp [isBool]
    refine ⟨((u.val % 2 : ℕ) : ZMod p), ((u.val / 2 % 2 : ℕ) : ZMod p), ((u.val / 4 % 2 : ℕ) : ZMod p), ((u.val / 8 % 2 : ℕ) : ZMod p), hb _, hb _, hb _, hb _, ?_⟩
    conv_rhs => rw [hu]
    have : u.val = u.val % 2 + u.val / 2 % 2 * 2 + u.val / 4 % 2 * 4 + u.val / 8 % 2 * 8 := by omega
    exact_mod_cast congrArg (fun k : ℕ => (k : ZMod p)) this.symm

theorem ref_le15 (hp : 15 < p) {n : ℕ} (hn : 4 ≤ n) {v : Lin p} {u : ZMod p} (hv : Der Γ v u) : Ref b Γ (lessOrEqual15 n v : Bld p _) (assertIsLessOrEqual u 15) :=
  (ref_leBits n 0 Γ _ _ hv (der_lit 0)).of_iff fun r => lessOrEqual15_sat hp n hn u r

/-! ### The radius -/

theorem mono_scaleLoop : ∀ (bits : List (Lin p)) (ps : List ℕ) (x : FV (Lin p)), Mono b (scaleLoop f bits ps x : Bld p _)
  | [], _, x => by unfold scaleLoop; exact mono_pure
  | _ :: _, [], x => by unfold scaleLoop; exact mono_pure
  | t :: bits, q :: ps, x => by
    unfold scaleLoop
    exact mono_bind mono_fMul fun _ => mono_bind mono_select fun _ => mono_bind mono_select fun _ => mono_scaleLoop bits ps _

theorem ref_scaleLoop : ∀ (bits : List (Lin p)) (bits' : List (ZMod p)) (ps : List ℕ) (Γ : Env p) (x : FV (Lin p)) (x' : FV (ZMod p)), List.Forall₂ (Der Γ) bits bits' → DerO Γ x x' →
    Ref b Γ (scaleLoop f bits ps x : Bld p _) (scaleLoop f bits' ps x' : Circ p _)
  | [], [], _, Γ, x, x', _, hx => by unfold scaleLoop; exact ref_pure hx
  | _ :: _, _ :: _, [], Γ, x, x', _, hx => by unfold scaleLoop; exact ref_pure hx
  | t :: bits, t' :: bits', q :: ps, Γ, x, x', hb, hx => by
    cases hb with
    | cons h hb =>
      unfold scaleLoop
      refine ref_bind (ref_fMul hx derO_newConstant) (fun _ => mono_bind mono_select fun _ => mono_bind mono_select fun _ => mono_scaleLoop bits ps _) fun r r' _ => ?_
      refine ref_bind (ref_select h.tail derO_head.exponent hx.tail.exponent) (fun _ => mono_bind mono_select fun _ => mono_scaleLoop bits ps _) fun e e' _ => ?_
      refine ref_bind (ref_select h.tail.tail derO_head.tail.mantissa hx.tail.tail.mantissa) (fun _ => mono_scaleLoop bits ps _) fun m m' _ => ?_
      exact ref_scaleLoop bits bits' ps _ _ _ (hb.imp fun _ _ h => h.tail.tail.tail) (derO_fv (der_lit _) der_head.tail der_head (der_lit _))

theorem mono_scaleR {g : GeoConsts} {x : FV (Lin p)} {r : Lin p} : Mono b (scaleR f g x r : Bld p _) := by
  unfold scaleR
  exact mono_bind mono_toBinary4 fun _ => mono_bind (mono_scaleLoop _ _ _) fun _ => mono_fMul
theorem ref_scaleR {g : GeoConsts} {x : FV (Lin p)} {x' : FV (ZMod p)} {r : Lin p} {r' : ZMod p} (hx : DerO Γ x x') (hr : Der Γ r r') :
    Ref b Γ (scaleR f g x r : Bld p _) (scaleR f g x' r' : Circ p _) := by
  unfold scaleR
  refine ref_bind (ref_toBinary4 hr) (fun _ => mono_bind (mono_scaleLoop _ _ _) fun _ => mono_fMul) fun t t' _ => ?_
  have ht : DerO (Out.pairs t t' ++ Γ) t t' := derO_head
  refine ref_bind (ref_scaleLoop _ _ _ _ _ _ (.cons ht.fst.lin (.cons ht.snd.fst.lin (.cons ht.snd.snd.fst.lin (.cons ht.snd.snd.snd.lin .nil)))) derO_newConstant) (fun _ => mono_fMul) fun q q' _ => ?_
  exact ref_fMul hx.tail.tail derO_head

theorem mono_calculateR {g : GeoConsts} {x : FV (Lin p)} {r : Lin p} : Mono b (calculateR f g x r : Bld p _) := by
  unfold calculateR
  mono
theorem ref_calculateR {g : GeoConsts} {x : FV (Lin p)} {x' : FV (ZMod p)} {r : Lin p} {r' : ZMod p} (hx : DerO Γ x x') (hr : Der Γ r r') (hs : isBool x'.sign = true) :
    Ref b Γ (calculateR f g x r : Bld p _) (calculateR f g x' r' : Circ p _) := by
  unfold calculateR
  ref

/-! ### The closest face -/

theorem mono_faceDist {c : Face} {x y z : FV (Lin p)} : Mono b (faceDist f c x y z : Bld p _) := by
  unfold faceDist
  mono
theorem ref_faceDist {c : Face} {x y z : FV (Lin p)} {x' y' z' : FV (ZMod p)} (hx : DerO Γ x x') (hy : DerO Γ y y') (hz : DerO Γ z z') (sx : isBool x'.sign = true) (sy : isBool y'.sign = true)
    (sz : isBool z'.sign = true) : Ref b Γ (faceDist f c x y z : Bld p _) (faceDist f c x' y' z' : Circ p _) := by
  unfold faceDist
  ref
theorem mono_faceStep {c : Face} {x y z : FV (Lin p)} {s : FD (Lin p)} : Mono b (faceStep f c x y z s : Bld p _) := by
  unfold faceStep
  mono
theorem ref_faceStep {c : Face} {x y z : FV (Lin p)} {x' y' z' : FV (ZMod p)} {s : FD (Lin p)} {s' : FD (ZMod p)} (hx : DerO Γ x x') (hy : DerO Γ y y') (hz : DerO Γ z z') (hs : DerO Γ s s')
    (sx : isBool x'.sign = true) (sy : isBool y'.sign = true) (sz : isBool z'.sign = true) : Ref b Γ (faceStep f c x y z s : Bld p _) (faceStep f c x' y' z' s' : Circ p _) := by
  unfold faceStep
  ref

theorem faceDist_sign {c : Face} {x y z r : FV (ZMod p)} (h : (faceDist f c x y z : Circ p _).Sat b true r) : isBool r.sign = true := by
  have : Post b (faceDist f c x y z : Circ p _) fun y => isBool y.sign = true := by
    unfold faceDist
    exact post_bind fun _ _ => post_bind fun _ _ => post_bind fun _ _ => post_bind fun _ _ => post_bind fun _ _ => post_bind fun _ _ => post_bind fun _ _ => fun y h => fAdd_sign h
  exact this r h
theorem fSelect_sign {c : ZMod p} {x y r : FV (ZMod p)} (h : (fSelect c x y : Circ p _).Sat b true r) (hx : isBool x.sign = true) (hy : isBool y.sign = true) : isBool r.sign = true := by
  have : Post b (fSelect c x y : Circ p _) fun y => isBool y.sign = true := by
    unfold fSelect
    exact post_bind fun _ h1 => post_bind fun _ _ => post_bind fun _ _ => post_bind fun _ _ => post_pure (isBool_of_select h1 hx hy)
  exact this r h
theorem faceStep_sign {c : Face} {x y z : FV (ZMod p)} {s r : FD (ZMod p)} (h : (faceStep f c x y z s : Circ p _).Sat b true r) (hs : isBool s.sqDist.sign = true) : isBool r.sqDist.sign = true := by
  have : Post b (faceStep f c x y z s : Circ p _) fun y => isBool y.sqDist.sign = true := by
    unfold faceStep
    exact post_bind fun _ h1 => post_bind fun _ _ => post_bind fun _ h2 => post_bind fun _ _ => post_bind fun _ _ => post_bind fun _ _ => post_bind fun _ _ => post_bind fun _ _ => post_bind fun _ _ =>
      post_bind fun _ _ => post_bind fun _ _ => post_pure (fSelect_sign h2 (faceDist_sign h1) hs)
  exact this r h

theorem mono_faceLoop {x y z : FV (Lin p)} : ∀ (cs : List Face) (s : FD (Lin p)), Mono b (faceLoop f x y z cs s : Bld p _)
  | [], s => mono_pure
  | c :: cs, s => by unfold faceLoop; exact mono_bind mono_faceStep fun _ => mono_faceLoop cs _
theorem ref_faceLoop {x y z : FV (Lin p)} {x' y' z' : FV (ZMod p)} (sx : isBool x'.sign = true) (sy : isBool y'.sign = true) (sz : isBool z'.sign = true) : ∀ (cs : List Face) (Γ : Env p)
    (s : FD (Lin p)) (s' : FD (ZMod p)), DerO Γ x x' → DerO Γ y y' → DerO Γ z z' → DerO Γ s s' → Ref b Γ (faceLoop f x y z cs s : Bld p _) (faceLoop f x' y' z' cs s' : Circ p _)
  | [], Γ, s, s', hx, hy, hz, hs => ref_pure hs
  | c :: cs, Γ, s, s', hx, hy, hz, hs => by
    unfold faceLoop
    exact ref_bind (ref_faceStep hx hy hz hs sx sy sz) (fun _ => mono_faceLoop cs _) fun _ _ _ => ref_faceLoop sx sy sz cs _ _ _ hx.tail hy.tail hz.tail derO_head
theorem faceLoop_sign {x y z : FV (ZMod p)} : ∀ (cs : List Face) {s r : FD (ZMod p)}, (faceLoop f x y z cs s : Circ p _).Sat b true r → isBool s.sqDist.sign = true → isBool r.sqDist.sign = true
  | [], s, r, h, hs => by
    obtain rfl : r = s := h
    exact hs
  | c :: cs, s, r, h, hs => by
    unfold faceLoop at h
    obtain ⟨t, h1, h2⟩ := (Circ.sat_bind _ _ _).1 h
    exact faceLoop_sign cs h2 (faceStep_sign h1 hs)

theorem derO_faceInit {g : GeoConsts} : DerO Γ (faceInit f g : FD (Lin p)) (faceInit f g) := by
  unfold faceInit
  compiled

theorem mono_closestFace {g : GeoConsts} {x y z : FV (Lin p)} : Mono b (closestFace f g x y z : Bld p _) := mono_faceLoop _ _
theorem ref_closestFace {g : GeoConsts} {x y z : FV (Lin p)} {x' y' z' : FV (ZMod p)} (hx : DerO Γ x x') (hy : DerO Γ y y') (hz : DerO Γ z z') (sx : isBool x'.sign = true)
    (sy : isBool y'.sign = true) (sz : isBool z'.sign = true) : Ref b Γ (closestFace f g x y z : Bld p _) (closestFace f g x' y' z' : Circ p _) :=
  ref_faceLoop sx sy sz _ _ _ _ hx hy hz derO_faceInit

/-- The constants from which something is subtracted, or that are subtracted, have a sign bit that is a bit. -/
structure Small (f : Fmt) (g : GeoConsts) : Prop where
  one : g.one < 2 ^ (f.E + f.M + 1)
  five : g.five < 2 ^ (f.E + f.M + 1)
  twoPi : g.twoPi < 2 ^ (f.E + f.M + 1)

theorem newConstant_sign {v : ℕ} (h : v < 2 ^ (f.E + f.M + 1)) : isBool (newConstant f v : FV (ZMod p)).sign = true := by
  show isBool ((componentsOf v f.E f.M).sign : ZMod p) = true
  have e : (componentsOf v f.E f.M).sign = v / 2 ^ (f.E + f.M) := by
    unfold componentsOf componentsCore
    dsimp only
    split_ifs <;> rfl
  have : v / 2 ^ (f.E + f.M) < 2 := Nat.div_lt_of_lt_mul (by rwa [pow_succ] at h)
  rw [e]
  interval_cases v / 2 ^ (f.E + f.M) <;> simp [isBool]
theorem closestFace_sign {g : GeoConsts} (hg : Small f g) {x y z : FV (ZMod p)} {r : FD (ZMod p)} (h : (closestFace f g x y z : Circ p _).Sat b true r) : isBool r.sqDist.sign = true :=
  faceLoop_sign _ h (newConstant_sign hg.five)
macro_rules | `(tactic| boolean) => `(tactic| with_reducible exact closestFace_sign (by assumption) (by assumption))
macro_rules | `(tactic| boolean) => `(tactic| with_reducible exact newConstant_sign (Small.one (by assumption)))
macro_rules | `(tactic| boolean) => `(tactic| with_reducible exact newConstant_sign (Small.twoPi (by assumption)))

/-! ### From the face to the cell -/

theorem mono_calculateHex2d {a1 a2 a3 a4 r : FV (Lin p)} {d : FD (Lin p)} {q : Lin p} : Mono b (calculateHex2d f a1 a2 a3 a4 d r q : Bld p _) := by
  unfold calculateHex2d; try dsimp only
  mono
theorem ref_calculateHex2d {a1 a2 a3 a4 r : FV (Lin p)} {d : FD (Lin p)} {q : Lin p} {a1' a2' a3' a4' r' : FV (ZMod p)} {d' : FD (ZMod p)} {q' : ZMod p} (h1 : DerO Γ a1 a1') (h2 : DerO Γ a2 a2')
    (h3 : DerO Γ a3 a3') (h4 : DerO Γ a4 a4') (hd : DerO Γ d d') (hr : DerO Γ r r') (hq : Der Γ q q') :
    Ref b Γ (calculateHex2d f a1 a2 a3 a4 d r q : Bld p _) (calculateHex2d f a1' a2' a3' a4' d' r' q' : Circ p _) := by
  unfold calculateHex2d; try dsimp only
  ref

theorem mono_normalizeIJK {a i c j e k : Lin p} : Mono b (normalizeIJK a i c j e k : Bld p _) := by
  unfold normalizeIJK; try dsimp only
  mono
theorem ref_normalizeIJK {a i c j e k : Lin p} {a' i' c' j' e' k' : ZMod p} (h1 : Der Γ a a') (h2 : Der Γ i i') (h3 : Der Γ c c') (h4 : Der Γ j j') (h5 : Der Γ e e') (h6 : Der Γ k k') :
    Ref b Γ (normalizeIJK a i c j e k : Bld p _) (normalizeIJK a' i' c' j' e' k' : Circ p _) := by
  unfold normalizeIJK; try dsimp only
  ref

theorem mono_foldAxes {a i c j : Lin p} : Mono b (foldAxes a i c j : Bld p _) := by
  unfold foldAxes; try dsimp only
  mono
theorem ref_foldAxes {a i c j : Lin p} {a' i' c' j' : ZMod p} (h1 : Der Γ a a') (h2 : Der Γ i i') (h3 : Der Γ c c') (h4 : Der Γ j j') :
    Ref b Γ (foldAxes a i c j : Bld p _) (foldAxes a' i' c' j' : Circ p _) := by
  unfold foldAxes; try dsimp only
  ref

theorem mono_quadrantIJ {g : GeoConsts} {x y : FV (Lin p)} : Mono b (quadrantIJ f g x y : Bld p _) := by
  unfold quadrantIJ; try dsimp only
  mono
theorem ref_quadrantIJ {g : GeoConsts} (hg : Small f g) {x y : FV (Lin p)} {x' y' : FV (ZMod p)} (hx : DerO Γ x x') (hy : DerO Γ y y') : Ref b Γ (quadrantIJ f g x y : Bld p _) (quadrantIJ f g x' y' : Circ p _) := by
  unfold quadrantIJ; try dsimp only
  ref

theorem mono_hex2dToCoordIJK {g : GeoConsts} {x y : FV (Lin p)} : Mono b (hex2dToCoordIJK f g x y : Bld p _) := by
  unfold hex2dToCoordIJK; try dsimp only
  mono
theorem ref_hex2dToCoordIJK {g : GeoConsts} (hg : Small f g) {x y : FV (Lin p)} {x' y' : FV (ZMod p)} (hx : DerO Γ x x') (hy : DerO Γ y y') :
    Ref b Γ (hex2dToCoordIJK f g x y : Bld p _) (hex2dToCoordIJK f g x' y' : Circ p _) := by
  unfold hex2dToCoordIJK; try dsimp only
  ref

theorem mono_locCell {g : GeoConsts} {a1 a2 a3 a4 : FV (Lin p)} {q : Lin p} : Mono b (locCell f g a1 a2 a3 a4 q : Bld p _) := by
  unfold locCell; try dsimp only
  mono
theorem ref_locCell {g : GeoConsts} (hg : Small f g) {a1 a2 a3 a4 : FV (Lin p)} {q : Lin p} {a1' a2' a3' a4' : FV (ZMod p)} {q' : ZMod p} (h1 : DerO Γ a1 a1') (h2 : DerO Γ a2 a2')
    (h3 : DerO Γ a3 a3') (h4 : DerO Γ a4 a4') (hq : Der Γ q q') (hs : isBool a1'.sign = true) : Ref b Γ (locCell f g a1 a2 a3 a4 q : Bld p _) (locCell f g a1' a2' a3' a4' q' : Circ p _) := by
  unfold locCell; try dsimp only
  ref

theorem mono_assertCell {t : Lin p × Lin p × Lin p} {i j k : Lin p} : Mono b (assertCell t i j k : Bld p _) := by
  unfold assertCell
  mono
theorem ref_assertCell {t : Lin p × Lin p × Lin p} {t' : ZMod p × ZMod p × ZMod p} {i j k : Lin p} {i' j' k' : ZMod p} (ht : DerO Γ t t') (hi : Der Γ i i') (hj : Der Γ j j') (hk : Der Γ k k') :
    Ref b Γ (assertCell t i j k : Bld p _) (assertCell t' i' j' k' : Circ p _) := by
  unfold assertCell
  ref

theorem mono_shiftedLng {g : GeoConsts} {x : FV (Lin p)} : Mono b (shiftedLng f g x : Bld p _) := by
  unfold shiftedLng
  mono
theorem ref_shiftedLng {g : GeoConsts} (hg : Small f g) {x : FV (Lin p)} {x' : FV (ZMod p)} (hx : DerO Γ x x') : Ref b Γ (shiftedLng f g x : Bld p _) (shiftedLng f g x' : Circ p _) := by
  unfold shiftedLng
  ref
theorem shiftedLng_sign {g : GeoConsts} {x y : FV (ZMod p)} (h : (shiftedLng f g x : Circ p _).Sat b true y) : isBool y.sign = true := by
  have : Post b (shiftedLng f g x : Circ p _) fun y => isBool y.sign = true := by
    unfold shiftedLng
    exact post_bind fun _ h1 => post_bind fun _ _ => post_bind fun _ h2 => post_bind fun _ h3 => post_bind fun _ _ => post_bind fun _ _ => post_pure (isBool_of_select h3 (fSub_sign h2) (fAdd_sign h1))
  exact this y h
macro_rules | `(tactic| boolean) => `(tactic| with_reducible exact shiftedLng_sign (by assumption))

theorem mono_wrapperTrig {g : GeoConsts} {k : TrigConsts} {ds : List ℕ} {x y : FV (Lin p)} : Mono b (wrapperTrig f k ds g x y : Bld p _) := by
  unfold wrapperTrig
  mono
theorem ref_wrapperTrig {g : GeoConsts} (hg : Small f g) {k : TrigConsts} {ds : List ℕ} {x y : FV (Lin p)} {x' y' : FV (ZMod p)} (hx : DerO Γ x x') (hy : DerO Γ y y') (sx : isBool x'.sign = true)
    (sy : isBool y'.sign = true) : Ref b Γ (wrapperTrig f k ds g x y : Bld p _) (wrapperTrig f k ds g x' y' : Circ p _) := by
  unfold wrapperTrig
  ref
theorem wrapperTrig_sign {g : GeoConsts} {k : TrigConsts} {ds : List ℕ} {x y : FV (ZMod p)} {r : FV (ZMod p) × FV (ZMod p) × FV (ZMod p) × FV (ZMod p)}
    (h : (wrapperTrig f k ds g x y : Circ p _).Sat b true r) (hx : isBool x.sign = true) : isBool r.1.sign = true := by
  have : Post b (wrapperTrig f k ds g x y : Circ p _) fun y => isBool y.1.sign = true := by
    unfold wrapperTrig
    exact post_bind fun _ _ => post_bind fun _ _ => post_bind fun _ _ => post_bind fun _ _ => post_bind fun _ _ => post_bind fun _ h => post_pure (sinTaylor_sign h hx)
  exact this r h

end ZkLoc.R1cs
