import Verif.R1csRows
import Verif.Props.R1csPre
import Verif.Props.R1csMath

/-!
# Property C88: the lookups of the compiled circuits, as rank-1 constraints

The two lookup arguments of a circuit (`CommitChecker.commit`, /repo/gadget/rangecheck.go:59-120, and `PowersOfTwo.commit`, /repo/gadget/gadget.go:33-35) are compiled to rank-1 constraints with one random challenge. What
the resulting system says of inputs is proved from these constraints: the earlier theorems (C83 to C86) on systems with ideal lookups hold of it but for few challenges.
-/

namespace ZkLoc

variable {p b : ℕ} {f : Fmt}

/-- What a system with a random challenge says of its `n` inputs. Inputs without the property pass for at most `e` challenges, whatever the prover commits to before the challenge is drawn; inputs with it pass, after a suitable
commitment, for all but at most `e'`. -/
def R1cs.Full.Decides (F : R1cs.Full p) (n e e' : ℕ) (P : List (ZMod p) → Prop) : Prop :=
  ∀ xs : List (ZMod p), xs.length = n →
    (¬ P xs → ∀ cs, ∃ B : Finset (ZMod p), B.card ≤ e ∧ ∀ x, F.Passes xs cs x → x ∈ B) ∧
    (P xs → ∃ cs, ∃ B : Finset (ZMod p), B.card ≤ e' ∧ ∀ x, x ∉ B → F.Passes xs cs x)

theorem R1cs.Full.Decides.mono {F : R1cs.Full p} {n e e' d d' : ℕ} {P Q : List (ZMod p) → Prop} (h : F.Decides n e e' P) (he : e ≤ d) (he' : e' ≤ d') (hPQ : ∀ xs, xs.length = n → (P xs ↔ Q xs)) :
    F.Decides n d d' Q := fun xs hl => by
  obtain ⟨h1, h2⟩ := h xs hl
  rw [hPQ xs hl] at h1 h2
  refine ⟨fun hq cs => ?_, fun hq => ?_⟩
  · obtain ⟨B, hB, h⟩ := h1 hq cs
    exact ⟨B, hB.trans he, h⟩
  · obtain ⟨cs, B, hB, h⟩ := h2 hq
    exact ⟨cs, B, hB.trans he', h⟩

/-- The challenges for which wrong inputs may pass. -/
def R1cs.System.wrong (s : R1cs.System p) (b size : ℕ) : ℕ := 2 * 2 ^ b + s.range.length + 2 * (2 * size + s.pow2.length)
/-- The challenges for which right inputs may fail. -/
def R1cs.System.missed (s : R1cs.System p) : ℕ := s.range.length + 2 * s.pow2.length

variable [Fact p.Prime]

theorem decides {m : R1cs.Bld p Unit} {n size : ℕ} (hb : 0 < b) (h0 : 0 < size) (hm : R1cs.Sized size m) (hbp : 2 ^ b ≤ p) (hsz : size * 2 ^ size ≤ p) {s : R1cs.System p} (hs : R1cs.compile b n m = some s) :
    ∃ F, s.expand b size n = some F ∧ F.Decides n (s.wrong b size) s.missed (s.Accepts b) := by
  have hq := R1cs.compile_sized hb hm hs
  exact ⟨_, R1cs.expand_some h0, fun xs hl => ⟨fun hx cs => R1cs.expand_sound (R1cs.expand_some h0) h0 hq hx cs, fun hx => by
    obtain ⟨cs, B, h1, h2⟩ := R1cs.expand_complete (R1cs.expand_some h0) h0 hq hbp hsz hl hx
    exact ⟨cs, B, h1, h2⟩⟩⟩

theorem decides_good (G : Good p b f) {m : R1cs.Bld p Unit} {n : ℕ} (hm : R1cs.Sized f.pow2Size m) {s : R1cs.System p} (hs : R1cs.compile b n m = some s) :
    ∃ F, s.expand b f.pow2Size n = some F ∧ F.Decides n (s.wrong b f.pow2Size) s.missed (s.Accepts b) := by
  have hb := G.bpos
  have hM := G.hME
  have hEM := G.hEM
  refine decides hb (by unfold Fmt.pow2Size; omega) hm (G.pow_le (by have := G.width.2; omega)) ?_ hs
  refine le_trans (Nat.mul_le_mul_right _ Nat.lt_two_pow_self.le) ?_
  rw [← Nat.pow_add]
  exact G.pow_le (by unfold Fmt.pow2Size; omega)

/-- The circuits of the float tests with the numbers of their inputs, /repo/float/float_test.go:16-160. -/
def R1cs.floatTests (p : ℕ) (f : Fmt) : List (ℕ × R1cs.Bld p Unit) :=
  [(3, R1cs.binaryCircuit f (R1cs.fAdd f) (.wire 0) (.wire 1) (.wire 2)), (3, R1cs.binaryCircuit f (R1cs.fSub f) (.wire 0) (.wire 1) (.wire 2)),
    (3, R1cs.binaryCircuit f (R1cs.fMul f) (.wire 0) (.wire 1) (.wire 2)), (3, R1cs.binaryCircuit f (R1cs.fDiv f) (.wire 0) (.wire 1) (.wire 2)),
    (2, R1cs.unaryCircuit f (R1cs.fSqrt f) (.wire 0) (.wire 1)), (2, R1cs.unaryCircuit f (R1cs.fTrunc f) (.wire 0) (.wire 1)),
    (2, R1cs.unaryCircuit f (R1cs.fFloor f) (.wire 0) (.wire 1)), (2, R1cs.unaryCircuit f (R1cs.fCeil f) (.wire 0) (.wire 1)),
    (3, R1cs.comparisonCircuit f (R1cs.fIsLt f) (.wire 0) (.wire 1) (.wire 2)), (3, R1cs.comparisonCircuit f (R1cs.fIsLe f) (.wire 0) (.wire 1) (.wire 2)),
    (3, R1cs.comparisonCircuit f (R1cs.fIsGt f) (.wire 0) (.wire 1) (.wire 2)), (3, R1cs.comparisonCircuit f (R1cs.fIsGe f) (.wire 0) (.wire 1) (.wire 2)),
    (2, R1cs.conversionCircuit f (R1cs.fTrunc f) (.wire 0) (.wire 1)), (2, R1cs.conversionCircuit f (R1cs.fFloor f) (.wire 0) (.wire 1)),
    (2, R1cs.conversionCircuit f (R1cs.fCeil f) (.wire 0) (.wire 1))]

/-- The circuits of the math tests, which are in double precision but for one. -/
def R1cs.mathTests64 (p : ℕ) : List (ℕ × R1cs.Bld p Unit) := [(2, R1cs.poly p), (2, R1cs.degTen p), (2, R1cs.atan64 p), (2, R1cs.sin64 p), (4, R1cs.atan64Ulp p), (4, R1cs.sin64Ulp p)]

omit [Fact p.Prime] in
theorem sized_tests : ∀ t ∈ R1cs.floatTests p f, R1cs.Sized f.pow2Size t.2 := by
  intro t ht
  simp only [R1cs.floatTests, List.mem_cons, List.not_mem_nil, or_false] at ht
  rcases ht with rfl | rfl | rfl | rfl | rfl | rfl | rfl | rfl | rfl | rfl | rfl | rfl | rfl | rfl | rfl
  · exact R1cs.sz_binaryCircuit fun _ _ => R1cs.sz_fAdd
  · exact R1cs.sz_binaryCircuit fun _ _ => R1cs.sz_fSub
  · exact R1cs.sz_binaryCircuit fun _ _ => R1cs.sz_fMul
  · exact R1cs.sz_binaryCircuit fun _ _ => R1cs.sz_fDiv
  · exact R1cs.sz_unaryCircuit fun _ => R1cs.sz_fSqrt
  · exact R1cs.sz_unaryCircuit fun _ => R1cs.sz_fTrunc
  · exact R1cs.sz_unaryCircuit fun _ => R1cs.sz_fFloor
  · exact R1cs.sz_unaryCircuit fun _ => R1cs.sz_fCeil
  · exact R1cs.sz_comparisonCircuit fun _ _ => R1cs.sz_fIsLt
  · exact R1cs.sz_comparisonCircuit fun _ _ => R1cs.sz_fIsLe
  · exact R1cs.sz_comparisonCircuit fun _ _ => R1cs.sz_fIsGt
  · exact R1cs.sz_comparisonCircuit fun _ _ => R1cs.sz_fIsGe
  · exact R1cs.sz_conversionCircuit fun _ => R1cs.sz_fTrunc
  · exact R1cs.sz_conversionCircuit fun _ => R1cs.sz_fFloor
  · exact R1cs.sz_conversionCircuit fun _ => R1cs.sz_fCeil

omit [Fact p.Prime] in
theorem sized_math : ∀ t ∈ R1cs.mathTests64 p, R1cs.Sized f64.pow2Size t.2 := by
  intro t ht
  simp only [R1cs.mathTests64, List.mem_cons, List.not_mem_nil, or_false] at ht
  rcases ht with rfl | rfl | rfl | rfl | rfl | rfl
  · exact R1cs.sz_funcCircuit fun _ => R1cs.sz_polyEval
  · exact R1cs.sz_funcCircuit fun _ => R1cs.sz_evalK1
  · exact R1cs.sz_funcCircuit fun _ => R1cs.sz_atanRemez
  · exact R1cs.sz_funcCircuit fun _ => R1cs.sz_sinTaylor
  · exact R1cs.sz_ulpCircuit fun _ => R1cs.sz_atanRemez
  · exact R1cs.sz_ulpCircuit fun _ => R1cs.sz_sinTaylor

/-- **C88** The circuits of the float tests, both formats, at every width: if the system with ideal lookups is `s`, its expansion exists; inputs that `s` rejects pass for at most `2·2^b + r + 2·(2·size + q)` challenges, where
`r` and `q` are the numbers of queries, whatever is committed to; inputs that it accepts pass for all but `r + 2·q`. -/
theorem C88_float_tests (G : Good p b f) : ∀ t ∈ R1cs.floatTests p f, ∀ s, R1cs.compile b t.1 t.2 = some s →
    ∃ F, s.expand b f.pow2Size t.1 = some F ∧ F.Decides t.1 (s.wrong b f.pow2Size) s.missed (s.Accepts b) :=
  fun t ht _ hs => decides_good G (sized_tests t ht) hs

/-- **C88** How many constraints there are: those of the circuit, and those that the gadget counts for the table entries and for the queries (`LookupEntryConstraints`, `LookupQueryConstraints`,
/repo/gadget/gadget.go:54-79), and three more, which nothing counts (two final equations and one product). -/
theorem C88_rows {m : R1cs.Bld p Unit} {n size : ℕ} (hb : 0 < b) (h0 : 0 < size) {s : R1cs.System p} {F : R1cs.Full p} (hs : R1cs.compile b n m = some s) (hF : s.expand b size n = some F) (w : R1cs.Asg p) :
    ∃ σ g, m ⟨n, [], [], [], []⟩ = some ((), σ) ∧ R1cs.counted b size w σ = some g ∧ F.r1cs.length = σ.r1cs.length + g.lookupEntryConstraints + g.lookupQueryConstraints + 3 :=
  R1cs.length_expand hb h0 hs hF w

theorem decides_auto {be : Backend} {n e size : ℕ} {m : R1cs.Bld bn254 Unit} (hf : f = f32 ∨ f = f64) (hsz : f.pow2Size = size) (hm : R1cs.Sized f.pow2Size m) {w : ℕ} {s : R1cs.System bn254}
    (h : R1cs.compileAuto be 0 n m = some (w, s))
    (hw : (R1cs.compileAuto be 0 n m).all fun t => decide (3 ≤ t.1) && decide (t.1 ≤ 6) && decide (t.2.wrong t.1 size ≤ e) && decide (t.2.missed ≤ e)) {P : List (ZMod bn254) → Prop}
    (hP : ∀ xs : List (ZMod bn254), xs.length = n → (s.Accepts w xs ↔ P xs)) :
    ∃ w s F, R1cs.compileAuto be 0 n m = some (w, s) ∧ s.expand w size n = some F ∧ F.Decides n e e P := by
  subst hsz
  rw [h] at hw
  simp only [Option.all_some, Bool.and_eq_true, decide_eq_true_eq] at hw
  obtain ⟨⟨⟨h1, h2⟩, h3⟩, h4⟩ := hw
  have G : Good bn254 w f := by
    rcases hf with rfl | rfl
    · exact goodField_bn254.1 w ⟨by omega, by omega⟩
    · exact goodField_bn254.2 w ⟨by omega, by omega⟩
  obtain ⟨F, h6, h7⟩ := decides_good G hm (R1cs.compile_of_auto h).2
  exact ⟨w, s, F, h, h6, h7.mono h3 h4 hP⟩

/-- **C88** From the expanded system to IEEE 754, in single precision over BN254 at the width the compiler selects: product, sum, difference and square root. At most 512 of the challenges are bad. -/
theorem C88_f32_ieee :
    (∃ w s F, R1cs.compileAuto .r1cs 0 3 (R1cs.binaryCircuit f32 (R1cs.fMul f32) (.wire 0) (.wire 1) (.wire 2)) = some (w, s) ∧ s.expand w 32 3 = some F ∧ F.Decides 3 512 512 fun xs : List (ZMod bn254) =>
      IsPattern f32 (xs.getD 0 0) ∧ IsPattern f32 (xs.getD 1 0) ∧ IsPattern f32 (xs.getD 2 0) ∧ Ieee.Mul ⟨8, 23⟩ (datumOf f32 (xs.getD 0 0)) (datumOf f32 (xs.getD 1 0)) (datumOf f32 (xs.getD 2 0))) ∧
    (∃ w s F, R1cs.compileAuto .r1cs 0 3 (R1cs.binaryCircuit f32 (R1cs.fAdd f32) (.wire 0) (.wire 1) (.wire 2)) = some (w, s) ∧ s.expand w 32 3 = some F ∧ F.Decides 3 512 512 fun xs : List (ZMod bn254) =>
      IsPattern f32 (xs.getD 0 0) ∧ IsPattern f32 (xs.getD 1 0) ∧ IsPattern f32 (xs.getD 2 0) ∧ (Ieee.Add ⟨8, 23⟩ (datumOf f32 (xs.getD 0 0)) (datumOf f32 (xs.getD 1 0)) (datumOf f32 (xs.getD 2 0)) ∨ AddException f32 (datumOf f32 (xs.getD 0 0)) (datumOf f32 (xs.getD 1 0)) (datumOf f32 (xs.getD 2 0)))) ∧
    (∃ w s F, R1cs.compileAuto .r1cs 0 3 (R1cs.binaryCircuit f32 (R1cs.fSub f32) (.wire 0) (.wire 1) (.wire 2)) = some (w, s) ∧ s.expand w 32 3 = some F ∧ F.Decides 3 512 512 fun xs : List (ZMod bn254) =>
      IsPattern f32 (xs.getD 0 0) ∧ IsPattern f32 (xs.getD 1 0) ∧ IsPattern f32 (xs.getD 2 0) ∧ (Ieee.Sub ⟨8, 23⟩ (datumOf f32 (xs.getD 0 0)) (datumOf f32 (xs.getD 1 0)) (datumOf f32 (xs.getD 2 0)) ∨ AddException f32 (datumOf f32 (xs.getD 0 0)) (datumOf f32 (xs.getD 1 0)).neg (datumOf f32 (xs.getD 2 0)))) ∧
    (∃ w s F, R1cs.compileAuto .r1cs 0 2 (R1cs.unaryCircuit f32 (R1cs.fSqrt f32) (.wire 0) (.wire 1)) = some (w, s) ∧ s.expand w 32 2 = some F ∧ F.Decides 2 512 512 fun xs : List (ZMod bn254) =>
      IsPattern f32 (xs.getD 0 0) ∧ IsPattern f32 (xs.getD 1 0) ∧ Ieee.Sqrt ⟨8, 23⟩ (datumOf f32 (xs.getD 0 0)) (datumOf f32 (xs.getD 1 0))) := by
  obtain ⟨⟨w1, s1, h1, k1⟩, ⟨w2, s2, h2, k2⟩, ⟨w3, s3, h3, k3⟩, w4, s4, h4, k4⟩ := C83_f32_ieee
  refine ⟨decides_auto (f := f32) (size := 32) (Or.inl rfl) rfl (R1cs.sz_binaryCircuit fun _ _ => R1cs.sz_fMul) h1 (by decide +kernel) fun xs hl => ?_,
    decides_auto (f := f32) (size := 32) (Or.inl rfl) rfl (R1cs.sz_binaryCircuit fun _ _ => R1cs.sz_fAdd) h2 (by decide +kernel) fun xs hl => ?_,
    decides_auto (f := f32) (size := 32) (Or.inl rfl) rfl (R1cs.sz_binaryCircuit fun _ _ => R1cs.sz_fSub) h3 (by decide +kernel) fun xs hl => ?_,
    decides_auto (f := f32) (size := 32) (Or.inl rfl) rfl (R1cs.sz_unaryCircuit fun _ => R1cs.sz_fSqrt) h4 (by decide +kernel) fun xs hl => ?_⟩
  · match xs, hl with
    | [_, _, _], _ => exact k1 _ _ _
  · match xs, hl with
    | [_, _, _], _ => exact k2 _ _ _
  · match xs, hl with
    | [_, _, _], _ => exact k3 _ _ _
  · match xs, hl with
    | [_, _], _ => exact k4 _ _

/-- **C88** Double precision likewise: sum, difference, square root and the order. At most 1024 are bad. -/
theorem C88_f64_ieee :
    (∃ w s F, R1cs.compileAuto .r1cs 0 3 (R1cs.binaryCircuit f64 (R1cs.fAdd f64) (.wire 0) (.wire 1) (.wire 2)) = some (w, s) ∧ s.expand w 64 3 = some F ∧ F.Decides 3 1024 1024 fun xs : List (ZMod bn254) =>
      IsPattern f64 (xs.getD 0 0) ∧ IsPattern f64 (xs.getD 1 0) ∧ IsPattern f64 (xs.getD 2 0) ∧ (Ieee.Add ⟨11, 52⟩ (datumOf f64 (xs.getD 0 0)) (datumOf f64 (xs.getD 1 0)) (datumOf f64 (xs.getD 2 0)) ∨ AddException f64 (datumOf f64 (xs.getD 0 0)) (datumOf f64 (xs.getD 1 0)) (datumOf f64 (xs.getD 2 0)))) ∧
    (∃ w s F, R1cs.compileAuto .r1cs 0 3 (R1cs.binaryCircuit f64 (R1cs.fSub f64) (.wire 0) (.wire 1) (.wire 2)) = some (w, s) ∧ s.expand w 64 3 = some F ∧ F.Decides 3 1024 1024 fun xs : List (ZMod bn254) =>
      IsPattern f64 (xs.getD 0 0) ∧ IsPattern f64 (xs.getD 1 0) ∧ IsPattern f64 (xs.getD 2 0) ∧ (Ieee.Sub ⟨11, 52⟩ (datumOf f64 (xs.getD 0 0)) (datumOf f64 (xs.getD 1 0)) (datumOf f64 (xs.getD 2 0)) ∨ AddException f64 (datumOf f64 (xs.getD 0 0)) (datumOf f64 (xs.getD 1 0)).neg (datumOf f64 (xs.getD 2 0)))) ∧
    (∃ w s F, R1cs.compileAuto .r1cs 0 2 (R1cs.unaryCircuit f64 (R1cs.fSqrt f64) (.wire 0) (.wire 1)) = some (w, s) ∧ s.expand w 64 2 = some F ∧ F.Decides 2 1024 1024 fun xs : List (ZMod bn254) =>
      IsPattern f64 (xs.getD 0 0) ∧ IsPattern f64 (xs.getD 1 0) ∧ Ieee.Sqrt ⟨11, 52⟩ (datumOf f64 (xs.getD 0 0)) (datumOf f64 (xs.getD 1 0))) ∧
    (∃ w s F, R1cs.compileAuto .r1cs 0 3 (R1cs.comparisonCircuit f64 (R1cs.fIsLt f64) (.wire 0) (.wire 1) (.wire 2)) = some (w, s) ∧ s.expand w 64 3 = some F ∧ F.Decides 3 1024 1024 fun xs : List (ZMod bn254) =>
      IsPattern f64 (xs.getD 0 0) ∧ IsPattern f64 (xs.getD 1 0) ∧ xs.getD 2 0 = wireOf (Ieee.Lt (datumOf f64 (xs.getD 0 0)) (datumOf f64 (xs.getD 1 0)))) := by
  obtain ⟨⟨w1, s1, h1, k1⟩, ⟨w2, s2, h2, k2⟩, ⟨w3, s3, h3, k3⟩, w4, s4, h4, k4⟩ := C83_f64_ieee
  refine ⟨decides_auto (f := f64) (size := 64) (Or.inr rfl) rfl (R1cs.sz_binaryCircuit fun _ _ => R1cs.sz_fAdd) h1 (by decide +kernel) fun xs hl => ?_,
    decides_auto (f := f64) (size := 64) (Or.inr rfl) rfl (R1cs.sz_binaryCircuit fun _ _ => R1cs.sz_fSub) h2 (by decide +kernel) fun xs hl => ?_,
    decides_auto (f := f64) (size := 64) (Or.inr rfl) rfl (R1cs.sz_unaryCircuit fun _ => R1cs.sz_fSqrt) h3 (by decide +kernel) fun xs hl => ?_,
    decides_auto (f := f64) (size := 64) (Or.inr rfl) rfl (R1cs.sz_comparisonCircuit fun _ _ => R1cs.sz_fIsLt) h4 (by decide +kernel) fun xs hl => ?_⟩
  · match xs, hl with
    | [_, _, _], _ => exact k1 _ _ _
  · match xs, hl with
    | [_, _, _], _ => exact k2 _ _ _
  · match xs, hl with
    | [_, _], _ => exact k3 _ _
  · match xs, hl with
    | [_, _, _], _ => exact k4 _ _ _

/-- **C88** The circuits of the math tests. -/
theorem C88_math_tests (G : Good p b f64) : ∀ t ∈ R1cs.mathTests64 p, ∀ s, R1cs.compile b t.1 t.2 = some s →
    ∃ F, s.expand b f64.pow2Size t.1 = some F ∧ F.Decides t.1 (s.wrong b f64.pow2Size) s.missed (s.Accepts b) :=
  fun t ht _ hs => decides_good G (sized_math t ht) hs

/-- **C88** The location circuits with hinted sines, with their exact meaning (C85). -/
theorem C88_hinted32 (G : Good p b f32) (v w : Pre p) : ∃ s F, R1cs.compile b 6 (R1cs.hinted32 p v w) = some s ∧ s.expand b f32.pow2Size 6 = some F ∧
    F.Decides 6 (s.wrong b f32.pow2Size) s.missed fun xs => InRange f32 geo32 (xs.getD 0 0) (xs.getD 1 0) (xs.getD 2 0) ∧ Claimable32 b true (xs.getD 2 0) (xs.getD 3 0) (xs.getD 4 0) (xs.getD 5 0) := by
  obtain ⟨s, h1, h2⟩ := C85_meaning32 G v w
  obtain ⟨F, h3, h4⟩ := decides_good G R1cs.sz_precomputeCircuit h1
  refine ⟨s, F, h1, h3, h4.mono le_rfl le_rfl fun xs hl => ?_⟩
  match xs, hl with
  | [_, _, _, _, _, _], _ => exact h2 _ _ _ _ _ _

/-- **C88** The same in double precision. -/
theorem C88_hinted64 (G : Good p b f64) (v w : Pre p) : ∃ s F, R1cs.compile b 6 (R1cs.hinted64 p v w) = some s ∧ s.expand b f64.pow2Size 6 = some F ∧
    F.Decides 6 (s.wrong b f64.pow2Size) s.missed fun xs => InRange f64 geo64 (xs.getD 0 0) (xs.getD 1 0) (xs.getD 2 0) ∧ Claimable64 b true (xs.getD 2 0) (xs.getD 3 0) (xs.getD 4 0) (xs.getD 5 0) := by
  obtain ⟨s, h1, h2⟩ := C85_meaning64 G v w
  obtain ⟨F, h3, h4⟩ := decides_good G R1cs.sz_precomputeCircuit h1
  refine ⟨s, F, h1, h3, h4.mono le_rfl le_rfl fun xs hl => ?_⟩
  match xs, hl with
  | [_, _, _, _, _, _], _ => exact h2 _ _ _ _ _ _

theorem location_queries : nbDecomposed 9 (wrapperCircuit (p := bn254) f32 consts32 sinDenoms32 geo32 0 0 0 0 0 0).widths ≤ 12635 := by decide +kernel

/-- **C88** The deployed location circuit over BN254, at the width that the compiler selects, under every back-end: but for fewer than `2^16` of the about `2^254` challenges the expanded system passes exactly if the circuit, read
with ideal lookups, accepts. -/
theorem C88_location (be : Backend) : ∃ s F, R1cs.compileAuto be 0 6 (R1cs.location32 bn254) = some (9, s) ∧ s.expand 9 f32.pow2Size 6 = some F ∧
    F.Decides 6 (2 ^ 16) (2 ^ 16) fun xs => Accepts be true 0 f32.pow2Size
      (wrapperCircuit f32 consts32 sinDenoms32 geo32 (xs.getD 0 0) (xs.getD 1 0) (xs.getD 2 0) (xs.getD 3 0) (xs.getD 4 0) (xs.getD 5 0)) () := by
  obtain ⟨s, h1, h2⟩ := C84_location_auto be
  have hs := (R1cs.compile_of_auto h1).2
  have hz : R1cs.Sized f32.pow2Size (R1cs.location32 bn254) := R1cs.sz_wrapperCircuit
  obtain ⟨F, h3, h4⟩ := decides_good (goodField_bn254.1 9 ⟨by norm_num, by norm_num⟩ : Good bn254 9 f32) hz hs
  have hr := (R1cs.range_le (by norm_num) hs (l := (wrapperCircuit (p := bn254) f32 consts32 sinDenoms32 geo32 0 0 0 0 0 0).widths) fun u σ hm => by
    have hw := R1cs.wid_wrapperCircuit (a' := 0) (c' := 0) (r' := 0) (i' := 0) (j' := 0) (l' := 0) _ _ _ hm
    rwa [List.map_nil, List.append_nil] at hw).trans location_queries
  have hq := R1cs.pow2_le (by norm_num) hz hs
  refine ⟨s, F, h1, h3, h4.mono ?_ ?_ fun xs hl => ?_⟩
  · have h32 : f32.pow2Size = 32 := rfl
    unfold R1cs.System.wrong
    rw [h32]
    norm_num
    omega
  · unfold R1cs.System.missed
    norm_num
    omega
  · match xs, hl with
    | [_, _, _, _, _, _], _ => exact h2 _ _ _ _ _ _

/-- **C88** (violated) The two cells of one location (C40): after suitable commitments the expanded deployed system passes with either of them, for all but `2^17` challenges. -/
theorem C88_two_cells (be : Backend) {w : ℕ} {s : R1cs.System bn254} {F : R1cs.Full bn254} (h : R1cs.compileAuto be 0 6 (R1cs.location32 bn254) = some (w, s)) (hF : s.expand w f32.pow2Size 6 = some F) :
    ∃ cs cs', ∃ B : Finset (ZMod bn254), B.card ≤ 2 ^ 17 ∧ ∀ x, x ∉ B → F.Passes [0x3F311FBF, 0x3F35A99C, 1, 2, 0, 3] cs x ∧ F.Passes [0x3F311FBF, 0x3F35A99C, 1, 1, 0, 2] cs' x := by
  obtain ⟨s', F', h1, h2, h3⟩ := C88_location be
  obtain ⟨rfl, rfl⟩ := Prod.mk.inj (Option.some.inj (h1.symm.trans h))
  obtain rfl := Option.some.inj (h2.symm.trans hF)
  obtain ⟨k1, k2⟩ := C40_wrapper_two_cells32 be true
  obtain ⟨cs, B, hB, hx⟩ := (h3 [0x3F311FBF, 0x3F35A99C, 1, 2, 0, 3] rfl).2 k1
  obtain ⟨cs', B', hB', hx'⟩ := (h3 [0x3F311FBF, 0x3F35A99C, 1, 1, 0, 2] rfl).2 k2
  refine ⟨cs, cs', B ∪ B', (Finset.card_union_le _ _).trans (by norm_num at hB hB' ⊢; omega), fun x hn => ?_⟩
  rw [Finset.mem_union, not_or] at hn
  exact ⟨hx x hn.1, hx' x hn.2⟩

/-- **C88** Whatever a prover commits to, a resolution above 15 passes for at most `2^16` challenges. -/
theorem C88_resolution (be : Backend) {w : ℕ} {s : R1cs.System bn254} {F : R1cs.Full bn254} (h : R1cs.compileAuto be 0 6 (R1cs.location32 bn254) = some (w, s)) (hF : s.expand w f32.pow2Size 6 = some F)
    {Lat Lng n I J K : ZMod bn254} (hn : 15 < n.val) (cs : List (ZMod bn254)) : ∃ B : Finset (ZMod bn254), B.card ≤ 2 ^ 16 ∧ ∀ x, F.Passes [Lat, Lng, n, I, J, K] cs x → x ∈ B := by
  obtain ⟨s', F', h1, h2, h3⟩ := C88_location be
  obtain ⟨s'', k1, k2⟩ := C84_location_auto be
  obtain ⟨rfl, rfl⟩ := Prod.mk.inj (Option.some.inj (h1.symm.trans h))
  obtain ⟨-, rfl⟩ := Prod.mk.inj (Option.some.inj (h1.symm.trans k1))
  obtain rfl := Option.some.inj (h2.symm.trans hF)
  refine (h3 [Lat, Lng, n, I, J, K] rfl).1 (fun hp => ?_) cs
  exact absurd (C84_resolution (n := n) (goodField_bn254.1 9 ⟨by norm_num, by norm_num⟩ : Good bn254 9 f32) (R1cs.compile_of_auto h).2 ((k2 Lat Lng n I J K).2 hp)) (by omega)

/-! ### Concrete cases -/

/-- `C88_f32_ieee`: with the right commitment 2.5 · 4 = 10 passes for all but 512 challenges, and 2.5 · 4 = 9 passes for at most 512, whatever the commitment. -/
example : ∃ w s F, R1cs.compileAuto .r1cs 0 3 (R1cs.binaryCircuit f32 (R1cs.fMul f32) (.wire 0) (.wire 1) (.wire 2)) = some (w, s) ∧ s.expand w 32 3 = some F ∧
    (∃ cs, ∃ B : Finset (ZMod bn254), B.card ≤ 512 ∧ ∀ x, x ∉ B → F.Passes [0x40200000, 0x40800000, 0x41200000] cs x) ∧
    ∀ cs, ∃ B : Finset (ZMod bn254), B.card ≤ 512 ∧ ∀ x, F.Passes [0x40200000, 0x40800000, 0x41100000] cs x → x ∈ B := by
  obtain ⟨w, s, F, h1, h2, h3⟩ := C88_f32_ieee.1
  refine ⟨w, s, F, h1, h2, (h3 [0x40200000, 0x40800000, 0x41200000] rfl).2 ((C41_honest good8 (by decide) _ _ _).1.1 (by decide +kernel)), (h3 [0x40200000, 0x40800000, 0x41100000] rfl).1 fun h => ?_⟩
  have := (C41_honest good8 (by decide) _ _ _).1.2 h
  revert this; decide +kernel

/-- `C88_rows`: the single-precision multiplier at width 4 has 282 constraints. The circuit has 83 of its own, 16 + 32 are counted for the tables, 22 + 122 + 4 for recompositions and queries. -/
example : ∃ s F, R1cs.compile 4 3 (R1cs.binaryCircuit f32 (R1cs.fMul f32) (.wire 0) (.wire 1) (.wire 2) : R1cs.Bld bn254 Unit) = some s ∧ s.expand 4 32 3 = some F ∧ F.r1cs.length = 282 := by
  obtain ⟨s, h1, -⟩ := (C83_binary (f := f32) (goodField_bn254.1 4 ⟨by norm_num, by norm_num⟩) (by decide)).2.2.1
  refine ⟨s, _, h1, R1cs.expand_some (by norm_num), ?_⟩
  have h : (R1cs.compile 4 3 (R1cs.binaryCircuit f32 (R1cs.fMul f32) (.wire 0) (.wire 1) (.wire 2) : R1cs.Bld bn254 Unit)).map (fun s => (s.r1cs.length, s.range.length, s.pow2.length)) = some (105, 122, 4) := by decide +kernel
  rw [h1, Option.map_some, Option.some.injEq, Prod.mk.injEq, Prod.mk.injEq] at h
  rw [R1cs.length_expanded, h.1, h.2.1, h.2.2]
  norm_num

/-- `C88_float_tests`, `C88_hinted32` and `C88_location`: there are such circuits, and inputs of both kinds. -/
example : ∃ s F, R1cs.compileAuto .r1cs 0 6 (R1cs.location32 bn254) = some (9, s) ∧ s.expand 9 32 6 = some F ∧ (∃ cs x, F.Passes [0x3F311FBF, 0x3F35A99C, 1, 2, 0, 3] cs x) ∧
    ∀ cs, ∃ x, ¬ F.Passes [0x3F311FBF, 0x3F35A99C, 16, 2, 0, 3] cs x := by
  obtain ⟨s, F, h1, h2, -⟩ := C88_location .r1cs
  have hout : ∀ B : Finset (ZMod bn254), B.card ≤ 2 ^ 17 → ∃ x, x ∉ B := fun B hB => by
    by_contra hc
    push_neg at hc
    have := Finset.eq_univ_iff_forall.2 hc
    rw [this, Finset.card_univ, ZMod.card] at hB
    exact absurd hB (by unfold bn254; norm_num)
  obtain ⟨cs, _, B, hB, hx⟩ := C88_two_cells .r1cs h1 h2
  obtain ⟨x, hn⟩ := hout B hB
  refine ⟨s, F, h1, h2, ⟨cs, x, (hx x hn).1⟩, fun cs => ?_⟩
  obtain ⟨B, hB, hx⟩ := C88_resolution .r1cs h1 h2 (Lat := 0x3F311FBF) (Lng := 0x3F35A99C) (n := 16) (I := 2) (J := 0) (K := 3) (by decide +kernel) cs
  obtain ⟨x, hn⟩ := hout B (hB.trans (by norm_num))
  exact ⟨x, fun h => hn (hx x h)⟩

end ZkLoc
