import Verif.Props.Lookup

/-!
# Property C89: the table width and the number of constraints

`getOptimalBasewidth` (/repo/gadget/rangecheck.go:153-176) takes the width of least estimated cost (C09). The estimate is compared with the number of constraints of the expanded system (C88).
-/

namespace ZkLoc

variable {p b : ℕ}

/-- What the estimate counts although it is not there: the query for the top limb of a check that needs none, and the recomposition of a value that is its own only limb. -/
def R1cs.overcount (b : ℕ) (checks : List (R1cs.Lin p × ℕ × Mode)) : ℕ :=
  checks.countP (fun c => decide (c.2.2 ≠ .unknown) && decide (c.2.1 % b ≠ 0)) + checks.countP fun c => decide (0 < c.2.1) && decide (c.2.1 ≤ b)

theorem overcount_one (hb : 0 < b) (bits : ℕ) (mode : Mode) :
    R1cs.rowsOf b bits + R1cs.queriesOf b bits mode + ((if mode ≠ .unknown ∧ bits % b ≠ 0 then 1 else 0) + (if 0 < bits ∧ bits ≤ b then 1 else 0)) = (if decompSize bits b * b > bits then decompSize bits b + 1 else decompSize bits b) + 1 := by
  unfold R1cs.rowsOf R1cs.queriesOf
  have h1 := decompSize_eq_one_iff (n := bits) hb
  have h2 := slack_add bits hb
  have h3 := R1cs.slack_zero (bits := bits) hb
  have h4 : decompSize bits b * b > bits ↔ bits % b ≠ 0 := by omega
  simp only [h4, ne_eq, h1]
  by_cases hm : mode = .unknown <;> by_cases h5 : bits % b = 0 <;> by_cases h6 : 0 < bits ∧ bits ≤ b <;>
    simp only [hm, h5, h6, not_true_eq_false, not_false_eq_true, if_true, if_false, true_and, false_and, and_self, and_false, and_true] <;> omega

theorem overcount_eq (hb : 0 < b) : ∀ l : List (R1cs.Lin p × ℕ × Mode),
    (l.map fun c => R1cs.rowsOf b c.2.1).sum + (l.map fun c => R1cs.queriesOf b c.2.1 c.2.2).sum + R1cs.overcount b l = nbDecomposed b (l.map fun c => c.2.1) + l.length
  | [] => rfl
  | c :: l => by
    have ih := overcount_eq hb l
    have h := overcount_one hb c.2.1 c.2.2
    unfold R1cs.overcount nbDecomposed at ih ⊢
    simp only [List.map_cons, List.sum_cons, List.countP_cons, List.length_cons]
    simp only [Bool.and_eq_true, decide_eq_true_eq] at ih ⊢
    omega

theorem overcount_le (l : List (R1cs.Lin p × ℕ × Mode)) : R1cs.overcount b l ≤ 2 * l.length := by
  unfold R1cs.overcount
  have h1 := List.countP_le_length (l := l) (p := fun c => decide (c.2.2 ≠ .unknown) && decide (c.2.1 % b ≠ 0))
  have h2 := List.countP_le_length (l := l) (p := fun c => decide (0 < c.2.1) && decide (c.2.1 ≤ b))
  omega

theorem nbDecomposed_reverse (b : ℕ) (l : List ℕ) : nbDecomposed b l.reverse = nbDecomposed b l := by unfold nbDecomposed; rw [List.map_reverse, List.sum_reverse]

variable [Fact p.Prime]

/-- **C89** What the estimate says: the number of constraints differs from it by a number that does not depend on the width, and by the overcount, which does. For every circuit. -/
theorem C89_estimate {m : R1cs.Bld p Unit} {n size : ℕ} (hb : 0 < b) (h0 : 0 < size) {s : R1cs.System p} {F : R1cs.Full p} (hs : R1cs.compile b n m = some s) (hF : s.expand b size n = some F) :
    ∃ σ, m ⟨n, [], [], [], []⟩ = some ((), σ) ∧ F.r1cs.length + R1cs.overcount b σ.checks = σ.r1cs.length + size + σ.queries.length + 2 + nbR1CSConstraints b (σ.checks.reverse.map fun c => c.2.1) := by
  obtain ⟨σ, h1, h2, h3, h4⟩ := R1cs.compile_count hb hs
  have h5 := overcount_eq hb σ.checks
  rw [R1cs.expand_some h0, Option.some.injEq] at hF
  refine ⟨σ, h1, ?_⟩
  unfold nbR1CSConstraints
  rw [← hF, R1cs.length_expanded, h2, h3, h4, List.map_reverse, nbDecomposed_reverse, List.length_reverse, List.length_map]
  omega

/-- **C89** (the least number of constraints is not reached, see below) The width that the compiler selects is near optimal, for every circuit: at no other width between 2 and 17 are there fewer constraints by more than the
overcount, hence by more than twice the number of range checks. -/
theorem C89_near_optimal_partial {m : R1cs.Bld p Unit} {n w size : ℕ} (h0 : 0 < size) {s s' : R1cs.System p} {F F' : R1cs.Full p} (hs : R1cs.compileAuto .r1cs 0 n m = some (w, s)) (hF : s.expand w size n = some F)
    (h2 : 2 ≤ b) (h17 : b ≤ 17) (hs' : R1cs.compile b n m = some s') (hF' : s'.expand b size n = some F')
    (hfit : ∀ u σ, m ⟨n, [], [], [], []⟩ = some (u, σ) → nbR1CSConstraints 2 (σ.checks.reverse.map fun c => c.2.1) < 2 ^ 63 - 1) :
    ∃ σ, m ⟨n, [], [], [], []⟩ = some ((), σ) ∧ F.r1cs.length ≤ F'.r1cs.length + R1cs.overcount b σ.checks ∧ F.r1cs.length ≤ F'.r1cs.length + 2 * σ.checks.length := by
  obtain ⟨hw, hc⟩ := R1cs.compile_of_auto hs
  obtain ⟨⟨u, σ⟩, hm, hw⟩ := Option.map_eq_some_iff.1 hw
  have hopt := C09_optimalWidth (nbR1CSConstraints · (σ.checks.reverse.map fun c => c.2.1)) ⟨2, le_rfl, by norm_num, hfit u σ hm⟩
  have hw' : optimalWidth (nbR1CSConstraints · (σ.checks.reverse.map fun c => c.2.1)) = w := hw
  rw [hw'] at hopt
  obtain ⟨σ1, k1, e1⟩ := C89_estimate (by have := hopt.lower; omega) h0 hc hF
  obtain ⟨σ2, k2, e2⟩ := C89_estimate (by omega) h0 hs' hF'
  obtain ⟨-, rfl⟩ := Prod.mk.inj (Option.some.inj (k1.symm.trans hm))
  obtain ⟨-, rfl⟩ := Prod.mk.inj (Option.some.inj (k1.symm.trans k2))
  have := hopt.minimal b h2 h17
  have := overcount_le (b := b) σ1.checks
  simp only at *
  exact ⟨σ1, k1, by omega, by omega⟩

/-- The number of constraints of a circuit at a width. -/
def R1cs.total (b size n : ℕ) (m : R1cs.Bld p Unit) : Option ℕ := (R1cs.compile b n m).bind fun s => (s.expand b size n).map fun F => F.r1cs.length

theorem total_eq {m : R1cs.Bld p Unit} {n size k : ℕ} (h0 : 0 < size) (h : (R1cs.compile b n m).map (fun s => s.r1cs.length + (2 ^ b + size) + (s.range.length + s.pow2.length) + 3) = some k) : R1cs.total b size n m = some k := by
  obtain ⟨s, h1, h2⟩ := Option.map_eq_some_iff.1 h
  unfold R1cs.total
  rw [h1, Option.bind_some, R1cs.expand_some h0, Option.map_some, R1cs.length_expanded, h2]

/-- **C89** (violated) Over BN254 the compiler selects width 4 for the single-precision adder, subtractor and multiplier; width 5 needs fewer constraints. -/
theorem C89_not_optimal :
    (R1cs.widthOf .r1cs 0 3 (R1cs.binaryCircuit f32 (R1cs.fAdd f32) (.wire 0) (.wire 1) (.wire 2) : R1cs.Bld bn254 Unit) = some 4 ∧
      R1cs.total 4 32 3 (R1cs.binaryCircuit f32 (R1cs.fAdd f32) (.wire 0) (.wire 1) (.wire 2) : R1cs.Bld bn254 Unit) = some 311 ∧
      R1cs.total 5 32 3 (R1cs.binaryCircuit f32 (R1cs.fAdd f32) (.wire 0) (.wire 1) (.wire 2) : R1cs.Bld bn254 Unit) = some 305) ∧
    (R1cs.widthOf .r1cs 0 3 (R1cs.binaryCircuit f32 (R1cs.fSub f32) (.wire 0) (.wire 1) (.wire 2) : R1cs.Bld bn254 Unit) = some 4 ∧
      R1cs.total 4 32 3 (R1cs.binaryCircuit f32 (R1cs.fSub f32) (.wire 0) (.wire 1) (.wire 2) : R1cs.Bld bn254 Unit) = some 311 ∧
      R1cs.total 5 32 3 (R1cs.binaryCircuit f32 (R1cs.fSub f32) (.wire 0) (.wire 1) (.wire 2) : R1cs.Bld bn254 Unit) = some 305) ∧
    (R1cs.widthOf .r1cs 0 3 (R1cs.binaryCircuit f32 (R1cs.fMul f32) (.wire 0) (.wire 1) (.wire 2) : R1cs.Bld bn254 Unit) = some 4 ∧
      R1cs.total 4 32 3 (R1cs.binaryCircuit f32 (R1cs.fMul f32) (.wire 0) (.wire 1) (.wire 2) : R1cs.Bld bn254 Unit) = some 282 ∧
      R1cs.total 5 32 3 (R1cs.binaryCircuit f32 (R1cs.fMul f32) (.wire 0) (.wire 1) (.wire 2) : R1cs.Bld bn254 Unit) = some 277) :=
  ⟨⟨by decide +kernel, total_eq (by norm_num) (by decide +kernel), total_eq (by norm_num) (by decide +kernel)⟩,
    ⟨by decide +kernel, total_eq (by norm_num) (by decide +kernel), total_eq (by norm_num) (by decide +kernel)⟩,
    by decide +kernel, total_eq (by norm_num) (by decide +kernel), total_eq (by norm_num) (by decide +kernel)⟩

/-- `C89_near_optimal_partial`: its hypotheses hold of the single-precision divider, for which width 5 is selected (287 constraints; width 4 needs 294). -/
example : R1cs.total 5 32 3 (R1cs.binaryCircuit f32 (R1cs.fDiv f32) (.wire 0) (.wire 1) (.wire 2) : R1cs.Bld bn254 Unit) = some 287 ∧
    R1cs.total 4 32 3 (R1cs.binaryCircuit f32 (R1cs.fDiv f32) (.wire 0) (.wire 1) (.wire 2) : R1cs.Bld bn254 Unit) = some 294 ∧
    ((R1cs.binaryCircuit f32 (R1cs.fDiv f32) (.wire 0) (.wire 1) (.wire 2) : R1cs.Bld bn254 Unit) ⟨3, [], [], [], []⟩).all (fun r => decide (nbR1CSConstraints 2 (r.2.checks.reverse.map fun c => c.2.1) < 2 ^ 63 - 1)) = true ∧
    R1cs.widthOf .r1cs 0 3 (R1cs.binaryCircuit f32 (R1cs.fDiv f32) (.wire 0) (.wire 1) (.wire 2) : R1cs.Bld bn254 Unit) = some 5 :=
  ⟨total_eq (by norm_num) (by decide +kernel), total_eq (by norm_num) (by decide +kernel), by decide +kernel, by decide +kernel⟩

end ZkLoc
