import Verif.R1csCompress
import Verif.Props.Lookup

/-!
# Property C90: compiling with a threshold for long expressions

The benchmarks of the location circuits are compiled with `WithCompressThreshold(1000)`, /repo/util/util.go:486-494. What the complete systems say does not depend on the threshold; how many constraints are added is known exactly.
-/

namespace ZkLoc

variable {p b : ℕ}

/-- **C90** Every complete system, compiled with any threshold, passes for the same inputs, commitments and challenges. -/
theorem C90_passes (F : R1cs.Full p) (k : ℕ) {n : ℕ} {xs : List (ZMod p)} (hn : xs.length = n) (cs : List (ZMod p)) (x : ZMod p) : (F.compress k n).Passes xs cs x ↔ F.Passes xs cs x :=
  R1cs.compress_passes F k hn cs x

/-- **C90** So every theorem of C88 holds with any threshold. -/
theorem C90_decides {F : R1cs.Full p} {n e e' : ℕ} {P : List (ZMod p) → Prop} (k : ℕ) : (F.compress k n).Decides n e e' P ↔ F.Decides n e e' P := by
  have h : ∀ xs : List (ZMod p), xs.length = n → ∀ cs x, (F.compress k n).Passes xs cs x ↔ F.Passes xs cs x := fun xs hl cs x => C90_passes F k hl cs x
  unfold R1cs.Full.Decides
  refine forall_congr' fun xs => forall_congr' fun hl => ?_
  simp only [h xs hl]

/-- **C90** The deployed location circuit over BN254 with the threshold of the benchmarks. -/
theorem C90_location (be : Backend) : ∃ s F, R1cs.compileAuto be 0 6 (R1cs.location32 bn254) = some (9, s) ∧ s.expand 9 f32.pow2Size 6 = some F ∧
    (F.compress 1000 6).Decides 6 (2 ^ 16) (2 ^ 16) fun xs => Accepts be true 0 f32.pow2Size
      (wrapperCircuit f32 consts32 sinDenoms32 geo32 (xs.getD 0 0) (xs.getD 1 0) (xs.getD 2 0) (xs.getD 3 0) (xs.getD 4 0) (xs.getD 5 0)) () := by
  obtain ⟨s, F, h1, h2, h3⟩ := C88_location be
  exact ⟨s, F, h1, h2, (C90_decides 1000).2 h3⟩

/-- The terms of a linear expression, the constant being one if it is not zero. -/
def R1cs.Lin.parts (e : R1cs.Lin p) : List (Option ℕ × ZMod p) := (if e.c = 0 then [] else [(none, e.c)]) ++ e.ts.map fun t => (some t.1, t.2)

theorem length_parts (e : R1cs.Lin p) : e.parts.length = e.terms := by
  unfold R1cs.Lin.parts R1cs.Lin.terms
  split <;> simp [add_comm]

/-- **C90** How many constraints there are: one more whenever a sum reaches the threshold. A sum of `L` terms is split `(L - 1) / (k - 1)` times. For every system and every threshold above one. -/
theorem C90_rows {k : ℕ} (hk : 2 ≤ k) (F : R1cs.Full p) (n : ℕ) :
    (F.compress k n).r1cs.length = F.r1cs.length + (F.r1cs.map fun r => (r.1.parts.length - 1) / (k - 1) + (r.2.1.parts.length - 1) / (k - 1) + (r.2.2.parts.length - 1) / (k - 1)).sum := by
  simp only [length_parts]
  exact R1cs.compress_length hk F n

/-- **C90** Below the threshold nothing changes. -/
theorem C90_short {k : ℕ} {F : R1cs.Full p} (h : ∀ r ∈ F.r1cs, r.1.parts.length < k ∧ r.2.1.parts.length < k ∧ r.2.2.parts.length < k) (n : ℕ) : F.compress k n = F := by
  simp only [length_parts] at h
  exact R1cs.compress_short h n

/-! ### Only the sums of the lookups -/

namespace R1cs

theorem foldr_addTerm : ∀ (j m : ℕ), ((List.range' m j).map fun i => (i, (1 : ZMod p))).foldr (fun t l => addTerm t.1 t.2 l) [(m + j, 1)] = (List.range' m (j + 1)).map fun i => (i, 1)
  | 0, m => rfl
  | j + 1, m => by
    rw [List.range'_succ, List.map_cons, List.foldr_cons, show m + (j + 1) = m + 1 + j by omega, foldr_addTerm j (m + 1), List.range'_succ (n := j + 1), List.map_cons, List.range'_succ (n := j), List.map_cons]
    simp [addTerm]

theorem sumWires_eq : ∀ (k j m : ℕ), sumWires k (m + j) (⟨0, (List.range' m j).map fun i => (i, 1)⟩ : Lin p) = ⟨0, (List.range' m (j + k)).map fun i => (i, 1)⟩
  | 0, j, m => rfl
  | k + 1, j, m => by
    have h : (⟨0, (List.range' m j).map fun i => (i, 1)⟩ : Lin p).add (.wire (m + j)) = ⟨0, (List.range' m (j + 1)).map fun i => (i, 1)⟩ := by
      simp [Lin.add, Lin.wire, foldr_addTerm]
    rw [sumWires, h, show m + j + 1 = m + (j + 1) by omega, sumWires_eq k (j + 1) m, show j + 1 + k = j + (k + 1) by omega]

theorem terms_sumWires (k n : ℕ) : (sumWires k n (.lit 0) : Lin p).terms = k := by
  have := sumWires_eq (p := p) k 0 n
  simp only [List.range'_zero, List.map_nil, Nat.add_zero, Nat.zero_add] at this
  rw [Lin.lit, this]
  simp [Lin.terms]

theorem length_addTerm (i : ℕ) (a : ZMod p) : ∀ l : List (ℕ × ZMod p), (addTerm i a l).length ≤ l.length + 1
  | [] => by simp [addTerm]
  | (j, b) :: l => by
    have := length_addTerm i a l
    unfold addTerm
    split
    · simp
    · split
      · simpa using this
      · split <;> simp only [List.length_cons] <;> omega

theorem terms_sub (i : ℕ) (q : Lin p) : ((Lin.wire i).sub q).terms ≤ q.terms + 1 := by
  have := length_addTerm i (1 : ZMod p) (q.ts.map fun t => (t.1, -t.2))
  simp only [List.length_map] at this
  simp only [Lin.sub, Lin.add, Lin.wire, Lin.neg, Lin.terms, List.foldr_cons, List.foldr_nil, zero_add, neg_eq_zero]
  omega

theorem splits_small {k L : ℕ} (h : L < k) : splits k L = 0 := Nat.div_eq_zero_iff.2 (by omega)

theorem terms_wire (i : ℕ) : (Lin.wire i : Lin p).terms = 1 := by simp [Lin.wire, Lin.terms]
theorem terms_lit (v : ZMod p) : (Lin.lit v).terms ≤ 1 := by by_cases h : v = 0 <;> simp [Lin.lit, Lin.terms, h]

theorem splits_divRows {k : ℕ} (i : ℕ) : ∀ (n : ℕ) (l : List (Lin p × Lin p)), (∀ t ∈ l, t.1.terms + 1 < k ∧ t.2.terms < k) → ((divRows (.wire i) n l).map (splitsOf k)).sum = 0
  | _, [], _ => rfl
  | n, t :: l, h => by
    obtain ⟨h1, h2⟩ := h t List.mem_cons_self
    have h3 := terms_sub i t.1
    simp only [divRows, List.map_append, List.sum_append, splits_divRows i (n + 1) l fun t ht => h t (List.mem_cons_of_mem _ ht), List.map_cons, List.map_nil, List.sum_cons, List.sum_nil, splitsOf]
    rw [splits_small (by omega), splits_small (by rw [terms_wire]; omega), splits_small h2]
    rfl

theorem splits_invRows {k : ℕ} (i : ℕ) : ∀ (n : ℕ) (l : List (Lin p)), (∀ q ∈ l, q.terms + 1 < k) → 2 < k → ((invRows (.wire i) n l).map (splitsOf k)).sum = 0
  | _, [], _, _ => rfl
  | n, q :: l, h, hk => by
    have h1 := h q List.mem_cons_self
    have h3 := terms_sub i q
    have h4 := terms_lit (1 : ZMod p)
    simp only [invRows, List.map_append, List.sum_append, splits_invRows i (n + 1) l (fun t ht => h t (List.mem_cons_of_mem _ ht)) hk, List.map_cons, List.map_nil, List.sum_cons, List.sum_nil, splitsOf]
    rw [splits_small (by omega), splits_small (by rw [terms_wire]; omega), splits_small (by omega)]
    rfl

theorem splits_argRows {k i n : ℕ} {tm : List (Lin p × Lin p)} {qs : List (Lin p)} (ht : ∀ t ∈ tm, t.1.terms + 1 < k ∧ t.2.terms < k) (hq : ∀ q ∈ qs, q.terms + 1 < k) (hk : 2 < k) :
    ((argRows (.wire i) n tm qs).map (splitsOf k)).sum = splits k tm.length + splits k qs.length := by
  simp only [argRows, List.map_cons, List.sum_cons, List.map_append, List.sum_append, splits_divRows i _ tm ht, splits_invRows i _ qs hq hk, splitsOf, terms_sumWires]
  rw [splits_small (L := (Lin.lit (1 : ZMod p)).terms) (by have := terms_lit (1 : ZMod p); omega)]
  omega

theorem splits_expanded {s : System p} {b size n k : ℕ} (hk : 2 < k) (hr : ∀ r ∈ s.r1cs, r.1.terms < k ∧ r.2.1.terms < k ∧ r.2.2.terms < k) (hq : ∀ q ∈ s.range, q.terms + 1 < k) (hp : ∀ q ∈ s.pow2, q.2.terms + 1 < k) :
    ((s.expanded b size n).r1cs.map (splitsOf k)).sum = splits k (2 ^ b) + splits k s.range.length + splits k size + splits k s.pow2.length := by
  have hz : ∀ (l : List (ZMod p)) (m j : ℕ), ∀ t ∈ (l.map Lin.lit).zip ((List.range' m j).map (Lin.wire (p := p))), t.1.terms + 1 < k ∧ t.2.terms < k := fun l m j t ht => by
    obtain ⟨h1, h2⟩ := List.of_mem_zip ht
    obtain ⟨v, -, h1⟩ := List.mem_map.1 h1
    obtain ⟨i, -, h2⟩ := List.mem_map.1 h2
    rw [← h1, ← h2, terms_wire]
    have := terms_lit v
    omega
  have h0 : (s.r1cs.map (splitsOf k)).sum = 0 := List.sum_eq_zero fun x hx => by
    obtain ⟨r, h, rfl⟩ := List.mem_map.1 hx
    obtain ⟨h1, h2, h3⟩ := hr r h
    simp [splitsOf, splits_small h1, splits_small h2, splits_small h3]
  have l1 : ∀ m, (((rangeTable b).map (Lin.lit (p := p))).zip ((List.range' m (2 ^ b)).map (Lin.wire (p := p)))).length = 2 ^ b := fun m => by simp [rangeTable]
  have l2 : ∀ m, (((pow2Table size).map (Lin.lit (p := p))).zip ((List.range' m size).map (Lin.wire (p := p)))).length = size := fun m => by simp [pow2Table]
  have hp' : ∀ q ∈ s.pow2.map Prod.snd, q.terms + 1 < k := fun q h => by
    obtain ⟨t, ht, rfl⟩ := List.mem_map.1 h
    exact hp t ht
  unfold System.expanded allRows
  simp only [List.map_append, List.sum_append, List.map_cons, List.sum_cons, splits_argRows (hz _ _ _) hp' hk, splits_argRows (hz _ _ _) hq hk, l1, l2, List.length_map, h0]
  have h1 : splits k 1 = 0 := splits_small (by omega)
  simp only [splitsOf, terms_wire, h1]
  omega

end R1cs

variable [Fact p.Prime]

/-- **C90** If no expression of the circuit itself reaches the threshold, then only the four sums of the two lookups are split: with `r` and `q` queries there are
`(2^b - 1) / (k - 1) + (r - 1) / (k - 1) + (size - 1) / (k - 1) + (q - 1) / (k - 1)` constraints more. -/
theorem C90_lookups {s : R1cs.System p} {F : R1cs.Full p} {size n k : ℕ} (hk : 2 < k) (h0 : 0 < size) (hF : s.expand b size n = some F)
    (hr : ∀ r ∈ s.r1cs, r.1.terms < k ∧ r.2.1.terms < k ∧ r.2.2.terms < k) (hq : ∀ q ∈ s.range, q.terms + 1 < k) (hp : ∀ q ∈ s.pow2, q.2.terms + 1 < k) :
    (F.compress k n).r1cs.length = F.r1cs.length + ((2 ^ b - 1) / (k - 1) + (s.range.length - 1) / (k - 1) + (size - 1) / (k - 1) + (s.pow2.length - 1) / (k - 1)) := by
  rw [R1cs.compress_length (by omega)]
  rw [R1cs.expand_some h0, Option.some.injEq] at hF
  rw [← hF, R1cs.splits_expanded hk hr hq hp]
  rfl

/-! ### Concrete cases -/

/-- `C90_passes` is about something: a sum of five wires with the threshold three is split twice; assignments are carried over. -/
example : ((⟨[(.lit 1, ⟨0, [(0, 1), (1, 1), (2, 1), (3, 1), (4, 1)]⟩, .wire 5)], [], .wire 6⟩ : R1cs.Full 101).compress 3 6).r1cs =
    [(.lit 1, ⟨0, [(8, 1)]⟩, .wire 5), (⟨0, [(7, 1), (3, 1), (4, 1)]⟩, .lit 1, .wire 8), (⟨0, [(0, 1), (1, 1), (2, 1)]⟩, .lit 1, .wire 7)] := by decide +kernel

/-- `C90_lookups`: the single-precision multiplier at width 4, with 282 constraints, has 287 with the threshold 30 (122 queries to the range table and 32 powers of two). -/
example : ∃ s F, R1cs.compile 4 3 (R1cs.binaryCircuit f32 (R1cs.fMul f32) (.wire 0) (.wire 1) (.wire 2) : R1cs.Bld bn254 Unit) = some s ∧ s.expand 4 32 3 = some F ∧ (F.compress 30 3).r1cs.length = 287 := by
  obtain ⟨s, h1, -⟩ := (C83_binary (f := f32) (goodField_bn254.1 4 ⟨by norm_num, by norm_num⟩) (by decide)).2.2.1
  have h : (R1cs.compile 4 3 (R1cs.binaryCircuit f32 (R1cs.fMul f32) (.wire 0) (.wire 1) (.wire 2) : R1cs.Bld bn254 Unit)).all (fun s =>
      decide ((s.r1cs.length, s.range.length, s.pow2.length) = (105, 122, 4)) && (s.r1cs.all fun r => decide (r.1.terms < 30) && decide (r.2.1.terms < 30) && decide (r.2.2.terms < 30)) &&
      (s.range.all fun q => decide (q.terms + 1 < 30)) && s.pow2.all fun q => decide (q.2.terms + 1 < 30)) = true := by decide +kernel
  rw [h1, Option.all_some] at h
  simp only [Bool.and_eq_true, decide_eq_true_eq, List.all_eq_true, Prod.mk.injEq] at h
  obtain ⟨⟨⟨⟨h2, h3, h4⟩, h5⟩, h6⟩, h7⟩ := h
  refine ⟨s, _, h1, R1cs.expand_some (by norm_num), ?_⟩
  rw [C90_lookups (by norm_num) (by norm_num) (R1cs.expand_some (by norm_num)) (fun r hr => ⟨(h5 r hr).1.1, (h5 r hr).1.2, (h5 r hr).2⟩) h6 h7, R1cs.length_expanded, h2, h3, h4]
  norm_num

end ZkLoc
