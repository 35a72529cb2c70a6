import Verif.BenchSpec

/-!
# Properties C60-C65: benchmark harness, test data, result table
-/

namespace ZkLoc.Bench
open ZkLoc.Text _root_.Text Report

variable {Cs Wit Srs Keys Proof : Type}

/-! ### C60: what a successful benchmark says -/

/-- **C60** The PLONK benchmark succeeds exactly if every step does, in particular only if the proof that was produced is accepted by the verifier. -/
theorem C60_plonk_file (w : World Cs Wit Srs Keys Proof) (r i : ℤ) (file : List (List Char)) :
    (benchFilePlonk w r i file).2 = .ok ↔ (w.openOk = true ∧ w.statOk = true ∧ (file = [] → w.headerOk = true) ∧ w.rowOk = true) ∧
      ∃ cs srs keys wit proof, w.compile = some cs ∧ w.srs cs = some srs ∧ w.setupP cs (some srs) = some keys ∧ w.witness = some wit ∧
        w.prove cs keys wit = some proof ∧ w.verify proof keys wit = true := by
  unfold benchFilePlonk openFile
  constructor
  · intro h
    split at h
    · simp at h
    rename_i f hf
    split at h
    · simp at h
    split at h
    · simp at h
    split at h
    · simp at h
    split at h
    · simp at h
    split at h
    · simp at h
    split_ifs at h with hv hr
    · refine ⟨⟨?_, ?_, ?_, hr⟩, _, _, _, _, _, by assumption, by assumption, by assumption, by assumption, by assumption, hv⟩
      · by_contra hh; simp [hh] at hf
      · by_contra hh; simp [hh] at hf
      · intro h0; by_contra hh; simp [h0, hh] at hf
  · rintro ⟨⟨h1, h2, h3, h4⟩, cs, srs, keys, wit, proof, h5, h6, h7, h8, h9, h10⟩
    by_cases h0 : file = []
    · simp [h1, h2, h3 h0, h4, h5, h6, h7, h8, h9, h10, h0]
    · simp [h1, h2, h4, h5, h6, h7, h8, h9, h10, h0]

/-- **C60** The PLONK memory benchmark likewise. -/
theorem C60_plonk_memory (w : World Cs Wit Srs Keys Proof) :
    benchMemoryPlonk w = .ok ↔ ∃ cs keys wit proof, w.compile = some cs ∧ w.setupP cs (w.srs cs) = some keys ∧ w.witness = some wit ∧
        w.prove cs keys wit = some proof ∧ w.verify proof keys wit = true := by
  unfold benchMemoryPlonk
  constructor
  · intro h
    split at h
    · simp at h
    split at h
    · simp at h
    split at h
    · simp at h
    split at h
    · simp at h
    split_ifs at h with hv
    exact ⟨_, _, _, _, by assumption, by assumption, by assumption, by assumption, hv⟩
  · rintro ⟨cs, keys, wit, proof, h5, h7, h8, h9, h10⟩
    simp [h5, h7, h8, h9, h10]

/-- **C60** (partial: the verifier's answer is missing) The Groth16 benchmark succeeds exactly if every step but the verification does. -/
theorem C60_groth16_file_partial (w : World Cs Wit Srs Keys Proof) (r i : ℤ) (file : List (List Char)) :
    (benchFileGroth16 w r i file).2 = .ok ↔ (w.openOk = true ∧ w.statOk = true ∧ (file = [] → w.headerOk = true) ∧ w.rowOk = true) ∧
      ∃ cs keys wit proof, w.compile = some cs ∧ w.setupG cs = some keys ∧ w.witness = some wit ∧ w.prove cs keys wit = some proof := by
  unfold benchFileGroth16 openFile
  constructor
  · intro h
    split at h
    · simp at h
    rename_i f hf
    split at h
    · simp at h
    split at h
    · simp at h
    split at h
    · simp at h
    split at h
    · simp at h
    simp only at h
    split_ifs at h with hr
    · refine ⟨⟨?_, ?_, ?_, hr⟩, _, _, _, _, by assumption, by assumption, by assumption, by assumption⟩
      · by_contra hh; simp [hh] at hf
      · by_contra hh; simp [hh] at hf
      · intro h0; by_contra hh; simp [h0, hh] at hf
  · rintro ⟨⟨h1, h2, h3, h4⟩, cs, keys, wit, proof, h5, h7, h8, h9⟩
    by_cases h0 : file = []
    · simp [h1, h2, h3 h0, h4, h5, h7, h8, h9, h0]
    · simp [h1, h2, h4, h5, h7, h8, h9, h0]

theorem proveLoop_ok (verify : Proof → Bool) : ∀ ps : List (Option Proof), proveLoop verify ps = .ok ↔ ∀ o ∈ ps, o ≠ none
  | [] => by simp [proveLoop]
  | none :: _ => by simp [proveLoop]
  | some _ :: ps => by simp [proveLoop, proveLoop_ok verify ps]

/-- **C60** (partial: the verifier's answer is missing) `BenchProof` ends well exactly if every step does and each of the twenty attempts gives a proof. -/
theorem C60_groth16_loop_partial (w : World Cs Wit Srs Keys Proof) (prove : ℕ → Cs → Keys → Wit → Option Proof) :
    benchProof w prove = .ok ↔ ∃ cs wit keys, w.compile = some cs ∧ w.witness = some wit ∧ w.setupG cs = some keys ∧ ∀ i < 20, ∃ proof, prove i cs keys wit = some proof := by
  unfold benchProof
  constructor
  · intro h
    split at h
    · simp at h
    split at h
    · simp at h
    split at h
    · simp at h
    rename_i cs hc _ wit hw _ keys hk
    rw [proveLoop_ok] at h
    exact ⟨cs, wit, keys, hc, hw, hk, fun i hi => Option.ne_none_iff_exists'.1 (h _ (List.mem_map.2 ⟨i, List.mem_range.2 hi, rfl⟩))⟩
  · rintro ⟨cs, wit, keys, hc, hw, hk, h⟩
    simp only [hc, hw, hk]
    rw [proveLoop_ok]
    intro o ho
    obtain ⟨i, hi, rfl⟩ := List.mem_map.1 ho
    exact Option.ne_none_iff_exists'.2 (h i (List.mem_range.1 hi))

/-- **C60** (partial: the verifier's answer is missing) The Groth16 memory benchmark likewise. -/
theorem C60_groth16_memory_partial (w : World Cs Wit Srs Keys Proof) :
    benchMemoryGroth16 w = .ok ↔ ∃ cs wit keys proof, w.compile = some cs ∧ w.witness = some wit ∧ w.setupG cs = some keys ∧ w.prove cs keys wit = some proof := by
  unfold benchMemoryGroth16
  constructor
  · intro h
    split at h
    · simp at h
    split at h
    · simp at h
    split at h
    · simp at h
    split at h
    · simp at h
    exact ⟨_, _, _, _, by assumption, by assumption, by assumption, by assumption⟩
  · rintro ⟨cs, wit, keys, proof, h1, h2, h3, h4⟩
    simp [h1, h2, h3, h4]

/-- A world in which everything works except that the verifier rejects every proof. -/
def rejectingWorld : World Unit Unit Unit Unit Unit where
  openOk := true
  statOk := true
  headerOk := true
  rowOk := true
  compile := some ()
  nbConstraints := fun _ => 19467
  witness := some ()
  srs := fun _ => some ()
  setupG := fun _ => some ()
  setupP := fun _ _ => some ()
  prove := fun _ _ _ => some ()
  verify := fun _ _ _ => false
  times := (1, 2, 3, 4)

/-- **C60** (violated for Groth16) A Groth16 proof that the verifier rejects is recorded as a success: in the file, in the memory benchmark and in `BenchProof`; the PLONK
benchmarks report the failure and record nothing. -/
theorem C60_groth16_rejected_proof_recorded :
    (benchFileGroth16 rejectingWorld 5 1 [header] = ([header, row 5 1 19467 (1, 2, 3, 4)], .ok) ∧ benchMemoryGroth16 rejectingWorld = .ok ∧
      benchProof rejectingWorld (fun _ => rejectingWorld.prove) = .ok) ∧
    benchFilePlonk rejectingWorld 5 1 [header] = ([header], .error) ∧ benchMemoryPlonk rejectingWorld = .error := by
  refine ⟨⟨?_, ?_, ?_⟩, ?_, ?_⟩
  · rfl
  · rfl
  · rfl
  · rfl
  · rfl

/-- **C60** (violated) An error while building the witness is not reported by the two file benchmarks: they panic. The memory benchmarks report it. -/
theorem C60_witness_error (w : World Cs Wit Srs Keys Proof) (r i : ℤ) (file : List (List Char)) {cs : Cs} {srs : Srs} {kg kp : Keys} (h : w.witness = none) (hc : w.compile = some cs)
    (hg : w.setupG cs = some kg) (hs : w.srs cs = some srs) (hp : w.setupP cs (some srs) = some kp) (ho : w.openOk = true) (ht : w.statOk = true) (hh : w.headerOk = true) :
    (benchFileGroth16 w r i file).2 = .panicked ∧ (benchFilePlonk w r i file).2 = .panicked ∧ benchMemoryGroth16 w = .error ∧ benchMemoryPlonk w = .error := by
  unfold benchFileGroth16 benchFilePlonk benchMemoryGroth16 benchMemoryPlonk openFile
  by_cases h0 : file = [] <;> simp [h, hc, hg, hs, hp, ho, ht, hh, h0]

example : (benchFileGroth16 { rejectingWorld with witness := none } 5 1 []).2 = .panicked := rfl
/-- `C60_groth16_loop_partial`: one failing attempt of twenty is reported. -/
example : benchProof rejectingWorld (fun i _ _ _ => if i = 7 then none else some ()) = .error := rfl
example : (benchFilePlonk { rejectingWorld with verify := fun _ _ _ => true } 5 1 []).2 = .ok := rfl

/-! ### C61: the result file -/

/-- A line of the result file. -/
theorem C61_row (r i : ℤ) (nb : ℕ) (t : ℤ × ℤ × ℤ × ℤ) : row r i nb t = csv ([r, i, (nb : ℤ), t.1, t.2.1, t.2.2.1, t.2.2.2].map decimalInt) := row_csv r i nb t

/-- **C61** Different measurements give different lines. -/
theorem C61_row_injective {r i r' i' : ℤ} {nb nb' : ℕ} {t t' : ℤ × ℤ × ℤ × ℤ} (h : row r i nb t = row r' i' nb' t') : r = r' ∧ i = i' ∧ nb = nb' ∧ t = t' := by
  rw [row_csv, row_csv] at h
  have := csv_inj (by simp) (fun s hs => by
    obtain ⟨n, -, rfl⟩ := List.mem_map.1 hs
    exact fun c hc => (decimalInt_nocomma n c hc).1) (fun s hs => by
    obtain ⟨n, -, rfl⟩ := List.mem_map.1 hs
    exact fun c hc => (decimalInt_nocomma n c hc).1) h
  have := List.map_injective_iff.2 (fun a b h => decimalInt_inj h) this
  simp only [List.cons.injEq, and_true, Nat.cast_inj] at this
  exact ⟨this.1, this.2.1, this.2.2.1, Prod.ext this.2.2.2.1 (Prod.ext this.2.2.2.2.1 (Prod.ext this.2.2.2.2.2.1 this.2.2.2.2.2.2))⟩

/-- The measurement of a run, if it is successful when the file is not empty. -/
def Run.measured (q : Run Cs Wit Srs Keys Proof) : Option (List Char) :=
  if (q.exec [header]).2 = .ok then (q.world.compile).map (fun cs => row q.resolution q.index (q.world.nbConstraints cs) q.world.times) else none


/-- Whether a run finds or creates the header. -/
def Run.opens (q : Run Cs Wit Srs Keys Proof) : Bool := q.world.openOk && q.world.statOk && q.world.headerOk

theorem exec_nonempty (q : Run Cs Wit Srs Keys Proof) {f : List (List Char)} (h0 : f ≠ []) :
    q.exec f = (f ++ q.measured.toList, (q.exec [header]).2) := by
  unfold Run.measured Run.exec
  cases hp : q.plonk
  · simp only [Bool.false_eq_true, if_false]
    unfold benchFileGroth16 openFile
    cases h1 : q.world.openOk
    · simp
    cases h2 : q.world.statOk
    · simp
    cases h3 : q.world.compile with
    | none => simp [h0]
    | some cs =>
      cases h4 : q.world.setupG cs with
      | none => simp [h0, h4]
      | some keys =>
        cases h5 : q.world.witness with
        | none => simp [h0, h4]
        | some wit =>
          cases h6 : q.world.prove cs keys wit with
          | none => simp [h0, h4, h6]
          | some pf => cases h7 : q.world.rowOk <;> simp [h0, h4, h6]
  · simp only [if_true]
    unfold benchFilePlonk openFile
    cases h1 : q.world.openOk
    · simp
    cases h2 : q.world.statOk
    · simp
    cases h3 : q.world.compile with
    | none => simp [h0]
    | some cs =>
      cases hs : q.world.srs cs with
      | none => simp [h0, hs]
      | some srs =>
        cases h4 : q.world.setupP cs (some srs) with
        | none => simp [h0, hs, h4]
        | some keys =>
          cases h5 : q.world.witness with
          | none => simp [h0, hs, h4]
          | some wit =>
            cases h6 : q.world.prove cs keys wit with
            | none => simp [h0, hs, h4, h6]
            | some pf => cases h8 : q.world.verify pf keys wit <;> cases h7 : q.world.rowOk <;> simp [h0, hs, h4, h6, h8]

theorem exec_empty (q : Run Cs Wit Srs Keys Proof) : q.exec [] = if q.opens then q.exec [header] else ([], .error) := by
  unfold Run.opens Run.exec benchFileGroth16 benchFilePlonk openFile
  cases h1 : q.world.openOk
  · simp
  cases h2 : q.world.statOk
  · simp
  cases h3 : q.world.headerOk <;> simp

/-- **C61** A file that has its header grows by exactly the measurements of the successful runs, in order, until a run panics. -/
theorem C61_file_rows (rs : List (Run Cs Wit Srs Keys Proof)) (old : List (List Char)) :
    execAll rs (header :: old) = header :: old ++ (rs.takeWhile (fun q => decide ((q.exec [header]).2 ≠ .panicked))).filterMap Run.measured := by
  induction rs generalizing old with
  | nil => simp [execAll]
  | cons q rs ih =>
    rw [execAll, exec_nonempty q (by simp)]
    cases ho : (q.exec [header]).2 with
    | panicked =>
      have : q.measured = none := by unfold Run.measured; rw [ho]; simp
      simp [this, ho]
    | ok =>
      simp only [List.cons_append]
      rw [ih, List.takeWhile_cons_of_pos (by simp [ho])]
      cases hm : q.measured <;> simp [hm]
    | error =>
      simp only [List.cons_append]
      rw [ih, List.takeWhile_cons_of_pos (by simp [ho])]
      cases hm : q.measured <;> simp [hm]

/-- **C61** An empty (or new) file gets its header from the first run that can open it and write to it, and then grows in the same way: the header is written exactly once. -/
theorem C61_file_header (rs : List (Run Cs Wit Srs Keys Proof)) :
    execAll rs [] = if rs.dropWhile (fun q => !q.opens) = [] then [] else execAll (rs.dropWhile (fun q => !q.opens)) [header] := by
  induction rs with
  | nil => simp [execAll]
  | cons q rs ih =>
    rw [execAll, exec_empty]
    cases ho : q.opens with
    | false =>
      simp only [Bool.false_eq_true, if_false]
      rw [ih, List.dropWhile_cons_of_pos (by simp [ho])]
    | true =>
      rw [List.dropWhile_cons_of_neg (by simp [ho]), if_neg (List.cons_ne_nil _ _), if_pos rfl, execAll]

/-- Two successful runs and a rejected PLONK proof. -/
example : execAll [⟨false, rejectingWorld, 0, 1⟩, ⟨true, rejectingWorld, 0, 2⟩, ⟨false, rejectingWorld, 0, 3⟩] [] =
    [header, "0, 1, 19467, 1, 2, 3, 4".toList, "0, 3, 19467, 1, 2, 3, 4".toList] := by decide +kernel

/-! ### C62: the indices of the entries -/

theorem indicesAux_spec : ∀ (rs : List ℤ) (counts : ℤ → ℕ), indicesAux counts rs = (List.range rs.length).map (fun m => counts (rs.getD m 0) + (rs.take (m + 1)).count (rs.getD m 0))
  | [], _ => rfl
  | r :: rs, counts => by
    rw [indicesAux, indicesAux_spec rs, List.length_cons, List.range_succ_eq_map, List.map_cons, List.map_map]
    simp only [List.getD_cons_zero, List.take_succ_cons, List.take_zero, List.count_cons_self, List.count_nil, Function.update_self, zero_add]
    congr 1
    apply List.map_congr_left
    intro m _
    simp only [Function.comp, List.getD_cons_succ, List.count_cons]
    by_cases h : r = rs.getD m 0
    · rw [← h]; simp; omega
    · rw [Function.update_of_ne (Ne.symm h), if_neg (by simpa using h)]; simp

/-- **C62** The index of an entry is the number of entries with the same resolution up to and including it. -/
theorem C62_index (rs : List ℤ) (m : ℕ) (h : m < rs.length) : (indices rs)[m]? = some ((rs.take (m + 1)).count rs[m]) := by
  unfold indices
  rw [indicesAux_spec, List.getElem?_map, List.getElem?_range h]
  simp [List.getD_eq_getElem?_getD, h]

/-- **C62** As many indices as entries. -/
theorem C62_length (rs : List ℤ) : (indices rs).length = rs.length := by unfold indices; rw [indicesAux_spec]; simp

/-- **C62** Resolution and index together identify an entry. -/
theorem C62_distinct (rs : List ℤ) {m n : ℕ} (hm : m < rs.length) (hn : n < rs.length) (hr : rs[m] = rs[n]) (hi : (indices rs)[m]? = (indices rs)[n]?) : m = n := by
  rw [C62_index rs m hm, C62_index rs n hn, ← hr] at hi
  simp only [Option.some.injEq] at hi
  by_contra hne
  rcases lt_or_gt_of_ne hne with h | h
  · have h2 : (rs.take (n + 1)).count rs[m] = (rs.take n).count rs[m] + 1 := by
      rw [List.take_succ_eq_append_getElem hn, List.count_append, ← hr]; simp
    have h3 : (rs.take (m + 1)).count rs[m] ≤ (rs.take n).count rs[m] := ((List.take_prefix_take_left (by omega)).sublist).count_le _
    omega
  · have h2 : (rs.take (m + 1)).count rs[m] = (rs.take m).count rs[m] + 1 := by
      rw [List.take_succ_eq_append_getElem hm, List.count_append]; simp
    have h3 : (rs.take (n + 1)).count rs[m] ≤ (rs.take m).count rs[m] := ((List.take_prefix_take_left (by omega)).sublist).count_le _
    omega

example : indices [0, 0, 3, 0, 3] = [1, 2, 1, 3, 2] := by decide +kernel

/-! ### C63: the test-data files -/

/-- **C63** What `SetString` accepts: an optional sign and at least one hexadecimal digit. -/
theorem C63_setString {s : List Char} {v : ℤ} : setString16 s = some v ↔
    ∃ (t : List Char) (n : ℕ), t ≠ [] ∧ HexDenotes t n ∧ ((s = t ∨ s = '+' :: t) ∧ v = n ∨ s = '-' :: t ∧ v = -n) := by
  constructor
  · intro h
    cases s with
    | nil => simp [setString16] at h
    | cons c s =>
      rw [setString16] at h
      split_ifs at h with h1 h2 h3 h4
      · obtain ⟨n, hn, rfl⟩ := Option.map_eq_some_iff.1 h
        exact ⟨s, n, h2, hexNat_iff.1 hn, .inr ⟨by rw [h1], rfl⟩⟩
      · obtain ⟨n, hn, rfl⟩ := Option.map_eq_some_iff.1 h
        exact ⟨s, n, h4, hexNat_iff.1 hn, .inl ⟨.inr (by rw [h3]), rfl⟩⟩
      · obtain ⟨n, hn, rfl⟩ := Option.map_eq_some_iff.1 h
        exact ⟨c :: s, n, by simp, hexNat_iff.1 hn, .inl ⟨.inl rfl, rfl⟩⟩
  · rintro ⟨t, n, h0, h, ⟨rfl | rfl, rfl⟩ | ⟨rfl, rfl⟩⟩
    · exact setString16_nat h0 h
    · simp [setString16, h0, hexNat_iff.2 h]
    · simp [setString16, h0, hexNat_iff.2 h]

theorem formatPadded_ne_nil (w n : ℕ) : formatPadded w n ≠ [] := by simp [formatPadded, formatUpper_ne_nil]

/-- One line. -/
theorem readEntry_line (w lat lng res i j k : ℕ) : ∃ l : List Char, writeLine w lat lng res i j k = l ++ ['\n'] ∧ '\n' ∉ l ∧ l.getLast? ≠ some '\r' ∧
    readEntry l = some ⟨lat, lng, res, i, j, k⟩ := by
  refine ⟨formatPadded w lat ++ ' ' :: (formatPadded w lng ++ ' ' :: (formatUpper res ++ ' ' :: (formatUpper i ++ ' ' :: (formatUpper j ++ ' ' :: formatUpper k)))), ?_, ?_, ?_, ?_⟩
  · simp [writeLine]
  · have hp := fun n => hexDenotes_chars (formatPadded_denotes w n)
    have hu := fun n => hexDenotes_chars (formatUpper_denotes n)
    have h1 : ∀ n, '\n' ∉ formatPadded w n := fun n h => (hp n _ h).2.2.2.1 rfl
    have h2 : ∀ n, '\n' ∉ formatUpper n := fun n h => (hu n _ h).2.2.2.1 rfl
    simp [h1, h2]
  · have h : ∀ (a : List Char), (a ++ formatUpper k).getLast? = (formatUpper k).getLast? := fun a => by
      rw [List.getLast?_append]
      cases hh : (formatUpper k).getLast? with
      | none => exact absurd (List.getLast?_eq_none_iff.1 hh) (formatUpper_ne_nil k)
      | some c => rfl
    have e : formatPadded w lat ++ ' ' :: (formatPadded w lng ++ ' ' :: (formatUpper res ++ ' ' :: (formatUpper i ++ ' ' :: (formatUpper j ++ ' ' :: formatUpper k)))) =
      (formatPadded w lat ++ ' ' :: (formatPadded w lng ++ ' ' :: (formatUpper res ++ ' ' :: (formatUpper i ++ ' ' :: (formatUpper j ++ [' ']))))) ++ formatUpper k := by simp
    rw [e, h]
    intro hh
    exact (hexDenotes_chars (formatUpper_denotes k) _ (List.mem_of_getLast? hh)).2.2.2.2 rfl
  · have hp := fun n x hx => (hexDenotes_chars (formatPadded_denotes w n) x hx).1
    have hu := fun n x hx => (hexDenotes_chars (formatUpper_denotes n) x hx).1
    have hs : isSpace ' ' = true := by decide
    unfold readEntry
    rw [fields_word (hp lat) hs (formatPadded_ne_nil w lat), fields_word (hp lng) hs (formatPadded_ne_nil w lng), fields_word (hu res) hs (formatUpper_ne_nil res),
      fields_word (hu i) hs (formatUpper_ne_nil i), fields_word (hu j) hs (formatUpper_ne_nil j), fields_end (hu k) (formatUpper_ne_nil k)]
    simp [setString16_nat (formatPadded_ne_nil w _) (formatPadded_denotes w _), setString16_nat (formatUpper_ne_nil _) (formatUpper_denotes _)]

/-- **C63** The tests and benchmarks read back exactly the entries that the generator wrote, in order. -/
theorem C63_roundtrip (w : ℕ) (l : List (ℕ × ℕ × ℕ × ℕ × ℕ × ℕ)) :
    readEntries (l.flatMap (fun q => writeLine w q.1 q.2.1 q.2.2.1 q.2.2.2.1 q.2.2.2.2.1 q.2.2.2.2.2)) =
      some (l.map (fun q => ⟨q.1, q.2.1, q.2.2.1, q.2.2.2.1, q.2.2.2.2.1, q.2.2.2.2.2⟩)) := by
  unfold readEntries
  induction l with
  | nil => rfl
  | cons q l ih =>
    obtain ⟨t, h1, h2, h3, h4⟩ := readEntry_line w q.1 q.2.1 q.2.2.1 q.2.2.2.1 q.2.2.2.2.1 q.2.2.2.2.2
    rw [List.flatMap_cons, h1, List.append_assoc, List.singleton_append, scanLines_line h2 h3, List.mapM_cons, h4, ih]
    rfl

/-- **C63** (violated for the other writer) A file of `WriteHexCellsToFile` with at least one cell is not a location test file: its lines have two fields. -/
theorem C63_hexcells_unreadable (lat lon : ℕ) (rest : List Char) : readEntries (hexLine lat lon ++ rest) = none := by
  have hs : isSpace ' ' = true := by decide
  have hn := fun n => hexDenotes_chars (formatHex_denotes n)
  have e : hexLine lat lon ++ rest = (floatToHex lat ++ ' ' :: floatToHex lon) ++ '\n' :: rest := by simp [hexLine]
  have h1 : ∀ n, '\n' ∉ floatToHex n := fun n h => (hn n _ h).2.2.2.1 rfl
  have h2 : (floatToHex lat ++ ' ' :: floatToHex lon).getLast? ≠ some '\r' := by
    intro hh
    have := List.mem_of_getLast? hh
    rw [List.mem_append, List.mem_cons] at this
    rcases this with h | h | h
    · exact (hn lat _ h).2.2.2.2 rfl
    · simp at h
    · exact (hn lon _ h).2.2.2.2 rfl
  unfold readEntries
  rw [e, scanLines_line (by simp [h1]) h2, List.mapM_cons]
  have : readEntry (floatToHex lat ++ ' ' :: floatToHex lon) = none := by
    unfold readEntry
    rw [floatToHex, floatToHex, fields_word (fun x hx => (hn lat x hx).1) hs (formatUint_ne_nil 16 lat), fields_end (fun x hx => (hn lon x hx).1) (formatUint_ne_nil 16 lon)]
  rw [this]; rfl

example : writeLine 8 0x3F311FBF 0x3F35A99C 0 1 0 1 = "3F311FBF 3F35A99C 0 1 0 1\n".toList := by decide +kernel

/-! ### C64: the table of test results -/

/-- The state in the middle of a log: `done` are the outcomes of the current resolution that have been read, `G` the outcomes to come, by resolution. -/
structure Mid (cases : ℕ → Option ℕ) (st : Scan) (done : List Bool) (G : List (List Bool)) : Prop where
  skip : st.skip = 0
  test : st.test = done.length
  last : G = [] → done = []
  nonempty : ∀ g ∈ G, g ≠ []
  head : ∀ g ∈ G.head?, cases st.res = some (done.length + g.length) ∧ st.results st.res = some (done ++ List.replicate g.length true)
  tail : ∀ (m : ℕ) (g : List Bool), G[m + 1]? = some g → cases (st.res + (m + 1)) = some g.length ∧ st.results (st.res + (m + 1)) = some (List.replicate g.length true)

/-- What the colours will be. -/
def final (st : Scan) (done : List Bool) (G : List (List Bool)) (r : ℕ) : Option (List Bool) :=
  if st.res ≤ r then
    match G[r - st.res]? with
    | some g => some ((if r = st.res then done else []) ++ g)
    | none => st.results r
  else st.results r

theorem final_done {cases : ℕ → Option ℕ} {st : Scan} {done : List Bool} {G : List (List Bool)} (h : Mid cases st done G) (hG : G = []) : final st done G = st.results := by
  funext r
  subst hG
  unfold final
  simp

/-- Reading one outcome. -/
theorem mid_step {cases : ℕ → Option ℕ} {maxKey : ℕ} (hmax : ∀ r, cases r ≠ none → r ≤ maxKey) {st : Scan} {done g : List Bool} {o : Bool} {G : List (List Bool)}
    (h : Mid cases st done ((o :: g) :: G)) : ∃ st' done' G', advance cases { st with test := st.test + 1, results := Function.update st.results st.res (some (done ++ o :: List.replicate g.length true)) } = some st' ∧
      Mid cases st' done' G' ∧ G'.flatten = g ++ G.flatten ∧ final st' done' G' = final st done ((o :: g) :: G) ∧ ¬ (maxKey < st'.res ∧ st'.test = 9) := by
  obtain ⟨h1, h2⟩ := h.head (o :: g) (by simp)
  have hr : st.res ≤ maxKey := hmax _ (by rw [h1]; simp)
  cases g with
  | nil =>
    refine ⟨⟨Function.update st.results st.res (some (done ++ [o])), 0, st.res + 1, st.skip⟩, [], G, ?_, ?_, ?_, ?_, ?_⟩
    · unfold advance
      simp only [h1]
      rw [if_pos (by simp [h.test])]
      simp
    · refine ⟨h.skip, rfl, fun _ => rfl, fun g hg => h.nonempty g (by simp [hg]), fun g hg => ?_, fun m g hg => ?_⟩
      · have := h.tail 0 g (by cases G <;> simp_all)
        simp only [List.length_nil, zero_add, List.nil_append]
        rw [Function.update_of_ne (by omega)]
        exact this
      · have := h.tail (m + 1) g (by simpa using hg)
        simp only
        rw [show st.res + 1 + (m + 1) = st.res + (m + 1 + 1) by omega, Function.update_of_ne (by omega)]
        exact this
    · simp
    · funext r
      unfold final
      simp only
      rcases lt_trichotomy r st.res with hlt | rfl | hgt
      · rw [if_neg (by omega), if_neg (by omega), Function.update_of_ne (by omega)]
      · rw [if_neg (by omega), if_pos (by omega)]; simp
      · obtain ⟨m, rfl⟩ := Nat.exists_eq_add_of_lt hgt
        rw [if_pos (by omega : st.res + 1 ≤ st.res + m + 1), if_pos (by omega : st.res ≤ st.res + m + 1), show st.res + m + 1 - (st.res + 1) = m by omega, show st.res + m + 1 - st.res = m + 1 by omega, List.getElem?_cons_succ,
          Function.update_of_ne (by omega), if_neg (by omega : ¬ st.res + m + 1 = st.res)]
        simp
    · simp
  | cons o' g =>
    refine ⟨⟨Function.update st.results st.res (some (done ++ o :: List.replicate (o' :: g).length true)), st.test + 1, st.res, st.skip⟩, done ++ [o], (o' :: g) :: G, ?_, ?_, ?_, ?_, ?_⟩
    · unfold advance
      simp only [h1]
      rw [if_neg (by simp [h.test])]
    · refine ⟨h.skip, by simp [h.test], by simp, fun x hx => ?_, fun x hx => ?_, fun m x hx => ?_⟩
      · rcases List.mem_cons.1 hx with rfl | hx
        · simp
        · exact h.nonempty x (by simp [hx])
      · simp only [List.head?_cons, Option.mem_some_iff] at hx
        subst hx
        refine ⟨by rw [h1]; simp; omega, by simp⟩
      · have := h.tail m x (by simpa using hx)
        simp only
        rw [Function.update_of_ne (by omega)]
        exact this
    · simp
    · funext r
      unfold final
      simp only
      split_ifs with h3 h4
      · subst h4; simp
      · obtain ⟨m, hm⟩ : ∃ m, r = st.res + (m + 1) := ⟨r - st.res - 1, by omega⟩
        subst hm
        rw [show st.res + (m + 1) - st.res = m + 1 by omega, List.getElem?_cons_succ, List.getElem?_cons_succ, Function.update_of_ne (by omega)]
      · rw [Function.update_of_ne (by omega)]
    · simp only; omega

theorem scan_skip {pass fail : List Char} {cases : ℕ → Option ℕ} {maxKey : ℕ} {st : Scan} {n : ℕ} {a : List Char} {ls : List (List Char)} :
    scanLog pass fail cases maxKey { st with skip := n + 1 } (a :: ls) = scanLog pass fail cases maxKey { st with skip := n } ls := by
  rw [scanLog, scanLine]
  simp

theorem advance_skip {cases : ℕ → Option ℕ} {st st' : Scan} {n : ℕ} (h : advance cases st = some st') : advance cases { st with skip := n } = some { st' with skip := n } := by
  unfold advance at h ⊢
  simp only at h ⊢
  cases hc : cases st.res with
  | none => rw [hc] at h; simp at h
  | some k =>
    rw [hc] at h
    simp only [Option.some.injEq] at h ⊢
    subst h
    split_ifs <;> rfl

/-- Reading a log. -/
theorem scan_log {pass fail : List Char} {cases : ℕ → Option ℕ} {maxKey : ℕ} (hmax : ∀ r, cases r ≠ none → r ≤ maxKey) {os : List Bool} {ls : List (List Char)}
    (hl : Log pass fail os ls) : ∀ {st : Scan} {done : List Bool} {G : List (List Bool)}, Mid cases st done G → os = G.flatten →
      ∃ st', scanLog pass fail cases maxKey st ls = some st' ∧ st'.results = final st done G := by
  induction hl with
  | nil =>
    intro st done G h ho
    have : G = [] := by
      cases G with
      | nil => rfl
      | cons g G =>
        have := h.nonempty g (by simp)
        simp at ho
        exact absurd ho.1 this
    exact ⟨st, rfl, (final_done h this).symm⟩
  | @other os ls l h1 h2 _ ih =>
    intro st done G h ho
    obtain ⟨st', h3, h4⟩ := ih h ho
    refine ⟨st', ?_, h4⟩
    have hb : ¬ (maxKey < st.res ∧ st.test = 9) := by
      rintro ⟨hb, ht⟩
      cases G with
      | nil => have := h.test; rw [h.last rfl] at this; simp at this; omega
      | cons g G => exact absurd (hmax st.res (by rw [(h.head g (by simp)).1]; simp)) (by omega)
    rw [scanLog, scanLine, if_neg (by have := h.skip; omega), if_neg h1, if_neg h2]
    simp only [Option.pure_def, Option.bind_eq_bind, Option.bind_some, hb, decide_false]
    exact h3
  | @report o os r ls hr _ ih =>
    intro st done G h ho
    obtain ⟨g, G', rfl⟩ : ∃ g G', G = g :: G' := by
      cases G with
      | nil => simp at ho
      | cons g G => exact ⟨g, G, rfl⟩
    obtain ⟨o', g, rfl⟩ : ∃ o' g', g = o' :: g' := by
      cases g with
      | nil => exact absurd rfl (h.nonempty [] (by simp))
      | cons o g => exact ⟨o, g, rfl⟩
    simp only [List.flatten_cons, List.cons_append, List.cons.injEq] at ho
    obtain ⟨rfl, ho⟩ := ho
    obtain ⟨st', done', G'', h1, h2, h3, h4, h5⟩ := mid_step hmax h
    obtain ⟨st'', h6, h7⟩ := ih h2 (by rw [h3, ho])
    refine ⟨st'', ?_, by rw [h7, h4]⟩
    have hres := (h.head (o :: g) (by simp)).2
    cases hr with
    | @pass l a b hp =>
      have e : Function.update st.results st.res (some (done ++ true :: List.replicate g.length true)) = st.results := by
        rw [show done ++ true :: List.replicate g.length true = done ++ List.replicate (true :: g).length true by simp [List.replicate_succ], ← hres, Function.update_eq_self]
      rw [e] at h1
      have h1' := advance_skip (n := 2) h1
      simp only at h1'
      rw [List.cons_append, scanLog, scanLine, if_neg (by have := h.skip; omega), if_pos hp, h1']
      simp only [Option.pure_def, Option.bind_eq_bind, Option.bind_some, h5, decide_false]
      rw [List.cons_append, List.cons_append, List.nil_append, scan_skip, scan_skip]
      have : ({ st' with skip := 0 } : Scan) = st' := by rw [← h2.skip]
      rw [this]; exact h6
    | @fail l hf hnp =>
      rw [List.cons_append, scanLog, scanLine, if_neg (by have := h.skip; omega), if_neg hnp, if_pos hf]
      simp only [hres]
      have e : (done ++ List.replicate (false :: g).length true).set st.test false = done ++ false :: List.replicate g.length true := by
        rw [h.test, List.length_cons, List.replicate_succ, List.set_append_right _ _ (le_refl _)]
        simp
      rw [e, h1]
      simp only [Option.pure_def, Option.bind_eq_bind, Option.bind_some, h5, decide_false, List.nil_append]
      exact h6

/-- **C64** On a log that reports the outcome of every test, in order of the resolutions, the script finds exactly these outcomes, whatever other lines the log contains. Every
resolution from zero on has at least one test. -/
theorem C64_table_exact {pass fail : List Char} {os : List (List Bool)} (h0 : ∀ o ∈ os, o ≠ []) {log : List (List Char)} (h : Log pass fail os.flatten log) :
    readTestResults pass fail (fun r => os[r]?.map List.length) (os.length - 1) log = some (fun r => os[r]?) := by
  unfold readTestResults
  have hm : Mid (fun r => os[r]?.map List.length) ⟨fun r => (os[r]?.map List.length).map (fun n => List.replicate n true), 0, 0, 0⟩ [] os := by
    refine ⟨rfl, rfl, fun _ => rfl, h0, fun g hg => ?_, fun m g hg => ?_⟩
    · cases os with
      | nil => simp at hg
      | cons o os => simp at hg; subst hg; simp
    · simp [hg]
  obtain ⟨st', h1, h2⟩ := scan_log (maxKey := os.length - 1) (fun r hr => by
    by_contra hh
    rw [List.getElem?_eq_none (by omega)] at hr
    simp at hr) h hm rfl
  rw [h1, Option.map_some, h2]
  congr 1
  funext r
  unfold final
  simp only [Nat.zero_le, if_true, Nat.sub_zero]
  cases hr : os[r]? with
  | none => simp [hr]
  | some o => simp

theorem scan_unmatched {pass fail : List Char} {cases : ℕ → Option ℕ} {maxKey : ℕ} : ∀ {log : List (List Char)} {st : Scan}, (∀ l ∈ log, ¬ pass <:+: l ∧ ¬ fail <:+: l) → st.skip = 0 → st.test = 0 →
    scanLog pass fail cases maxKey st log = some st
  | [], st, _, _, _ => rfl
  | l :: ls, st, h, hs, ht => by
    rw [scanLog, scanLine, if_neg (by omega), if_neg (h l (by simp)).1, if_neg (h l (by simp)).2]
    simp only [Option.pure_def, Option.bind_eq_bind, Option.bind_some, ht]
    rw [show decide (maxKey < st.res ∧ 0 = 9) = false by simp]
    exact scan_unmatched (fun x hx => h x (by simp [hx])) hs ht

/-- **C64** (violated) On a log in which the texts searched for do not occur, every test is green, whatever the log says. The row of the table for double precision is produced by searching the
log of `TestLoc2Index64` for the results of `TestLoc2Index32`. -/
theorem C64_unmatched_log_green {pass fail : List Char} (cases : ℕ → Option ℕ) (maxKey : ℕ) {log : List (List Char)} (h : ∀ l ∈ log, ¬ pass <:+: l ∧ ¬ fail <:+: l) :
    readTestResults pass fail cases maxKey log = some (fun r => (cases r).map (fun n => List.replicate n true)) := by
  unfold readTestResults
  rw [scan_unmatched h rfl rfl]; rfl

/-- **C64** (violated) A concrete log of the double-precision test in which every test fails: the table shows every test as passed. -/
theorem C64_double_precision_row_always_green :
    (readTestResults pass32 fail32 (fun r => if r = 0 then some 2 else none) 0
      ["--- FAIL: TestLoc2Index64 (26.53s)".toList, "    --- FAIL: TestLoc2Index64/bn254 (0.00s)".toList, "    --- FAIL: TestLoc2Index64/bn254#01 (0.00s)".toList]).map (fun f => f 0) =
      some (some [true, true]) := by
  rw [C64_unmatched_log_green]
  · rfl
  · decide +kernel

/-- The lines of the single-precision log. -/
example : (readTestResults pass32 fail32 (fun r => [[true, false], [false]][r]?.map List.length) 1
    ["--- FAIL: TestLoc2Index32 (26.53s)".toList, "    --- PASS: TestLoc2Index32/bn254 (0.22s)".toList, "        --- PASS: TestLoc2Index32/bn254/groth16 (0.19s)".toList,
      "            --- PASS: TestLoc2Index32/bn254/groth16/valid_witness (0.02s)".toList, "    --- FAIL: TestLoc2Index32/bn254#01 (0.00s)".toList,
      "    --- FAIL: TestLoc2Index32/bn254#02 (0.00s)".toList, "FAIL".toList]) = some (fun r => [[true, false], [false]][r]?) := by
  apply C64_table_exact (os := [[true, false], [false]]) (by decide)
  refine .other (by decide +kernel) (by decide +kernel) ?_
  exact .report (r := [_, _, _]) (.pass (by decide +kernel)) (.report (r := [_]) (.fail (by decide +kernel) (by decide +kernel)) (.report (r := [_]) (.fail (by decide +kernel) (by decide +kernel))
    (.other (by decide +kernel) (by decide +kernel) .nil)))

/-! ### C65: the output of the H3 executables -/

theorem lit_head_ne {c : Char} {s : List Char} (h : c ≠ '-') : lit ['-', '-', '-', ' '] (c :: s) = none := by
  rw [lit, if_neg (Ne.symm h)]

theorem parseIndex_skip : ∀ {pre s : List Char}, '-' ∉ pre → parseIndex (pre ++ s) = parseIndex s
  | [], _, _ => rfl
  | c :: pre, s, h => by
    rw [List.cons_append, parseIndex, lit_head_ne (by rintro rfl; simp at h)]
    exact parseIndex_skip (by simp at h ⊢; tauto)

/-- **C65** An index printed after the first dashes is found, whole. -/
theorem C65_parse_index {pre idx post : List Char} (hp : '-' ∉ pre) (h0 : idx ≠ []) (hw : ∀ c ∈ idx, isWord c = true) (he : ∀ c ∈ post.head?, isWord c = false) :
    parseIndex (pre ++ "--- ".toList ++ idx ++ post) = some idx := by
  rw [List.append_assoc, List.append_assoc, parseIndex_skip hp]
  have e : "--- ".toList ++ (idx ++ post) = '-' :: ('-' :: '-' :: ' ' :: (idx ++ post)) := rfl
  rw [e, parseIndex]
  have h1 : lit ['-', '-', '-', ' '] ('-' :: '-' :: '-' :: ' ' :: (idx ++ post)) = some (idx ++ post) := lit_append ['-', '-', '-', ' '] (idx ++ post)
  rw [h1, Option.bind_some, run1_append h0 hw he]

/-- **C65** Only word characters are ever returned, and never an empty index. -/
theorem C65_index_word : ∀ {s w : List Char}, parseIndex s = some w → w ≠ [] ∧ ∀ c ∈ w, isWord c = true
  | [], w, h => by simp [parseIndex] at h
  | c :: s, w, h => by
    rw [parseIndex] at h
    cases hm : (lit ['-', '-', '-', ' '] (c :: s)).bind (run1 isWord) with
    | none => rw [hm] at h; exact C65_index_word h
    | some q =>
      rw [hm] at h
      obtain ⟨t, -, ht⟩ := Option.bind_eq_some_iff.1 hm
      simp only [Option.some.injEq] at h
      subst h
      unfold run1 at ht
      split_ifs at ht with h0
      simp only [Option.some.injEq] at ht
      subst ht
      exact ⟨h0, fun c hc => (List.all_eq_true.1 (List.all_takeWhile (p := isWord) (l := t))) c hc⟩

/-- **C65** The centre of a cell: two numbers separated and surrounded by white space are handed on unchanged, with their signs. -/
theorem C65_parse_centre {pre mid post a c : List Char} (hpre : ∀ x ∈ pre, isSpace x = true) (hmid : mid ≠ []) (hm : ∀ x ∈ mid, isSpace x = true) (hpost : ∀ x ∈ post, isSpace x = true)
    (ha : a ≠ []) (ha' : ∀ x ∈ a, isSpace x = false) (hc : c ≠ []) (hc' : ∀ x ∈ c, isSpace x = false) : parseLatLng (pre ++ a ++ mid ++ c ++ post) = some (a, c) := by
  have skip : ∀ {w s : List Char}, (∀ x ∈ w, isSpace x = true) → fields (w ++ s) = fields s := by
    intro w s hw
    induction w with
    | nil => rfl
    | cons x w ih => rw [List.cons_append, fields_space (hw x (by simp))]; exact ih (fun y hy => hw y (by simp [hy]))
  have h2 : ∃ l, fields (c ++ post) = c :: l := by
    cases post with
    | nil => rw [List.append_nil, fields_end hc' hc]; exact ⟨[], rfl⟩
    | cons x post => rw [fields_word hc' (hpost x (by simp)) hc]; exact ⟨_, rfl⟩
  obtain ⟨l, h2⟩ := h2
  unfold parseLatLng
  rw [show pre ++ a ++ mid ++ c ++ post = pre ++ (a ++ (mid ++ (c ++ post))) by simp, skip hpre]
  cases mid with
  | nil => simp at hmid
  | cons x mid =>
    rw [List.cons_append, fields_word ha' (hm x (by simp)) ha, skip (fun y hy => hm y (by simp [hy])), h2]

example : parseIndex "IJK\n--- 852a1072fffffff\n".toList = some "852a1072fffffff".toList := by decide +kernel
example : parseLatLng "40.68 -74.04\n".toList = some ("40.68".toList, "-74.04".toList) := by decide +kernel

end ZkLoc.Bench
