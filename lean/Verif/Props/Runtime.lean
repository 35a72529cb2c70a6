import Verif.RuntimeSpec
import Verif.Props.Bench

/-!
# Property C81: the evaluation of the measurements
-/

namespace ZkLoc.Runtime

open ZkLoc.Bench ZkLoc.Text _root_.Text Report

variable {Cs Wit Srs Keys Proof : Type}

/-! ### The statistics of a column -/

/-- **C81** What is shown for a column with entries: their number, average, smallest and largest entry, and quartiles. -/
theorem C81_describe {xs : List ℚ} (h : xs ≠ []) : (describe xs).count = xs.length ∧ (∃ m, (describe xs).mean = some m ∧ Stat.IsMean xs m) ∧
    (∃ m, (describe xs).least = some m ∧ Stat.IsLeast xs m) ∧ (∃ m, (describe xs).greatest = some m ∧ Stat.IsGreatest xs m) ∧
    (∃ v, (describe xs).quarter = some v ∧ Stat.IsQuantile xs (1 / 4) v) ∧ (∃ v, (describe xs).half = some v ∧ Stat.IsQuantile xs (1 / 2) v) ∧
    ∃ v, (describe xs).threeQuarters = some v ∧ Stat.IsQuantile xs (3 / 4) v := by
  have hp := sort_perm xs
  have hs := sort_sorted xs
  refine ⟨rfl, ⟨average xs, ?_, ?_⟩, head_least hp hs h, last_greatest hp hs h, quantile_spec h hp hs (by norm_num) (by norm_num), quantile_spec h hp hs (by norm_num) (by norm_num),
    quantile_spec h hp hs (by norm_num) (by norm_num)⟩
  · unfold describe
    simp only [if_neg h]
  · unfold Stat.IsMean average
    have : (xs.length : ℚ) ≠ 0 := by
      have := List.length_pos_of_ne_nil h
      exact_mod_cast this.ne'
    field_simp

/-- **C81** The square of the standard deviation of two or more entries; there is none for a single entry. -/
theorem C81_variance (xs : List ℚ) : (1 < xs.length → ∃ v, (describe xs).variance = some v ∧ Stat.IsVariance xs v) ∧ (xs.length = 1 → (describe xs).variance = none) := by
  refine ⟨fun h => ⟨_, ?_, variance_spec h⟩, fun h => ?_⟩
  · unfold describe
    simp only [if_neg (not_le.2 h)]
  · unfold describe
    simp only [if_pos h.le]

theorem count_sorted {s : List ℚ} (hs : s.Pairwise (· ≤ ·)) {i : ℕ} (hi : i < s.length) : s.countP (fun x => decide (x < s[i])) ≤ i ∧ s.countP (fun x => decide (s[i] < x)) ≤ s.length - 1 - i := by
  have e : s = s.take i ++ s[i] :: s.drop (i + 1) := by rw [List.cons_getElem_drop_succ, List.take_append_drop]
  generalize s[i] = a at e ⊢
  have hl : (s.take i).length = i := by rw [List.length_take]; omega
  have hd : (s.drop (i + 1)).length = s.length - 1 - i := by rw [List.length_drop]; omega
  generalize s.take i = t at e hl
  generalize s.drop (i + 1) = d at e hd
  have hp := hs
  rw [e] at hp
  obtain ⟨h1, h2, h3⟩ := List.pairwise_append.1 hp
  have h2 := (List.pairwise_cons.1 h2).1
  constructor
  · have hz : d.countP (fun x => decide (x < a)) = 0 := List.countP_eq_zero.2 (fun x hx => by rw [decide_eq_true_eq, not_lt]; exact h2 x hx)
    rw [e, List.countP_append, List.countP_cons_of_neg (by rw [decide_eq_true_eq]; exact lt_irrefl a), hz]
    have := List.countP_le_length (p := fun x => decide (x < a)) (l := t)
    omega
  · rw [← hd]
    have hz : t.countP (fun x => decide (a < x)) = 0 := List.countP_eq_zero.2 (fun x hx => by rw [decide_eq_true_eq, not_lt]; exact h3 x hx a (by simp))
    conv_lhs => rw [e]
    rw [List.countP_append, List.countP_cons_of_neg (by rw [decide_eq_true_eq]; exact lt_irrefl a), hz]
    have := List.countP_le_length (p := fun x => decide (a < x)) (l := d)
    omega

theorem quantile_nine {xs : List ℚ} (h : xs.length = 9) {q : ℚ} {i : ℕ} (hq : q * 8 = i) (hi : i < 9) {v : ℚ}
    (hv : quantile q (xs.insertionSort (· ≤ ·)) = some v) : v ∈ xs ∧ xs.countP (fun x => decide (x < v)) ≤ i ∧ xs.countP (fun x => decide (v < x)) ≤ 8 - i := by
  have hp := sort_perm xs
  have hs := sort_sorted xs
  generalize xs.insertionSort (· ≤ ·) = s at *
  have hl : s.length = 9 := hp.length_eq.trans h
  unfold quantile at hv
  have e : q * ((s.length : ℚ) - 1) = i := by rw [hl, ← hq]; norm_num
  simp only [e, Nat.floor_natCast, sub_self, zero_mul, add_zero] at hv
  rw [List.getElem?_eq_getElem (by omega)] at hv
  simp only [Option.some.injEq] at hv
  subst hv
  have := count_sorted hs (i := i) (by omega)
  have h8 : s.length - 1 - i = 8 - i := by omega
  rw [h8] at this
  exact ⟨hp.mem_iff.1 (List.getElem_mem _), by rw [← hp.countP_eq]; exact this.1, by rw [← hp.countP_eq]; exact this.2⟩

/-- **C81** For nine entries, as for each resolution of a complete benchmark, the quartiles are measured values: at most two, four, six entries are smaller, at most six, four, two are larger. -/
theorem C81_nine {xs : List ℚ} (h : xs.length = 9) :
    (∀ v ∈ (describe xs).quarter, v ∈ xs ∧ xs.countP (fun x => decide (x < v)) ≤ 2 ∧ xs.countP (fun x => decide (v < x)) ≤ 6) ∧
    (∀ v ∈ (describe xs).half, v ∈ xs ∧ xs.countP (fun x => decide (x < v)) ≤ 4 ∧ xs.countP (fun x => decide (v < x)) ≤ 4) ∧
    ∀ v ∈ (describe xs).threeQuarters, v ∈ xs ∧ xs.countP (fun x => decide (x < v)) ≤ 6 ∧ xs.countP (fun x => decide (v < x)) ≤ 2 :=
  ⟨fun v hv => quantile_nine h (i := 2) (by norm_num) (by omega) hv, fun v hv => quantile_nine h (i := 4) (by norm_num) (by omega) hv,
    fun v hv => quantile_nine h (i := 6) (by norm_num) (by omega) hv⟩

/-! ### The file -/

/-- **C81** The script reads the measurements back from the file the benchmarks write. The names of all columns but the first begin with a blank. -/
theorem C81_read (ms : List (ℤ × ℤ × ℕ × ℤ × ℤ × ℤ × ℤ)) : readCsv (header :: ms.map (fun m => row m.1 m.2.1 m.2.2.1 m.2.2.2)) =
    some ⟨["Resolution".toList, " Index".toList, " NbConstraints".toList, " CompilationTime".toList, " SetupTime".toList, " ProverTime".toList, " VerifierTime".toList],
      ms.map (fun m => [m.1, m.2.1, (m.2.2.1 : ℤ), m.2.2.2.1, m.2.2.2.2.1, m.2.2.2.2.2.1, m.2.2.2.2.2.2])⟩ := by
  have hf : (header :: ms.map (fun m => row m.1 m.2.1 m.2.2.1 m.2.2.2)).filter (fun l => decide (l ≠ [])) = header :: ms.map (fun m => row m.1 m.2.1 m.2.2.1 m.2.2.2) := by
    rw [List.filter_eq_self]
    intro l hl
    rcases List.mem_cons.1 hl with rfl | hl
    · decide +kernel
    · obtain ⟨m, -, rfl⟩ := List.mem_map.1 hl
      simpa using row_ne m
  have hh : cells header = ["Resolution".toList, " Index".toList, " NbConstraints".toList, " CompilationTime".toList, " SetupTime".toList, " ProverTime".toList, " VerifierTime".toList] := by decide +kernel
  unfold readCsv
  rw [hf]
  simp only [hh]
  rw [List.mapM_map]
  have := mapM_some (l := ms) (f := (fun l => if (cells l).length = List.length ["Resolution".toList, " Index".toList, " NbConstraints".toList, " CompilationTime".toList, " SetupTime".toList,
    " ProverTime".toList, " VerifierTime".toList] then (cells l).mapM readInt else none) ∘ (fun m => row m.1 m.2.1 m.2.2.1 m.2.2.2)) (g := values) (fun m _ => by
      simp only [Function.comp]
      exact (if_pos (row_cells m).1).trans (row_cells m).2)
  rw [this]
  rfl

/-- The table for measurements: a name and the statistics for each of the seven columns. -/
def tableOf (ms : List (ℤ × ℤ × ℕ × ℤ × ℤ × ℤ × ℤ)) : List (List Char × Stats) :=
  [("Resolution".toList, describe (ms.map (fun m => (m.1 : ℚ)))), (" Index".toList, describe (ms.map (fun m => (m.2.1 : ℚ)))),
    (" NbConstraints".toList, describe (ms.map (fun m => (m.2.2.1 : ℚ)))), (" CompilationTime".toList, describe (ms.map (fun m => (m.2.2.2.1 : ℚ)))),
    (" SetupTime".toList, describe (ms.map (fun m => (m.2.2.2.2.1 : ℚ)))), (" ProverTime".toList, describe (ms.map (fun m => (m.2.2.2.2.2.1 : ℚ)))),
    (" VerifierTime".toList, describe (ms.map (fun m => (m.2.2.2.2.2.2 : ℚ))))]

theorem describeAll_values (ms : List (ℤ × ℤ × ℕ × ℤ × ℤ × ℤ × ℤ)) :
    describeAll ⟨["Resolution".toList, " Index".toList, " NbConstraints".toList, " CompilationTime".toList, " SetupTime".toList, " ProverTime".toList, " VerifierTime".toList], ms.map values⟩ = tableOf ms := by
  unfold describeAll tableOf Frame.column
  simp only [List.length_cons, List.length_nil, List.map_map]
  rfl

/-- **C81** The two tables for a file with measurements: the statistics of all measurements, and for each resolution that occurs, in increasing order, the statistics of its measurements. -/
theorem C81_tables (ms : List (ℤ × ℤ × ℕ × ℤ × ℤ × ℤ × ℤ)) :
    ∃ ks : List ℤ, ks.Pairwise (· < ·) ∧ (∀ k, k ∈ ks ↔ ∃ m ∈ ms, m.1 = k) ∧
      runtimeScript (header :: ms.map (fun m => row m.1 m.2.1 m.2.2.1 m.2.2.2)) =
        some (tableOf ms, ks.map (fun k => (k, (tableOf (ms.filter (fun m => decide (m.1 = k)))).drop 1))) := by
  have hc : ∀ ms : List (ℤ × ℤ × ℕ × ℤ × ℤ × ℤ × ℤ), (ms.map values).map (fun r => r.getD 0 0) = ms.map (fun m => m.1) := fun ms => by rw [List.map_map]; rfl
  obtain ⟨h1, h2⟩ := keys_spec (ms.map (fun m => m.1))
  refine ⟨keys (ms.map (fun m => m.1)), h1, fun k => ?_, ?_⟩
  · rw [h2]
    simp
  · unfold runtimeScript
    rw [C81_read, show (fun m : ℤ × ℤ × ℕ × ℤ × ℤ × ℤ × ℤ => [m.1, m.2.1, (m.2.2.1 : ℤ), m.2.2.2.1, m.2.2.2.2.1, m.2.2.2.2.2.1, m.2.2.2.2.2.2]) = values from rfl]
    simp only [Option.bind_eq_bind, Option.bind_some]
    rw [describeAll_values]
    unfold groupedStats groupby
    rw [show List.idxOf? "Resolution".toList ["Resolution".toList, " Index".toList, " NbConstraints".toList, " CompilationTime".toList, " SetupTime".toList, " ProverTime".toList, " VerifierTime".toList] = some 0 by
      decide +kernel]
    simp only [Option.map_some, Option.bind_eq_bind, Option.bind_some, Frame.column, hc, List.map_map, Option.pure_def, Option.some.injEq, Prod.mk.injEq, true_and]
    apply List.map_congr_left
    intro k _
    simp only [Function.comp, Prod.mk.injEq, true_and]
    rw [List.filter_map, describeAll_values]
    rfl

/-- **C81** Every measurement is in exactly one group: the counts add up, and so do the sums behind the averages. -/
theorem C81_groups {ms : List (ℤ × ℤ × ℕ × ℤ × ℤ × ℤ × ℤ)} {ks : List ℤ} (h1 : ks.Pairwise (· < ·)) (h2 : ∀ k, k ∈ ks ↔ ∃ m ∈ ms, m.1 = k) (f : ℤ × ℤ × ℕ × ℤ × ℤ × ℤ × ℤ → ℚ) :
    (ks.flatMap (fun k => ms.filter (fun m => decide (m.1 = k)))).Perm ms ∧
    (ks.map (fun k => (describe ((ms.filter (fun m => decide (m.1 = k))).map f)).count)).sum = (describe (ms.map f)).count ∧
    ∀ k ∈ ks, 0 < (describe ((ms.filter (fun m => decide (m.1 = k))).map f)).count := by
  have hp := groups_perm (fun m : ℤ × ℤ × ℕ × ℤ × ℤ × ℤ × ℤ => m.1) ks ms (h1.imp (fun h => h.ne)) (fun x hx => (h2 _).2 ⟨x, hx, rfl⟩)
  refine ⟨hp, ?_, fun k hk => ?_⟩
  · have := hp.length_eq
    rw [List.length_flatMap] at this
    simpa [describe] using this
  · obtain ⟨m, hm, hk⟩ := (h2 k).1 hk
    simp only [describe, List.length_map]
    exact List.length_pos_of_mem (List.mem_filter.2 ⟨hm, by simpa using hk⟩)

/-- **C81** The average of all measurements is the average of the groups weighted by their numbers of measurements. -/
theorem C81_weighted_mean {ms : List (ℤ × ℤ × ℕ × ℤ × ℤ × ℤ × ℤ)} {ks : List ℤ} (h1 : ks.Pairwise (· < ·)) (h2 : ∀ k, k ∈ ks ↔ ∃ m ∈ ms, m.1 = k) (f : ℤ × ℤ × ℕ × ℤ × ℤ × ℤ × ℤ → ℚ)
    (mean : ℤ → ℚ) (hm : ∀ k ∈ ks, (describe ((ms.filter (fun m => decide (m.1 = k))).map f)).mean = some (mean k)) {all : ℚ} (ha : (describe (ms.map f)).mean = some all) :
    ms.length * all = (ks.map (fun k => ((ms.filter (fun m => decide (m.1 = k))).length : ℚ) * mean k)).sum := by
  have hp := (C81_groups h1 h2 f).1
  have e : ∀ {xs : List ℚ} {m : ℚ}, (describe xs).mean = some m → xs.length * m = xs.sum := by
    intro xs m h
    have h0 : xs ≠ [] := by rintro rfl; simp [describe] at h
    obtain ⟨m', h', hm'⟩ := (C81_describe h0).2.1
    rw [h] at h'
    rw [Option.some.inj h']
    exact hm'
  have ea := e ha
  rw [List.length_map] at ea
  rw [ea, ← (hp.map f).sum_eq, List.map_flatMap, List.flatMap_def, List.sum_flatten, List.map_map]
  congr 1
  apply List.map_congr_left
  intro k hk
  have := e (hm k hk)
  rw [List.length_map] at this
  exact this.symm

theorem take_all {α : Type} {p : α → Bool} : ∀ {l : List α}, (∀ x ∈ l, p x = true) → l.takeWhile p = l
  | [], _ => rfl
  | a :: l, h => by rw [List.takeWhile_cons_of_pos (h a (by simp)), take_all (fun x hx => h x (by simp [hx]))]

/-- The measurement of a run on a file with a header, if there is one. -/
def measurement (q : Run Cs Wit Srs Keys Proof) : Option (ℤ × ℤ × ℕ × ℤ × ℤ × ℤ × ℤ) :=
  if (q.exec [header]).2 = .ok then (q.world.compile).map (fun cs => (q.resolution, q.index, q.world.nbConstraints cs, q.world.times)) else none

/-- **C81** From the benchmarks to the tables: for runs that can open the file and do not panic, the tables are those of the successful runs; the other runs leave no trace. -/
theorem C81_pipeline {rs : List (Run Cs Wit Srs Keys Proof)} (h0 : rs ≠ []) (ho : ∀ q ∈ rs, q.world.openOk = true ∧ q.world.statOk = true ∧ q.world.headerOk = true)
    (hp : ∀ q ∈ rs, (q.exec [header]).2 ≠ .panicked) :
    ∃ ks : List ℤ, ks.Pairwise (· < ·) ∧ (∀ k, k ∈ ks ↔ ∃ m ∈ rs.filterMap measurement, m.1 = k) ∧
      runtimeScript (execAll rs []) =
        some (tableOf (rs.filterMap measurement), ks.map (fun k => (k, (tableOf ((rs.filterMap measurement).filter (fun m => decide (m.1 = k)))).drop 1))) := by
  obtain ⟨ks, h1, h2, h3⟩ := C81_tables (rs.filterMap measurement)
  refine ⟨ks, h1, h2, ?_⟩
  rw [← h3]
  congr 1
  have hd : rs.dropWhile (fun q => !q.opens) = rs := by
    cases rs with
    | nil => rfl
    | cons q l =>
      have := ho q (by simp)
      rw [List.dropWhile_cons_of_neg (by simp [Run.opens, this])]
  rw [C61_file_header, hd, if_neg h0, C61_file_rows, take_all (fun q hq => by simpa using hp q hq), List.singleton_append, List.map_filterMap]
  congr 1
  apply List.filterMap_congr
  intro q _
  unfold Run.measured measurement
  split_ifs
  · rw [Option.map_map]; rfl
  · rfl

/-- **C81** Grouping by any other column of the header fails: their names begin with a blank. -/
theorem C81_other_columns (ms : List (ℤ × ℤ × ℕ × ℤ × ℤ × ℤ × ℤ)) {name : List Char} (hn : name.head? ≠ some ' ') (h : name ≠ "Resolution".toList) :
    (readCsv (header :: ms.map (fun m => row m.1 m.2.1 m.2.2.1 m.2.2.2))).bind (fun f => groupedStats f name) = none := by
  rw [C81_read]
  unfold groupedStats groupby
  have : List.idxOf? name ["Resolution".toList, " Index".toList, " NbConstraints".toList, " CompilationTime".toList, " SetupTime".toList, " ProverTime".toList, " VerifierTime".toList] = none := by
    rw [List.idxOf?_eq_none_iff]
    intro hm
    simp only [List.mem_cons, List.not_mem_nil, or_false] at hm
    rcases hm with rfl | rfl | rfl | rfl | rfl | rfl | rfl
    · exact h rfl
    all_goals exact hn rfl
  rw [Option.bind_some, this]
  rfl

/-- **C81** A file without measurements (no proof was found) still gives a table, and an empty file gives none. -/
theorem C81_no_measurements : (runtimeScript [header]).map Prod.snd = some [] ∧ runtimeScript [] = none := by
  refine ⟨?_, by decide⟩
  obtain ⟨ks, -, h2, h3⟩ := C81_tables []
  have hk : ks = [] := by
    cases ks with
    | nil => rfl
    | cons k l => simpa using (h2 k).1 (by simp)
  simp only [List.map_nil] at h3
  rw [h3, hk]
  rfl

/-! ### Concrete cases -/

example : (describe [(3 : ℚ), 1, 2, 10]).half = some (5 / 2) ∧ (describe [(3 : ℚ), 1, 2, 10]).variance = some (50 / 3) := by decide +kernel
example : (describe [(9 : ℚ), 1, 8, 2, 7, 3, 6, 4, 5]).quarter = some 3 := by decide +kernel
example : Stat.IsVariance [3, 1, 2, 10] (50 / 3) := by unfold Stat.IsVariance; norm_num

/-- The first two measurements of /repo/benchmarks/raw/bench_ZKLP32_G16_BN254.txt. -/
example : (runtimeScript ["Resolution, Index, NbConstraints, CompilationTime, SetupTime, ProverTime, VerifierTime".toList, "0, 1, 19467, 147343, 4119939, 273014, 1356".toList,
      "0, 2, 19467, 152401, 4111698, 260374, 1345".toList]).map (fun t => (t.1[5]?.map (fun d => (d.2.count, d.2.mean)), t.2.map (fun g => (g.1, g.2.length)))) =
    some (some (2, some 266694), [(0, 6)]) := by decide +kernel

/-- Three runs of which the second fails: the tables are those of the two others. -/
example : (runtimeScript (execAll [⟨false, rejectingWorld, 0, 1⟩, ⟨true, rejectingWorld, 0, 2⟩, ⟨false, rejectingWorld, 5, 3⟩] [])).map (fun t => (t.1.map (fun d => d.2.count), t.2.map (fun g => g.1))) =
    some ([2, 2, 2, 2, 2, 2, 2], [0, 5]) := by decide +kernel

end ZkLoc.Runtime
