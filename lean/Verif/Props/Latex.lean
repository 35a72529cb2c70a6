import Verif.Latex
import Verif.Spec.Latex
import Verif.Props.Bench

/-!
# Property theorems C78: the printed table of test results

Every cell of the printed table is the outcome of one test (`Verif/Spec/Latex.lean` says how a table is read).
-/

namespace ZkLoc.Bench

open LatexTable ZkLoc.Text _root_.Text Report

theorem pieces_end {c : Char} : ∀ {a : List Char}, c ∉ a → pieces c a = [a]
  | [], _ => rfl
  | x :: a, h => by
    simp only [List.mem_cons, not_or] at h
    rw [pieces, if_neg (Ne.symm h.1), pieces_end h.2]

theorem pieces_append {c : Char} {s : List Char} : ∀ {a : List Char}, c ∉ a → pieces c (a ++ c :: s) = a :: pieces c s
  | [], _ => by rw [List.nil_append, pieces, if_pos rfl]
  | x :: a, h => by
    simp only [List.mem_cons, not_or] at h
    rw [List.cons_append, pieces, if_neg (Ne.symm h.1), pieces_append h.2]

theorem pieces_lines {s : List Char} (hs : '\n' ∉ s) : ∀ {ls : List (List Char)}, (∀ l ∈ ls, '\n' ∉ l) → pieces '\n' (ls.flatMap (fun l => l ++ ['\n']) ++ s) = ls ++ [s]
  | [], _ => by simpa using pieces_end hs
  | l :: ls, h => by
    rw [List.flatMap_cons, List.append_assoc, List.append_assoc, List.singleton_append, pieces_append (h l (by simp)), pieces_lines hs (fun l hl => h l (by simp [hl]))]
    rfl

theorem digit_chars : ∀ {n : ℕ}, ∀ c ∈ formatUint 10 n, c ≠ '\n' ∧ c ≠ '&' ∧ c ≠ '\\' ∧ c ≠ '}' := by
  intro n
  induction n using Nat.strongRecOn with
  | _ n ih =>
    intro c hc
    rw [formatUint] at hc
    split_ifs at hc with h
    · have h : n < 10 := by omega
      simp only [List.mem_singleton] at hc
      subst hc
      interval_cases n <;> decide
    · rw [List.mem_append, List.mem_singleton] at hc
      rcases hc with hc | rfl
      · exact ih (n / 10) (by omega) c hc
      · have h : n % 10 < 10 := by omega
        generalize n % 10 = m at h
        interval_cases m <;> decide

theorem not_mem_digits (n : ℕ) : '\n' ∉ formatUint 10 n := fun h => (digit_chars _ h).1 rfl

theorem joinAmp_nl : ∀ {l : List (List Char)}, (∀ x ∈ l, '\n' ∉ x) → '\n' ∉ joinAmp l
  | [], _ => by simp [joinAmp]
  | [x], h => by simpa [joinAmp] using h
  | x :: y :: l, h => by
    have := joinAmp_nl (l := y :: l) (fun z hz => h z (by simp [hz]))
    have := h x (by simp)
    simp [joinAmp, *]

theorem cell_nl (b : Bool) : '\n' ∉ latexCell b := by cases b <;> decide
theorem cell_amp (b : Bool) : '&' ∉ latexCell b := by cases b <;> decide

theorem nl_append {c : Char} {a b : List Char} (h1 : c ∉ a) (h2 : c ∉ b) : c ∉ a ++ b := fun h => (List.mem_append.1 h).elim h1 h2

theorem rule_nl (a b : ℕ) : '\n' ∉ rule a b :=
  nl_append (nl_append (nl_append (nl_append (by decide) (not_mem_digits a)) (by decide)) (not_mem_digits b)) (by decide)

theorem header_nl (R T g : ℕ) : '\n' ∉ headerRow R T g := by
  unfold headerRow
  refine nl_append (nl_append (by decide) (joinAmp_nl fun x hx => ?_)) (by decide)
  obtain ⟨r, -, rfl⟩ := List.mem_map.1 hx
  exact nl_append (nl_append (nl_append (nl_append (by decide) (not_mem_digits T)) (by decide +kernel)) (not_mem_digits r)) (by decide +kernel)

theorem row_nl {R T g : ℕ} {d : Results} (hd : '\n' ∉ d.1) : '\n' ∉ latexRow R T g d := by
  unfold latexRow
  refine nl_append (nl_append (nl_append (nl_append (nl_append (by decide) hd) (by decide)) (by decide)) (joinAmp_nl fun x hx => ?_)) (by decide)
  obtain ⟨r, -, hx⟩ := List.mem_flatMap.1 hx
  obtain ⟨b, -, rfl⟩ := List.mem_map.1 hx
  exact cell_nl b

theorem head_nl : ∀ l ∈ latexHead, '\n' ∉ l := by decide +kernel
theorem head_filter : latexHead.filter (fun l => "\\textbf{".toList.isPrefixOf l) = [] := by decide +kernel

/-- The name of a colour. -/
def colourName (b : Bool) : List Char := if b then "green".toList else "red".toList

theorem between_cell (b : Bool) (s : List Char) : between '{' '!' (' ' :: (latexCell b ++ s)) = colourName b := by
  cases b <;> rfl

theorem pieces_cells : ∀ {bs : List Bool}, bs ≠ [] → (pieces '&' (' ' :: (joinAmp (bs.map latexCell) ++ " \\\\".toList))).map (between '{' '!') = bs.map colourName
  | [], h => absurd rfl h
  | [b], _ => by
    have : '&' ∉ ' ' :: (latexCell b ++ " \\\\".toList) := by cases b <;> decide
    simp only [List.map_cons, List.map_nil, joinAmp]
    rw [pieces_end this, List.map_cons, List.map_nil, between_cell]
  | b :: b' :: bs, _ => by
    have h : '&' ∉ ' ' :: (latexCell b ++ [' ']) := by cases b <;> decide
    have e : ' ' :: (joinAmp ((b :: b' :: bs).map latexCell) ++ " \\\\".toList) =
        (' ' :: (latexCell b ++ [' '])) ++ '&' :: (' ' :: (joinAmp ((b' :: bs).map latexCell) ++ " \\\\".toList)) := by
      simp [joinAmp]
    rw [e, pieces_append h, List.map_cons, between_cell, pieces_cells (by simp)]
    rfl

theorem rowOf_row {R T g : ℕ} {d : Results} (h1 : '&' ∉ d.1) (h2 : '}' ∉ d.1)
    (hne : (groupRes R g).flatMap (fun res => (d.2 res).getD (List.replicate T true)) ≠ []) :
    rowOf (latexRow R T g d) = (d.1, ((groupRes R g).flatMap (fun res => (d.2 res).getD (List.replicate T true))).map colourName) := by
  have e : latexRow R T g d = ("\\textbf{".toList ++ d.1 ++ "}  ".toList) ++ '&' :: (' ' :: (joinAmp
      (((groupRes R g).flatMap (fun res => (d.2 res).getD (List.replicate T true))).map latexCell) ++ " \\\\".toList)) := by
    unfold latexRow
    rw [List.map_flatMap]
    simp
  have hl : between '{' '}' ("\\textbf{".toList ++ d.1 ++ "}  ".toList) = d.1 := by
    have e : between '{' '}' ("\\textbf{".toList ++ d.1 ++ "}  ".toList) = (d.1 ++ "}  ".toList).takeWhile (fun c => decide (c ≠ '}')) := by
      rw [List.append_assoc]; rfl
    rw [e, List.takeWhile_append_of_pos (fun a ha => by simp; rintro rfl; exact h2 ha)]
    have : ("}  ".toList).takeWhile (fun c => decide (c ≠ '}')) = [] := by decide
    rw [this, List.append_nil]
  unfold rowOf
  rw [e, pieces_append (by simp only [List.mem_append, not_or]; exact ⟨⟨by decide, h1⟩, by decide⟩)]
  simp only
  rw [hl, pieces_cells hne]

theorem lines_nl {R T : ℕ} {data : List Results} (hd : ∀ d ∈ data, '\n' ∉ d.1) : ∀ l ∈ latexLines R T data, '\n' ∉ l := by
  intro l hl
  have n1 := not_mem_digits (R * T)
  simp only [latexLines, List.mem_append, List.mem_cons, List.not_mem_nil, or_false, List.mem_flatMap, groupLines] at hl
  rcases hl with ((hl | rfl | rfl | rfl | rfl) | ⟨g, -, rfl | rfl | ⟨d, hdd, rfl | rfl⟩⟩) | rfl
  · exact head_nl l hl
  · exact nl_append (nl_append (by decide +kernel) n1) (by decide +kernel)
  · exact rule_nl _ _
  · exact nl_append (nl_append (by decide +kernel) n1) (by decide +kernel)
  · exact rule_nl _ _
  · exact header_nl _ _ _
  · exact rule_nl _ _
  · exact row_nl (hd d hdd)
  · exact rule_nl _ _
  · decide +kernel

theorem cells_ne {R T g : ℕ} (hR : 0 < R) (hT : 0 < T) {d : Results} (h3 : ∀ r, d.2 r ≠ some []) : (groupRes R g).flatMap (fun res => (d.2 res).getD (List.replicate T true)) ≠ [] := by
  obtain ⟨m, rfl⟩ : ∃ m, R = m + 1 := ⟨R - 1, by omega⟩
  have : groupRes (m + 1) g = (g + 1) :: (List.range m).map (fun k => g + 1 + (k + 1)) := by
    unfold groupRes
    rw [List.range_succ_eq_map, List.map_cons, List.map_map]; rfl
  rw [this, List.flatMap_cons]
  intro h0
  have h0 := (List.append_eq_nil_iff.1 h0).1
  cases hc : d.2 (g + 1) with
  | none => rw [hc] at h0; simp at h0; omega
  | some l => rw [hc] at h0; simp at h0; exact h3 _ (h0 ▸ hc)

/-- **C78** Reading the printed table gives, group by group, one row for each circuit with the outcomes of its tests in order; a resolution without outcomes counts as passed. -/
theorem C78_table_rows {R T : ℕ} (hR : 0 < R) (hT : 0 < T) {data : List Results} (hd : ∀ d ∈ data, '\n' ∉ d.1 ∧ '&' ∉ d.1 ∧ '}' ∉ d.1 ∧ ∀ r, d.2 r ≠ some []) :
    rows (latexTable R T data) = (groups R).flatMap (fun g => data.map (fun d =>
      (d.1, ((groupRes R g).flatMap (fun res => (d.2 res).getD (List.replicate T true))).map colourName))) := by
  have hnl := lines_nl (R := R) (T := T) (fun d h => (hd d h).1)
  unfold rows latexTable
  rw [pieces_lines (by decide) hnl]
  have hr (a b : ℕ) : ("\\textbf{".toList.isPrefixOf (rule a b)) = false := rfl
  have hh (g : ℕ) : ("\\textbf{".toList.isPrefixOf (headerRow R T g)) = false := rfl
  have hw (g : ℕ) (d : Results) : ("\\textbf{".toList.isPrefixOf (latexRow R T g d)) = true := rfl
  have hx (s : List Char) : ("\\textbf{".toList.isPrefixOf ("\\begin{tabularx}{\\textwidth}{l*{".toList ++ formatUint 10 (R * T) ++ s)) = false := rfl
  have hy (s : List Char) : ("\\textbf{".toList.isPrefixOf ("& \\multicolumn{".toList ++ formatUint 10 (R * T) ++ s)) = false := rfl
  have hg (g : ℕ) : (groupLines R T data g).filter (fun l => "\\textbf{".toList.isPrefixOf l) = data.map (latexRow R T g) := by
    unfold groupLines
    rw [List.filter_cons, hh, if_neg (by simp), List.filter_cons, hr, if_neg (by simp)]
    clear hd hnl
    induction data with
    | nil => rfl
    | cons d ds ih =>
      rw [List.flatMap_cons, List.filter_append, ih, List.filter_cons, hw, if_pos rfl, List.filter_cons, hr, if_neg (by simp)]
      rfl
  have hf : (latexLines R T data ++ ["\\end{table*}".toList]).filter (fun l => "\\textbf{".toList.isPrefixOf l) = (groups R).flatMap (fun g => data.map (latexRow R T g)) := by
    unfold latexLines
    rw [List.filter_append, List.filter_append, List.filter_append, List.filter_append, List.filter_flatMap, head_filter]
    have h1 : (["\\begin{tabularx}{\\textwidth}{l*{".toList ++ formatUint 10 (R * T) ++ "}{p{0.2mm}|}}".toList, rule 1 (R * T + 1),
      "& \\multicolumn{".toList ++ formatUint 10 (R * T) ++ "}{c}{\\textbf{Resolution}} \\\\".toList, rule 2 (R * T + 1)]).filter (fun l => "\\textbf{".toList.isPrefixOf l) = [] := by
      simp only [List.filter_cons, hx, hy, hr, List.filter_nil]; rfl
    have h2 : (["\\end{tabularx}".toList]).filter (fun l => "\\textbf{".toList.isPrefixOf l) = [] := by decide
    have h3 : (["\\end{table*}".toList]).filter (fun l => "\\textbf{".toList.isPrefixOf l) = [] := by decide
    rw [h1, h2, h3, List.nil_append, List.nil_append, List.append_nil, List.append_nil]
    simp only [hg]
  rw [hf, List.map_flatMap]
  refine congrArg (fun f => (groups R).flatMap f) (funext fun g => ?_)
  rw [List.map_map]
  refine List.map_congr_left fun d hdd => ?_
  obtain ⟨-, h1, h2, h3⟩ := hd d hdd
  exact rowOf_row h1 h2 (cells_ne hR hT h3)

theorem head_items : latexHead.filterMap itemOf = [] := by decide +kernel

theorem after_skip {x : Char} {pat s : List Char} : ∀ {a : List Char}, x ∉ a → after (x :: pat) (a ++ s) = after (x :: pat) s
  | [], _ => rfl
  | y :: a, h => by
    rw [List.mem_cons, not_or] at h
    rw [List.cons_append, after, if_neg, after_skip h.2]
    simp [List.isPrefixOf, h.1]

theorem after_found {x : Char} {pat s : List Char} : after (x :: pat) (x :: pat ++ s) = s := by
  have : (x :: pat).isPrefixOf (x :: pat ++ s) = true := by rw [List.isPrefixOf_iff_prefix]; exact List.prefix_append _ _
  rw [List.cons_append] at this ⊢
  rw [after, if_pos this, ← List.cons_append, List.drop_left]

/-- A cell of the header of a group. -/
def headerCell (T res : ℕ) : List Char := "\\multicolumn{".toList ++ formatUint 10 T ++ "}{c}{\\customarrowLeft{4.2em} \\textbf{".toList ++ formatUint 10 res ++
    "} \\customarrowRight{4.2em}}".toList

theorem takeWhile_digits (n : ℕ) {s : List Char} : (formatUint 10 n ++ '}' :: s).takeWhile (fun c => decide (c ≠ '}')) = formatUint 10 n := by
  rw [List.takeWhile_append_of_pos (fun a ha => by simpa using (digit_chars a ha).2.2.2), List.takeWhile_cons_of_neg (by simp), List.append_nil]

/-- Reading a cell that spans columns and has a bold text. -/
theorem read_cell {n : ℕ} {m b s : List Char} (h1 : ∀ t, after "\\textbf{".toList (m ++ ("\\textbf{".toList ++ t)) = t) (h2 : '}' ∉ b) :
    cellOf
      (" \\multicolumn{".toList ++ (formatUint 10 n ++ '}' :: (m ++ ("\\textbf{".toList ++ (b ++ '}' :: s))))) = (formatUint 10 n, b) := by
  have e1 : between '{' '}' (" \\multicolumn{".toList ++ (formatUint 10 n ++ '}' :: (m ++ ("\\textbf{".toList ++ (b ++ '}' :: s))))) =
      (formatUint 10 n ++ '}' :: (m ++ ("\\textbf{".toList ++ (b ++ '}' :: s)))).takeWhile (fun c => decide (c ≠ '}')) := rfl
  have e2 : after "\\textbf{".toList (" \\multicolumn{".toList ++ (formatUint 10 n ++ '}' :: (m ++ ("\\textbf{".toList ++ (b ++ '}' :: s))))) = b ++ '}' :: s := by
    have e3 : after "\\textbf{".toList (" \\multicolumn{".toList ++ (formatUint 10 n ++ '}' :: (m ++ ("\\textbf{".toList ++ (b ++ '}' :: s))))) =
      after "\\textbf{".toList ("multicolumn{".toList ++ (formatUint 10 n ++ '}' :: (m ++ ("\\textbf{".toList ++ (b ++ '}' :: s))))) := rfl
    rw [e3]
    change after ('\\' :: "textbf{".toList) _ = _
    rw [after_skip (by decide), after_skip (fun h => (digit_chars _ h).2.2.1 rfl)]
    exact h1 _
  unfold cellOf
  rw [e1, e2, takeWhile_digits, List.takeWhile_append_of_pos (fun a ha => by simp; rintro rfl; exact h2 ha), List.takeWhile_cons_of_neg (by simp), List.append_nil]

theorem pieces_header (T : ℕ) : ∀ {rs : List ℕ}, rs ≠ [] → (pieces '&' (' ' :: (joinAmp (rs.map (headerCell T)) ++ " \\\\".toList))).map
    cellOf = rs.map (fun r => (formatUint 10 T, formatUint 10 r)) := by
  have amp (r : ℕ) : '&' ∉ headerCell T r := by
    have n1 : '&' ∉ formatUint 10 T := fun h => (digit_chars _ h).2.1 rfl
    have n2 : '&' ∉ formatUint 10 r := fun h => (digit_chars _ h).2.1 rfl
    exact nl_append (nl_append (nl_append (nl_append (by decide) n1) (by decide +kernel)) n2) (by decide +kernel)
  have rd (r : ℕ) (s : List Char) : cellOf (' ' :: (headerCell T r ++ s)) =
      (formatUint 10 T, formatUint 10 r) := by
    have e : ' ' :: (headerCell T r ++ s) = " \\multicolumn{".toList ++ (formatUint 10 T ++ '}' :: ("{c}{\\customarrowLeft{4.2em} ".toList ++ ("\\textbf{".toList ++
        (formatUint 10 r ++ '}' :: (" \\customarrowRight{4.2em}}".toList ++ s))))) := by
      unfold headerCell
      simp only [List.append_assoc]
      rfl
    rw [e]
    exact read_cell (fun t => rfl) (fun h => (digit_chars _ h).2.2.2 rfl)
  intro rs
  induction rs with
  | nil => exact fun h => absurd rfl h
  | cons r rs ih =>
    intro _
    cases rs with
    | nil =>
      have : '&' ∉ ' ' :: (headerCell T r ++ " \\\\".toList) := by
        rw [List.mem_cons, not_or]
        exact ⟨by decide, nl_append (amp r) (by decide)⟩
      simp only [List.map_cons, List.map_nil, joinAmp]
      rw [pieces_end this, List.map_cons, List.map_nil, rd]
    | cons r' rs =>
      have h : '&' ∉ ' ' :: (headerCell T r ++ [' ']) := by
        rw [List.mem_cons, not_or]
        exact ⟨by decide, nl_append (amp r) (by decide)⟩
      have e : ' ' :: (joinAmp ((r :: r' :: rs).map (headerCell T)) ++ " \\\\".toList) =
          (' ' :: (headerCell T r ++ [' '])) ++ '&' :: (' ' :: (joinAmp ((r' :: rs).map (headerCell T)) ++ " \\\\".toList)) := by
        simp [joinAmp]
      rw [e, pieces_append h, List.map_cons, rd, ih (by simp)]
      rfl

theorem headerOf_row {R T g : ℕ} (hR : 0 < R) : headerOf (headerRow R T g) = (groupRes R g).map (fun r => (formatUint 10 T, formatUint 10 r)) := by
  have hne : groupRes R g ≠ [] := by
    unfold groupRes
    simp; omega
  have e : headerRow R T g = [] ++ '&' :: (' ' :: (joinAmp ((groupRes R g).map (headerCell T)) ++ " \\\\".toList)) := rfl
  unfold headerOf
  rw [e, pieces_append (by simp), List.drop_one, List.tail_cons, pieces_header T hne]

theorem headerOf_title (n : ℕ) : headerOf ("& \\multicolumn{".toList ++ formatUint 10 n ++ "}{c}{\\textbf{Resolution}} \\\\".toList) = [(formatUint 10 n, "Resolution".toList)] := by
  have e : "& \\multicolumn{".toList ++ formatUint 10 n ++ "}{c}{\\textbf{Resolution}} \\\\".toList =
      [] ++ '&' :: (" \\multicolumn{".toList ++ (formatUint 10 n ++ '}' :: ("{c}{".toList ++ ("\\textbf{".toList ++ ("Resolution".toList ++ '}' :: "} \\\\".toList))))) := by
    rw [List.append_assoc]; rfl
  unfold headerOf
  rw [e, pieces_append (by simp), List.drop_one, List.tail_cons, pieces_end, List.map_cons, List.map_nil, read_cell (fun t => rfl) (by decide)]
  exact nl_append (by decide) (nl_append (fun h => (digit_chars _ h).2.1 rfl) (by decide))

theorem groupRes_eq (R g : ℕ) : groupRes R g = List.range' (g + 1) R := by
  unfold groupRes
  rw [List.range'_eq_map_range]

theorem groups_eq {R : ℕ} (hR : 0 < R) : groups R = (List.range ((14 + R) / R)).map (fun k => k * R) := by
  rcases Nat.lt_or_ge R 15 with h | h
  · interval_cases R <;> decide
  · have e : (14 + R) / R = 1 := by
      rw [Nat.div_eq_iff hR]
      omega
    rw [e]
    unfold groups
    have : ∀ g ∈ List.range 15, decide (g % R = 0) = decide (g = 0) := by
      intro g hg
      rw [List.mem_range] at hg
      rw [Nat.mod_eq_of_lt (by omega)]
    rw [List.filter_congr this]
    simp
    decide

/-- **C78** Reading the headers and rows of the printed table in their order: the title, and for each group of `R` resolutions from 1 on a header that names the resolutions of the group, each over as
many columns as it has tests, followed by one row for each circuit with the outcomes of its tests at these resolutions in order. The last group is the one that reaches resolution 15. -/
theorem C78_table_items {R T : ℕ} (hR : 0 < R) (hT : 0 < T) {data : List Results} (hd : ∀ d ∈ data, '\n' ∉ d.1 ∧ '&' ∉ d.1 ∧ '}' ∉ d.1 ∧ ∀ r, d.2 r ≠ some []) :
    items (latexTable R T data) = .header [(formatUint 10 (R * T), "Resolution".toList)] :: (List.range ((14 + R) / R)).flatMap (fun k =>
      .header ((List.range' (k * R + 1) R).map (fun r => (formatUint 10 T, formatUint 10 r))) :: data.map (fun d =>
        .row d.1 (((List.range' (k * R + 1) R).flatMap (fun res => (d.2 res).getD (List.replicate T true))).map colourName))) := by
  have hgr : ∀ f : ℕ → List ℕ → List Item, (List.range ((14 + R) / R)).flatMap (fun k => f (k * R) (List.range' (k * R + 1) R)) = (groups R).flatMap (fun g => f g (groupRes R g)) := by
    intro f
    rw [groups_eq hR, List.flatMap_map]
    simp only [groupRes_eq]
  rw [hgr (fun _ l => .header (l.map (fun r => (formatUint 10 T, formatUint 10 r))) :: data.map (fun d =>
        .row d.1 ((l.flatMap (fun res => (d.2 res).getD (List.replicate T true))).map colourName)))]
  have hnl := lines_nl (R := R) (T := T) (fun d h => (hd d h).1)
  unfold items latexTable
  rw [pieces_lines (by decide) hnl]
  have hr (a b : ℕ) : itemOf (rule a b) = none := rfl
  have hh (g : ℕ) : itemOf (headerRow R T g) = some (.header (headerOf (headerRow R T g))) := by
    unfold itemOf
    have hne : ∃ m, R = m + 1 := ⟨R - 1, by omega⟩
    obtain ⟨m, rfl⟩ := hne
    rw [if_pos]
    have : groupRes (m + 1) g = (g + 1) :: (List.range m).map (fun k => g + 1 + (k + 1)) := by
      unfold groupRes
      rw [List.range_succ_eq_map, List.map_cons, List.map_map]; rfl
    unfold headerRow
    rw [this, List.map_cons]
    cases (List.range m).map (fun k => g + 1 + (k + 1)) <;> rfl
  have hw (g : ℕ) (d : Results) : itemOf (latexRow R T g d) = some (.row (rowOf (latexRow R T g d)).1 (rowOf (latexRow R T g d)).2) := rfl
  have hx (s : List Char) : itemOf ("\\begin{tabularx}{\\textwidth}{l*{".toList ++ formatUint 10 (R * T) ++ s) = none := rfl
  have hy : itemOf ("& \\multicolumn{".toList ++ formatUint 10 (R * T) ++ "}{c}{\\textbf{Resolution}} \\\\".toList) = some (.header [(formatUint 10 (R * T), "Resolution".toList)]) := by
    rw [← headerOf_title]; rfl
  have hrow : ∀ (g : ℕ) (d : Results), d ∈ data → rowOf (latexRow R T g d) = (d.1, ((groupRes R g).flatMap (fun res => (d.2 res).getD (List.replicate T true))).map colourName) := by
    intro g d hdd
    obtain ⟨-, h1, h2, h3⟩ := hd d hdd
    exact rowOf_row h1 h2 (cells_ne hR hT h3)
  have hg (g : ℕ) : (groupLines R T data g).filterMap itemOf = .header ((groupRes R g).map (fun r => (formatUint 10 T, formatUint 10 r))) :: data.map (fun d =>
        .row d.1 (((groupRes R g).flatMap (fun res => (d.2 res).getD (List.replicate T true))).map colourName)) := by
    unfold groupLines
    rw [List.filterMap_cons_some (hh g), List.filterMap_cons_none (hr _ _), headerOf_row hR]
    refine congrArg (List.cons _) ?_
    clear hd hnl
    induction data with
    | nil => rfl
    | cons d ds ih =>
      rw [List.flatMap_cons, List.filterMap_append, ih (fun g d h => hrow g d (by simp [h])), List.filterMap_cons_some (hw g d), List.filterMap_cons_none (hr _ _), hrow g d (by simp)]
      rfl
  unfold latexLines
  rw [List.filterMap_append, List.filterMap_append, List.filterMap_append, List.filterMap_append, List.filterMap_flatMap, head_items, List.filterMap_cons_none (hx _),
    List.filterMap_cons_none (hr _ _), List.filterMap_cons_some hy, List.filterMap_cons_none (hr _ _)]
  have h2 : (["\\end{tabularx}".toList]).filterMap itemOf = [] := rfl
  have h3 : (["\\end{table*}".toList]).filterMap itemOf = [] := rfl
  rw [h2, h3, List.append_nil, List.append_nil]
  simp only [hg]
  rfl

/-- The headers of the table as printed: three groups of the resolutions 1 to 5, 6 to 10 and 11 to 15, each with a row. -/
example : (items (latexTable 5 9 [("F32".toList, fun _ => some [true])])).filterMap (fun i => match i with | .header c => some (c.map (fun q => String.ofList q.2)) | .row .. => none) =
    [["Resolution"], ["1", "2", "3", "4", "5"], ["6", "7", "8", "9", "10"], ["11", "12", "13", "14", "15"]] := by
  rw [C78_table_items (by norm_num) (by norm_num) (by
    simp only [List.mem_singleton, forall_eq]
    exact ⟨by decide, by decide, by decide, fun r => by simp⟩)]
  decide +kernel

/-- One line. -/
theorem thirdField_line (w lat lng res i j k : ℕ) : ∃ l : List Char, writeLine w lat lng res i j k = l ++ ['\n'] ∧ '\n' ∉ l ∧ l.getLast? ≠ some '\r' ∧ thirdField l = some (formatUpper res) := by
  obtain ⟨l, h1, h2, h3, -⟩ := readEntry_line w lat lng res i j k
  refine ⟨l, h1, h2, h3, ?_⟩
  obtain rfl : formatPadded w lat ++ ' ' :: (formatPadded w lng ++ ' ' :: (formatUpper res ++ ' ' :: (formatUpper i ++ ' ' :: (formatUpper j ++ ' ' :: formatUpper k)))) = l := by
    refine List.append_cancel_right (bs := ['\n']) ?_
    rw [← h1]; simp [writeLine]
  have hp := fun n x hx => (hexDenotes_chars (formatPadded_denotes w n) x hx).1
  have hu := fun n x hx => (hexDenotes_chars (formatUpper_denotes n) x hx).1
  have hs : isSpace ' ' = true := by decide
  unfold thirdField
  rw [fields_word (hp lat) hs (formatPadded_ne_nil w lat), fields_word (hp lng) hs (formatPadded_ne_nil w lng), fields_word (hu res) hs (formatUpper_ne_nil res)]

/-- **C78** The dictionary of the test cases: for a file written by the generator the resolutions of the entries are counted. -/
theorem C78_cases (w : ℕ) (l : List (ℕ × ℕ × ℕ × ℕ × ℕ × ℕ)) :
    caseResolutions (l.flatMap (fun q => writeLine w q.1 q.2.1 q.2.2.1 q.2.2.2.1 q.2.2.2.2.1 q.2.2.2.2.2)) = some (l.map (fun q => q.2.2.1)) := by
  unfold caseResolutions
  induction l with
  | nil => rfl
  | cons q l ih =>
    obtain ⟨t, h1, h2, h3, h4⟩ := thirdField_line w q.1 q.2.1 q.2.2.1 q.2.2.2.1 q.2.2.2.2.1 q.2.2.2.2.2
    rw [List.flatMap_cons, h1, List.append_assoc, List.singleton_append, scanLines_line h2 h3, List.filterMap_cons_some h4, List.mapM_cons, ih,
      hexNat_iff.2 (formatUpper_denotes q.2.2.1)]
    rfl

theorem latexRow_congr {R T g : ℕ} {d d' : Results} (h1 : d.1 = d'.1) (h : ∀ r ∈ groupRes R g, d.2 r = d'.2 r) : latexRow R T g d = latexRow R T g d' := by
  unfold latexRow
  rw [h1, List.flatMap_congr (g := fun res => ((d'.2 res).getD (List.replicate T true)).map latexCell) (fun r hr => by rw [h r hr])]

theorem groups5 : groups 5 = [0, 5, 10] := by decide

/-- **C78** The table does not depend on the outcomes at resolution 0 (nor on any beyond 15): a test that fails there is not shown. -/
theorem C78_resolution_zero_hidden {T : ℕ} {data data' : List Results}
    (h : List.Forall₂ (fun d d' : Results => d.1 = d'.1 ∧ ∀ r, 1 ≤ r → r ≤ 15 → d.2 r = d'.2 r) data data') : latexTable 5 T data = latexTable 5 T data' := by
  have hg : ∀ g ∈ groups 5, groupLines 5 T data g = groupLines 5 T data' g := by
    intro g hg
    have hg : g = 0 ∨ g = 5 ∨ g = 10 := by simpa [groups5] using hg
    unfold groupLines
    refine congrArg (fun x => _ :: _ :: x) ?_
    induction h with
    | nil => rfl
    | cons hd _ ih =>
      rw [List.flatMap_cons, List.flatMap_cons, ih, latexRow_congr hd.1 (fun r hr => hd.2 r ?_ ?_)]
      · obtain ⟨m, hm, rfl⟩ := List.mem_map.1 hr
        omega
      · obtain ⟨m, hm, rfl⟩ := List.mem_map.1 hr
        rw [List.mem_range] at hm
        omega
  unfold latexTable latexLines
  rw [List.flatMap_congr hg]

/-- The outcomes shown in the rows of a group. -/
def shown (os : List (List Bool)) (g : ℕ) : List (List Char) := (((os.drop (g + 1)).take 5).flatten).map colourName

theorem le_maxCase {rs : List ℕ} : ∀ {r : ℕ}, r ∈ rs → r ≤ maxCase rs := by
  induction rs with
  | nil => simp
  | cons x rs ih =>
    intro r hr
    rcases List.mem_cons.1 hr with rfl | hr
    · exact le_max_left _ _
    · exact (ih hr).trans (le_max_right _ _)

theorem maxCase_le {rs : List ℕ} {m : ℕ} (h : ∀ r ∈ rs, r ≤ m) : maxCase rs ≤ m := by
  induction rs with
  | nil => exact Nat.zero_le _
  | cons x rs ih => exact max_le (h x (by simp)) (ih fun r hr => h r (by simp [hr]))

theorem cells_of {o : List (List Bool)} (s : o.length = 16 ∧ ∀ x ∈ o, x.length = 9) {g : ℕ} (hg : g ≤ 10) :
    ((groupRes 5 g).flatMap (fun res => (o[res]?).getD (List.replicate 9 true))).map colourName = shown o g := by
  unfold shown
  congr 1
  have e : (o.drop (g + 1)).take 5 = (groupRes 5 g).map (fun res => (o[res]?).getD (List.replicate 9 true)) := by
    refine List.ext_getElem ?_ fun n h1 h2 => ?_
    · simp [groupRes, s.1]; omega
    · simp [groupRes] at h2
      have : g + 1 + n < o.length := by rw [s.1]; omega
      simp [groupRes, List.getElem?_eq_getElem this]
  rw [e, List.flatMap_def]

/-! ### The output of `go test` -/

/-- A text behind the only dashes of a line. -/
theorem only_dashes {ind w q : List Char} (h1 : '-' ∉ ind) (h2 : '-' ∉ w) (h : "--- ".toList ++ q <:+: ind ++ "--- ".toList ++ w) : q <+: w := by
  obtain ⟨u, v, h⟩ := h
  have c := congrArg (List.count '-') h
  have c3 : List.count '-' "--- ".toList = 3 := by decide
  simp only [List.count_append, c3, List.count_eq_zero_of_not_mem h1, List.count_eq_zero_of_not_mem h2] at c
  have hu : '-' ∉ u := List.count_eq_zero.1 (by omega)
  have d := congrArg (List.dropWhile (fun c => decide (c ≠ '-'))) h
  have skip : ∀ {a s : List Char}, '-' ∉ a → List.dropWhile (fun c => decide (c ≠ '-')) (a ++ ("--- ".toList ++ s)) = "--- ".toList ++ s := by
    intro a s ha
    rw [List.dropWhile_append_of_pos (fun x hx => by simp; rintro rfl; exact ha hx)]
    rfl
  rw [List.append_assoc u, List.append_assoc, List.append_assoc, skip hu, skip h1] at d
  exact ⟨v, List.append_cancel_left d⟩

/-- The text that announces a passed subtest. -/
def passText (name : List Char) : List Char := "--- PASS: ".toList ++ name ++ "/bn254".toList
/-- The text that announces a failed subtest. -/
def failText (name : List Char) : List Char := "--- FAIL: ".toList ++ name ++ "/".toList

theorem other_text {name l : List Char} (h : GoTest.Other name l) : ¬ passText name <:+: l ∧ ¬ failText name <:+: l := by
  have e1 : passText name = "--- ".toList ++ ("PASS: ".toList ++ (name ++ "/bn254".toList)) := by unfold passText; rw [List.append_assoc]; rfl
  have e2 : failText name = "--- ".toList ++ ("FAIL: ".toList ++ (name ++ "/".toList)) := by unfold failText; rw [List.append_assoc]; rfl
  rw [e1, e2]
  cases h with
  | plain h => exact ⟨fun h' => h ((List.prefix_append _ _).isInfix.trans h'), fun h' => h ((List.prefix_append _ _).isInfix.trans h')⟩
  | @report ind rest pass h1 h2 h3 =>
    rw [List.append_assoc]
    have hw : '-' ∉ (if pass then "PASS: ".toList else "FAIL: ".toList) ++ rest := nl_append (by cases pass <;> decide) h2
    refine ⟨fun h => ?_, fun h => ?_⟩
    · have h := only_dashes h1 hw h
      cases pass with
      | true =>
        obtain ⟨v, h⟩ := h
        rw [List.append_assoc] at h
        have h := List.append_cancel_left h
        refine h3 ⟨"bn254".toList ++ v, ?_⟩
        rw [← h]
        simp
      | false =>
        obtain ⟨v, h⟩ := h
        exact absurd (Option.some.inj (show some 'P' = some 'F' from congrArg List.head? h)) (by decide)
    · have h := only_dashes h1 hw h
      cases pass with
      | false =>
        obtain ⟨v, h⟩ := h
        rw [List.append_assoc] at h
        have h := List.append_cancel_left h
        exact h3 ⟨v, h⟩
      | true =>
        obtain ⟨v, h⟩ := h
        exact absurd (Option.some.inj (show some 'F' = some 'P' from congrArg List.head? h)) (by decide)

/-- **C64** The output of `go test -v` for a test reports the outcomes of its subtests in the way the loops of the script look for them. -/
theorem C64_go_log {name : List Char} (hn : '-' ∉ name) {os : List Bool} {log : List (List Char)} (h : GoTest.Log name os log) : Log (passText name) (failText name) os log := by
  induction h with
  | nil => exact .nil
  | other h _ ih => exact .other (other_text h).1 (other_text h).2 ih
  | report h _ ih =>
    refine .report ?_ ih
    cases h with
    | @pass num t _ _ h1 h2 =>
      refine .pass ⟨"    ".toList, num ++ " (".toList ++ t ++ ")".toList, ?_⟩
      unfold passText
      simp only [List.append_assoc]
      rfl
    | @fail num t h1 h2 =>
      refine .fail ⟨"    ".toList, "bn254".toList ++ num ++ " (".toList ++ t ++ ")".toList, ?_⟩ ?_
      · unfold failText
        simp only [List.append_assoc]
        rfl
      · have e1 : passText name = "--- ".toList ++ ("PASS: ".toList ++ (name ++ "/bn254".toList)) := by unfold passText; rw [List.append_assoc]; rfl
        have e2 : "    --- FAIL: ".toList ++ name ++ "/bn254".toList ++ num ++ " (".toList ++ t ++ ")".toList =
            "    ".toList ++ "--- ".toList ++ ("FAIL: ".toList ++ (name ++ ("/bn254".toList ++ (num ++ (" (".toList ++ (t ++ ")".toList)))))) := by
          simp only [List.append_assoc]
          rfl
        rw [e1, e2]
        intro h
        obtain ⟨v, h⟩ := only_dashes (by decide) (nl_append (by decide) (nl_append hn (nl_append (by decide) (nl_append h1 (nl_append (by decide) (nl_append h2 (by decide))))))) h
        exact absurd (Option.some.inj (show some 'P' = some 'F' from congrArg List.head? h)) (by decide)

/-- **C64** On the output of `go test -v -run TestLoc2Index32` the script finds exactly the outcomes. (For `TestLoc2IndexFromFile` see `C78_script_partial`.) -/
theorem C64_go_table {os : List (List Bool)} (h0 : ∀ o ∈ os, o ≠ []) {log : List (List Char)} (h : GoTest.Log "TestLoc2Index32".toList os.flatten log) :
    readTestResults pass32 fail32 (fun r => os[r]?.map List.length) (os.length - 1) log = some (fun r => os[r]?) := by
  have h := C64_go_log (by decide) h
  rw [show passText "TestLoc2Index32".toList = pass32 by decide +kernel, show failText "TestLoc2Index32".toList = fail32 by decide +kernel] at h
  exact C64_table_exact h0 h

/-- The script on logs that announce every outcome. -/
theorem script_rows {w : ℕ} {l l' : List (ℕ × ℕ × ℕ × ℕ × ℕ × ℕ)} {w' : ℕ} (h9 : ∀ r < 16, (l.map (fun q => q.2.2.1)).count r = 9) (h16 : ∀ q ∈ l, q.2.2.1 < 16)
    {o6 o12 o32 : List (List Bool)} (s6 : o6.length = 16 ∧ ∀ o ∈ o6, o.length = 9) (s12 : o12.length = 16 ∧ ∀ o ∈ o12, o.length = 9) (s32 : o32.length = 16 ∧ ∀ o ∈ o32, o.length = 9)
    {log6 log12 log32 log64 : List (List Char)} (g6 : Log passP failP o6.flatten log6) (g12 : Log passP failP o12.flatten log12) (g32 : Log pass32 fail32 o32.flatten log32)
    (g64 : ∀ t ∈ log64, ¬ pass32 <:+: t ∧ ¬ fail32 <:+: t) :
    (latexScript (l.flatMap (fun q => writeLine w q.1 q.2.1 q.2.2.1 q.2.2.2.1 q.2.2.2.2.1 q.2.2.2.2.2)) (l'.flatMap (fun q => writeLine w' q.1 q.2.1 q.2.2.1 q.2.2.2.1 q.2.2.2.2.1 q.2.2.2.2.2))
      log6 log12 log32 log64).map rows =
    some ([0, 5, 10].flatMap (fun g => [("P6".toList, shown o6 g), ("P12".toList, shown o12 g), ("F32".toList, shown o32 g), ("F64".toList, List.replicate 45 "green".toList)])) := by
  unfold latexScript
  rw [C78_cases, C78_cases]
  have hmem : ∀ r ∈ l.map (fun q => q.2.2.1), r < 16 := fun r hr => by
    obtain ⟨q, hq, rfl⟩ := List.mem_map.1 hr
    exact h16 q hq
  generalize l.map (fun q => q.2.2.1) = rs at h9 hmem
  have hin : ∀ r, r ∈ rs ↔ r < 16 := fun r => ⟨hmem r, fun h => List.count_pos_iff.1 (by rw [h9 r h]; norm_num)⟩
  have hmax : maxCase rs = 15 := le_antisymm (maxCase_le fun r hr => by have := hmem r hr; omega) (le_maxCase ((hin 15).2 (by norm_num)))
  have hc : ∀ {o : List (List Bool)}, (o.length = 16 ∧ ∀ x ∈ o, x.length = 9) → testCases rs = fun r => o[r]?.map List.length := by
    intro o s
    funext r
    unfold testCases
    by_cases hr : r < 16
    · have : r < o.length := by rw [s.1]; exact hr
      rw [if_pos ((hin r).2 hr), h9 r hr, List.getElem?_eq_getElem this, Option.map_some, s.2 _ (List.getElem_mem this)]
    · rw [if_neg (fun h => hr ((hin r).1 h)), List.getElem?_eq_none (by rw [s.1]; omega), Option.map_none]
  have hres : ∀ {pass fail : List Char} {o : List (List Bool)} {log : List (List Char)}, (o.length = 16 ∧ ∀ x ∈ o, x.length = 9) → Log pass fail o.flatten log →
      readTestResults pass fail (testCases rs) (maxCase rs) log = some (fun r : ℕ => o[r]?) := by
    intro pass fail o log s hl
    have := C64_table_exact (fun x hx => by have := s.2 x hx; rintro rfl; simp at this) hl
    rw [hc s, hmax]
    rwa [s.1] at this
  simp only [Option.bind_eq_bind, Option.bind_some]
  rw [hres s6 g6, hres s12 g12, hres s32 g32, C64_unmatched_log_green _ _ g64]
  simp only [Option.bind_eq_bind, Option.bind_some, Option.pure_def, Option.map_some]
  have hne : ∀ {o : List (List Bool)}, (o.length = 16 ∧ ∀ x ∈ o, x.length = 9) → ∀ r : ℕ, o[r]? ≠ some [] := by
    intro o s r h
    have := s.2 [] (List.mem_of_getElem? h)
    simp at this
  rw [C78_table_rows (by norm_num) (by norm_num), groups5]
  · refine congrArg some (List.flatMap_congr fun g hg => ?_)
    have hg : g ≤ 10 := by
      have : g = 0 ∨ g = 5 ∨ g = 10 := by simpa using hg
      omega
    simp only [List.map_cons, List.map_nil]
    rw [cells_of s6 hg, cells_of s12 hg, cells_of s32 hg]
    have e : ((groupRes 5 g).flatMap (fun res => ((testCases rs res).map (fun n => List.replicate n true)).getD (List.replicate 9 true))).map colourName =
        List.replicate 45 "green".toList := by
      rw [List.flatMap_congr (g := fun _ => List.replicate 9 true) (fun r hr => by
        obtain ⟨m, hm, rfl⟩ := List.mem_map.1 hr
        rw [List.mem_range] at hm
        rw [testCases, if_pos ((hin _).2 (by omega)), h9 _ (by omega)]; rfl)]
      rfl
    rw [e]
  · intro d hd
    simp only [List.mem_cons, List.not_mem_nil, or_false] at hd
    rcases hd with rfl | rfl | rfl | rfl
    · exact ⟨by dsimp only; decide, by dsimp only; decide, by dsimp only; decide, hne s6⟩
    · exact ⟨by dsimp only; decide, by dsimp only; decide, by dsimp only; decide, hne s12⟩
    · exact ⟨by dsimp only; decide, by dsimp only; decide, by dsimp only; decide, hne s32⟩
    · refine ⟨by dsimp only; decide, by dsimp only; decide, by dsimp only; decide, fun r => ?_⟩
      simp only
      unfold testCases
      split_ifs with h
      · rw [h9 r ((hin r).1 h)]; simp
      · simp

/-- **C78** The script on the repository's table (16 resolutions with nine tests each) and the output of `go test -v` for the tests: the rows show the outcomes of the resolutions 1 to 15 in order,
except that the rows of double precision are green whatever the log of `TestLoc2Index64` says (see C64), which is what is missing from the claim. -/
theorem C78_script_partial {w : ℕ} {l l' : List (ℕ × ℕ × ℕ × ℕ × ℕ × ℕ)} {w' : ℕ} (h9 : ∀ r < 16, (l.map (fun q => q.2.2.1)).count r = 9) (h16 : ∀ q ∈ l, q.2.2.1 < 16)
    {o6 o12 o32 : List (List Bool)} (s6 : o6.length = 16 ∧ ∀ o ∈ o6, o.length = 9) (s12 : o12.length = 16 ∧ ∀ o ∈ o12, o.length = 9) (s32 : o32.length = 16 ∧ ∀ o ∈ o32, o.length = 9)
    {o64 : List Bool} {log6 log12 log32 log64 : List (List Char)} (g6 : GoTest.Log "TestLoc2IndexFromFile".toList o6.flatten log6)
    (g12 : GoTest.Log "TestLoc2IndexFromFile".toList o12.flatten log12) (g32 : GoTest.Log "TestLoc2Index32".toList o32.flatten log32)
    (g64 : GoTest.Log "TestLoc2Index64".toList o64 log64) (f64 : ∀ t ∈ log64, ¬ "TestLoc2Index32".toList <:+: t) :
    (latexScript (l.flatMap (fun q => writeLine w q.1 q.2.1 q.2.2.1 q.2.2.2.1 q.2.2.2.2.1 q.2.2.2.2.2)) (l'.flatMap (fun q => writeLine w' q.1 q.2.1 q.2.2.1 q.2.2.2.1 q.2.2.2.2.1 q.2.2.2.2.2))
      log6 log12 log32 log64).map rows =
    some ([0, 5, 10].flatMap (fun g => [("P6".toList, shown o6 g), ("P12".toList, shown o12 g), ("F32".toList, shown o32 g), ("F64".toList, List.replicate 45 "green".toList)])) := by
  have hP : passText "TestLoc2IndexFromFile".toList = passP ∧ failText "TestLoc2IndexFromFile".toList = failP := by decide +kernel
  have h32 : passText "TestLoc2Index32".toList = pass32 ∧ failText "TestLoc2Index32".toList = fail32 := by decide +kernel
  have k6 := C64_go_log (by decide) g6
  have k12 := C64_go_log (by decide) g12
  have k32 := C64_go_log (by decide) g32
  rw [hP.1, hP.2] at k6 k12
  rw [h32.1, h32.2] at k32
  refine script_rows h9 h16 s6 s12 s32 k6 k12 k32 (fun t ht => ⟨fun h => f64 t ht (List.IsInfix.trans ?_ h), fun h => f64 t ht (List.IsInfix.trans ?_ h)⟩)
  · decide +kernel
  · decide +kernel

/-! ### A concrete case -/

/-- The line of a failed test, without a number. -/
def failLine (name : List Char) : List Char := "    --- FAIL: ".toList ++ name ++ "/bn254".toList ++ [] ++ " (".toList ++ "0.00s".toList ++ ")".toList

theorem log_all (name : List Char) : ∀ n, GoTest.Log name (List.replicate n false) (List.replicate n (failLine name))
  | 0 => .nil
  | n + 1 => .report (r := [failLine name]) (.fail (num := []) (by simp) (by decide)) (log_all name n)

/-- All tests of all four logs fail: the table has red cells in the first three rows of each group, and the rows of double precision are green. -/
example : ∃ cases log6 log32 log64 : List (List Char), log64 = List.replicate 144 "    --- FAIL: TestLoc2Index64/bn254 (0.00s)".toList ∧
    (latexScript cases.flatten cases.flatten log6 log6 log32 log64).map rows =
    some ([0, 5, 10].flatMap (fun g => [("P6".toList, List.replicate 45 "red".toList), ("P12".toList, List.replicate 45 "red".toList), ("F32".toList, List.replicate 45 "red".toList),
      ("F64".toList, List.replicate 45 "green".toList)])) := by
  let l : List (ℕ × ℕ × ℕ × ℕ × ℕ × ℕ) := (List.range 144).map (fun m => (m, m, m / 9, 1, 0, 1))
  let o : List (List Bool) := List.replicate 16 (List.replicate 9 false)
  have so : o.length = 16 ∧ ∀ x ∈ o, x.length = 9 := by decide
  have eo : o.flatten = List.replicate 144 false := by decide
  refine ⟨l.map (fun q => writeLine 8 q.1 q.2.1 q.2.2.1 q.2.2.2.1 q.2.2.2.2.1 q.2.2.2.2.2), List.replicate 144 (failLine "TestLoc2IndexFromFile".toList),
    List.replicate 144 (failLine "TestLoc2Index32".toList), _, rfl, ?_⟩
  have h := C78_script_partial (w := 8) (w' := 8) (l := l) (l' := l) (by decide +kernel) (by decide +kernel) so so so
    (by rw [eo]; exact log_all _ 144) (by rw [eo]; exact log_all _ 144) (by rw [eo]; exact log_all _ 144) (log_all "TestLoc2Index64".toList 144)
    (fun t ht => by rw [List.eq_of_mem_replicate ht]; decide +kernel)
  rw [show failLine "TestLoc2Index64".toList = "    --- FAIL: TestLoc2Index64/bn254 (0.00s)".toList by decide +kernel] at h
  rw [← List.flatMap_def, h]
  decide +kernel

/-- Lines 921-925, 1328 and the third last of the repository's log of single precision (/repo/benchmarks/tests/loc2index32_g16_bn254.txt) have the form of `GoTest.Log`. -/
example : GoTest.Log "TestLoc2Index32".toList [true, false] ["        \tTest:       \tTestLoc2Index32/bn254#143".toList, "--- FAIL: TestLoc2Index32 (26.53s)".toList, "    --- PASS: TestLoc2Index32/bn254 (0.22s)".toList,
    "        --- PASS: TestLoc2Index32/bn254/groth16 (0.19s)".toList, "            --- PASS: TestLoc2Index32/bn254/groth16/valid_witness (0.02s)".toList,
    "    --- FAIL: TestLoc2Index32/bn254#135 (0.00s)".toList, "FAIL".toList] := by
  refine .other (.plain (by decide +kernel)) (.other ?_ ?_)
  · exact .report (indent := []) (rest := "TestLoc2Index32 (26.53s)".toList) (pass := false) (by simp) (by decide) (by decide +kernel)
  · refine .report (r := [_, _, _]) (o := true) ?_ (.report (r := [_]) (o := false) ?_ (.other (.plain (by decide +kernel)) .nil))
    · exact .pass (num := []) (t := "0.22s".toList) (t' := "0.19s".toList) (t'' := "0.02s".toList) (by simp) (by decide)
    · exact .fail (num := "#135".toList) (t := "0.00s".toList) (by decide) (by decide)

/-- A table in which only a test of resolution 0 fails is the table in which none fails. -/
example : latexTable 5 9 [("F32".toList, fun r => if r = 0 then some [false] else some [true])] = latexTable 5 9 [("F32".toList, fun _ => some [true])] :=
  C78_resolution_zero_hidden (.cons ⟨rfl, fun r h _ => by simp; omega⟩ .nil)

end ZkLoc.Bench
