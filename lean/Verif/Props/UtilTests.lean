import Verif.UtilTests
import Verif.UtilTestsSpec
import Verif.Ground
import Verif.Props.Ground
import Verif.Props.Text

/-!
# C92: what the tests in /repo/util/util_test.go expect of the external program
-/

namespace ZkLoc.UtilTests
open Ieee ZkLoc.Convert _root_.Text

/-- Specification: the program prints the cell `cell` for every request, in a line `I: i, J: j, K: k` before which there is no letter `I` and after which there is no digit. -/
def Prints (run : ℕ → ℝ → ℝ → Option (List Char)) (cell : ℕ → ℝ → ℝ → ℕ × ℕ × ℕ) : Prop :=
  ∀ n lat lng, ∃ pre post, run n lat lng = some (pre ++ printIJK (cell n lat lng).1 (cell n lat lng).2.1 (cell n lat lng).2.2 ++ post) ∧ 'I' ∉ pre ∧ ∀ c ∈ post.head?, c ∉ "0123456789".toList

/-! ### Helper lemmas -/

theorem prints_case {run : ℕ → ℝ → ℝ → Option (List Char)} {cell : ℕ → ℝ → ℝ → ℕ × ℕ × ℕ} (h : Prints run cell) (n : ℕ) (lat lng : ℝ) {i j k : ℕ} (hi : i < 2 ^ 62) (hj : j < 2 ^ 62) (hk : k < 2 ^ 62) :
    ijkCase run n lat lng (i, j, k) ↔ cell n lat lng = (i, j, k) := by
  obtain ⟨pre, post, h1, h2, h3⟩ := h n lat lng
  unfold ijkCase
  rw [h1]
  have e := Text.C54_parse_print (cell n lat lng).1 (cell n lat lng).2.1 (cell n lat lng).2.2 h2 h3
  constructor
  · rintro ⟨out, ho, hp⟩
    obtain rfl := Option.some.inj ho
    rw [e] at hp
    simp only [Option.some.injEq, Prod.mk.injEq] at hp
    ext
    · show (cell n lat lng).1 = i; omega
    · show (cell n lat lng).2.1 = j; omega
    · show (cell n lat lng).2.2 = k; omega
  · intro hc
    refine ⟨_, rfl, ?_⟩
    rw [e, hc]
    simp only [Option.some.injEq, Prod.mk.injEq]
    omega

theorem pi_bounds : (3982441812995697363688351113952 - 12 : ℝ) / 2 ^ 100 ≤ Real.pi ∧ Real.pi ≤ (3982441812995697363688351113952 + 12 : ℝ) / 2 ^ 100 := by
  have h := abs_le.1 piX_err
  unfold piX at h
  push_cast at h
  constructor <;> norm_num at h ⊢ <;> linarith [h.1, h.2]

theorem cell_iff {δ₀ ε₀ δ ε φ l : ℝ} {n i j k : ℕ} {c : ℕ × ℕ × ℕ} (h : H3.Inside δ₀ ε₀ n φ l i j k) (h0 : 0 ≤ δ) (h1 : δ ≤ δ₀) (h2 : 0 ≤ ε) (h3 : ε ≤ ε₀) :
    c = (i, j, k) ↔ H3.CellAt δ ε n φ l c.1 c.2.1 c.2.2 := by
  constructor
  · rintro rfl
    exact cellAt_of_inside h (h0.trans h1) (h2.trans h3) h0 h2
  · intro hc
    obtain ⟨a, b, d⟩ := H3.inside_unique (inside_mono h h1 h3) hc
    ext
    · exact_mod_cast a
    · exact_mod_cast b
    · exact_mod_cast d

/-! ### Theorems -/

/-- **C92** The location of `TestExecuteLatLngToIJK` lies in the expected cell `(0, 2620, 17023)` of resolution 10 in exact geometry, far from its border: by more than `1/4` of the grid unit, and by more than
`1/10` in squared distance from the border of the face. -/
theorem C92_degrees_inside {lat lng : ℝ} (h1 : Rounds double 40.689167 lat) (h2 : Rounds double (-74.044444) lng) :
    H3.Inside (1 / 10) (1 / 4) 10 (lat * Real.pi / 180) (lng * Real.pi / 180) 0 2620 17023 := by
  have e1 := rounds_value (n := 5726491166850496) (k := -47) (by norm_num) (by norm_num) (by norm_num) (by norm_num [abs_lt]) h1
  have e2 := rounds_value (n := 5210414537613368) (k := -46) (w := -lng) (x := 74.044444) (by norm_num) (by norm_num) (by norm_num) (by norm_num [abs_lt]) (by simpa using h2.neg')
  obtain rfl : lng = -(((5210414537613368 : ℕ) : ℝ) * 2 ^ (-46 : ℤ)) := by rw [← e2, neg_neg]
  subst e1
  obtain ⟨p1, p2⟩ := pi_bounds
  refine inside_mono (insideCheck60_sound degrees_checked ?_ ?_) ?_ ?_
  · rw [abs_le]; constructor <;> norm_num at p1 p2 ⊢ <;> linarith
  · rw [abs_le]; constructor <;> norm_num at p1 p2 ⊢ <;> linarith
  · norm_num
  · norm_num

/-- **C92** Likewise for `TestExecuteLatLngToIJKWithRadians`, although the angles -1.5 and -3.1 pass through degrees in double arithmetic. -/
theorem C92_radians_inside {a c lat lng : ℝ} (ha : Rounds double (-1.5) a) (hc : Rounds double (-3.1) c) (h1 : RadiansToDegrees a lat) (h2 : RadiansToDegrees c lng) :
    H3.Inside (1 / 10) (1 / 10) 0 (lat * Real.pi / 180) (lng * Real.pi / 180) 1 0 0 := by
  obtain ⟨p1, p2⟩ := pi_bounds
  have q : ∀ c, Rounds double (180 / Real.pi) c → c = (8063664102031864 : ℕ) * (2:ℝ) ^ (-47 : ℤ) := by
    intro c hc
    refine rounds_value (by norm_num) (by norm_num) ?_ ?_ hc
    · rw [le_div_iff₀ Real.pi_pos]; norm_num at p2 ⊢; linarith
    · have u : 180 / Real.pi < ((8063664102031864 : ℕ) + 1 / 2 : ℝ) * 2 ^ (-47 : ℤ) := by rw [div_lt_iff₀ Real.pi_pos]; norm_num at p1 ⊢; linarith
      have v : ((8063664102031864 : ℕ) - 1 / 2 : ℝ) * 2 ^ (-47 : ℤ) < 180 / Real.pi := by rw [lt_div_iff₀ Real.pi_pos]; norm_num at p2 ⊢; linarith
      rw [abs_lt]
      constructor <;> linarith
  have ea := rounds_value (n := 6755399441055744) (k := -52) (w := -a) (x := 1.5) (by norm_num) (by norm_num) (by norm_num) (by norm_num [abs_lt]) (by simpa using ha.neg')
  have ec := rounds_value (n := 6980579422424269) (k := -51) (w := -c) (x := 3.1) (by norm_num) (by norm_num) (by norm_num) (by norm_num [abs_lt]) (by simpa using hc.neg')
  obtain ⟨d, hd, h1⟩ := h1
  obtain ⟨d', hd', h2⟩ := h2
  rw [q d hd] at h1
  rw [q d' hd'] at h2
  have h1 := h1.neg'
  have h2 := h2.neg'
  rw [← neg_mul, ea] at h1
  rw [← neg_mul, ec] at h2
  have e1 := rounds_value (n := 6047748076523898) (k := -46) (by norm_num) (by norm_num) (by norm_num) (by norm_num [abs_lt]) h1
  have e2 := rounds_value (n := 6249339679074695) (k := -45) (by norm_num) (by norm_num) (by norm_num) (by norm_num [abs_lt]) h2
  obtain rfl : lat = -(((6047748076523898 : ℕ) : ℝ) * 2 ^ (-46 : ℤ)) := by rw [← e1, neg_neg]
  obtain rfl : lng = -(((6249339679074695 : ℕ) : ℝ) * 2 ^ (-45 : ℤ)) := by rw [← e2, neg_neg]
  refine inside_mono (insideCheck60_sound radians_checked ?_ ?_) ?_ ?_
  · rw [abs_le]; constructor <;> norm_num at p1 p2 ⊢ <;> linarith
  · rw [abs_le]; constructor <;> norm_num at p1 p2 ⊢ <;> linarith
  · norm_num
  · norm_num

/-- **C92** `TestExecuteLatLngToIJK` passes exactly if the program prints a cell that contains the location, whatever tolerance up to these margins is granted. So it accepts every program that is right
there and rejects every one that is not. -/
theorem C92_degrees_test {run : ℕ → ℝ → ℝ → Option (List Char)} {cell : ℕ → ℝ → ℝ → ℕ × ℕ × ℕ} (h : Prints run cell) {δ ε lat lng : ℝ} (hδ : 0 ≤ δ) (hδ' : δ ≤ 1 / 10) (hε : 0 ≤ ε) (hε' : ε ≤ 1 / 4)
    (h1 : Rounds double 40.689167 lat) (h2 : Rounds double (-74.044444) lng) :
    testDegrees run ↔ H3.CellAt δ ε 10 (lat * Real.pi / 180) (lng * Real.pi / 180) (cell 10 lat lng).1 (cell 10 lat lng).2.1 (cell 10 lat lng).2.2 := by
  rw [← cell_iff (i := 0) (j := 2620) (k := 17023) (by exact_mod_cast C92_degrees_inside h1 h2) hδ hδ' hε hε', ← prints_case h 10 lat lng (by norm_num) (by norm_num) (by norm_num)]
  constructor
  · rintro ⟨x, y, hx, hy, hc⟩
    rwa [hx.unique h1, hy.unique h2] at hc
  · exact fun hc => ⟨lat, lng, h1, h2, hc⟩

/-- **C92** The same for `TestExecuteLatLngToIJKWithRadians`. -/
theorem C92_radians_test {run : ℕ → ℝ → ℝ → Option (List Char)} {cell : ℕ → ℝ → ℝ → ℕ × ℕ × ℕ} (h : Prints run cell) {δ ε a c lat lng : ℝ} (hδ : 0 ≤ δ) (hδ' : δ ≤ 1 / 10) (hε : 0 ≤ ε) (hε' : ε ≤ 1 / 10)
    (ha : Rounds double (-1.5) a) (hc : Rounds double (-3.1) c) (h1 : RadiansToDegrees a lat) (h2 : RadiansToDegrees c lng) :
    testRadians run ↔ H3.CellAt δ ε 0 (lat * Real.pi / 180) (lng * Real.pi / 180) (cell 0 lat lng).1 (cell 0 lat lng).2.1 (cell 0 lat lng).2.2 := by
  rw [← cell_iff (i := 1) (j := 0) (k := 0) (by exact_mod_cast C92_radians_inside ha hc h1 h2) hδ hδ' hε hε', ← prints_case h 0 lat lng (by norm_num) (by norm_num) (by norm_num)]
  have uq : ∀ {x w w' : ℝ}, RadiansToDegrees x w → RadiansToDegrees x w' → w = w' := by
    rintro x w w' ⟨d, hd, hw⟩ ⟨d', hd', hw'⟩
    rw [hd'.unique hd] at hw'
    exact hw.unique hw'
  constructor
  · rintro ⟨a', c', x, y, ha', hc', hx, hy, hh⟩
    rw [ha'.unique ha] at hx
    rw [hc'.unique hc] at hy
    rwa [uq hx h1, uq hy h2] at hh
  · exact fun hh => ⟨a, c, lat, lng, ha, hc, h1, h2, hh⟩

/-- **C92** A program that fails (/repo/h3-master is empty) or whose output has no cell passes neither test. -/
theorem C92_no_cell {run : ℕ → ℝ → ℝ → Option (List Char)} (h : ∀ n lat lng, ∀ out, run n lat lng = some out → Text.parseIJK out = none) : ¬ testDegrees run ∧ ¬ testRadians run := by
  have key : ∀ n lat lng e, ¬ ijkCase run n lat lng e := by
    rintro n lat lng e ⟨out, h1, h2⟩
    rw [h n lat lng out h1] at h2
    cases h2
  exact ⟨fun ⟨_, _, _, _, h⟩ => key _ _ _ _ h, fun ⟨_, _, _, _, _, _, _, _, h⟩ => key _ _ _ _ h⟩

/-- The hypothesis is met by a missing program and by one that prints a negative coordinate. -/
example : ∀ (n : ℕ) (lat lng : ℝ) (out : List Char), (if n = 10 then none else some ([] ++ "I: -".toList ++ "1, J: 0, K: 3".toList)) = some out → Text.parseIJK out = none := by
  intro n lat lng out h
  split_ifs at h
  rw [← Option.some.inj h]
  exact Text.C54_negative_rejected (by decide) (by decide)

/-- The hypotheses are met: a program that always prints the cell `(0, 2620, 17023)` passes the first test and fails the second. -/
example : testDegrees (fun _ _ _ => some (printIJK 0 2620 17023)) ∧ ¬ testRadians (fun _ _ _ => some (printIJK 0 2620 17023)) := by
  have h : Prints (fun _ _ _ => some (printIJK 0 2620 17023)) (fun _ _ _ => (0, 2620, 17023)) := fun n lat lng => ⟨[], [], by simp, by simp, by simp⟩
  have hM : 1 ≤ double.M := by norm_num [double]
  constructor
  · obtain ⟨x, hx⟩ := exists_rounds hM (40.689167 : ℝ)
    obtain ⟨y, hy⟩ := exists_rounds hM (-74.044444 : ℝ)
    exact ⟨x, y, hx, hy, (prints_case h 10 x y (by norm_num) (by norm_num) (by norm_num)).2 rfl⟩
  · rintro ⟨a, c, x, y, -, -, -, -, hc⟩
    have := (prints_case h 0 x y (by norm_num) (by norm_num) (by norm_num)).1 hc
    simp at this

/-- The doubles of the theorems exist. -/
example : (∃ lat, Rounds double 40.689167 lat) ∧ (∃ a lat, Rounds double (-1.5) a ∧ RadiansToDegrees a lat) := by
  have hM : 1 ≤ double.M := by norm_num [double]
  obtain ⟨a, ha⟩ := exists_rounds hM (-1.5 : ℝ)
  obtain ⟨d, hd⟩ := exists_rounds hM (180 / Real.pi)
  obtain ⟨w, hw⟩ := exists_rounds hM (a * d)
  exact ⟨exists_rounds hM _, a, w, ha, d, hd, hw⟩

end ZkLoc.UtilTests
