import Verif.Vectors
import Verif.BenchSpec
import Verif.Spec.Vectors
import Verif.Props.Circuits

/-!
# Helper lemmas for C67
-/

namespace ZkLoc.Vectors
open ZkLoc.Bench ZkLoc.Text _root_.Text _root_.Vectors

variable {p b : ℕ} [Fact p.Prime] {f : Fmt}

/-! ### Reading a printed table -/

theorem word_space {w : List Char} (h : Word w) : ∀ x ∈ w, isSpace x = false := by
  intro x hx
  have := h.2 x hx
  simp only [List.mem_cons, List.not_mem_nil, or_false, not_or] at this
  simp [isSpace, isSpc, this]

theorem fields_words : ∀ {ws : List (List Char)}, (∀ w ∈ ws, Word w) → fields ([' '].intercalate ws) = ws
  | [], _ => by decide
  | [w], h => by
    rw [List.intercalate_singleton]
    exact fields_end (word_space (h w (by simp))) (h w (by simp)).1
  | w :: v :: ws, h => by
    have e : [' '].intercalate (w :: v :: ws) = w ++ ' ' :: [' '].intercalate (v :: ws) := by simp [List.intercalate]
    rw [e, fields_word (word_space (h w (by simp))) (by decide) (h w (by simp)).1, fields_words (fun x hx => h x (by simp at hx ⊢; tauto))]

theorem mem_intercalate {c : Char} : ∀ {ws : List (List Char)}, c ∈ [' '].intercalate ws → c = ' ' ∨ ∃ w ∈ ws, c ∈ w
  | [], h => by simp [List.intercalate] at h
  | [w], h => by rw [List.intercalate_singleton] at h; exact Or.inr ⟨w, by simp, h⟩
  | w :: v :: ws, h => by
    have e : [' '].intercalate (w :: v :: ws) = w ++ ' ' :: [' '].intercalate (v :: ws) := by simp [List.intercalate]
    rw [e, List.mem_append, List.mem_cons] at h
    rcases h with h | h | h
    · exact Or.inr ⟨w, by simp, h⟩
    · exact Or.inl h
    · rcases mem_intercalate h with h | ⟨x, h1, h2⟩
      · exact Or.inl h
      · exact Or.inr ⟨x, List.mem_cons_of_mem _ h1, h2⟩

theorem line_chars {ws : List (List Char)} (h : ∀ w ∈ ws, Word w) : '\n' ∉ [' '].intercalate ws ∧ '\r' ∉ [' '].intercalate ws := by
  constructor <;> intro hc <;> rcases mem_intercalate hc with h1 | ⟨w, h1, h2⟩
  · cases h1
  · exact absurd ((h w h1).2 _ h2) (by simp)
  · cases h1
  · exact absurd ((h w h1).2 _ h2) (by simp)

theorem scanLines_table : ∀ {rows : List (List (List Char))}, (∀ ws ∈ rows, ∀ w ∈ ws, Word w) → scanLines (printTable rows) = rows.map ([' '].intercalate ·)
  | [], _ => by decide
  | ws :: rows, h => by
    obtain ⟨h1, h2⟩ := line_chars (h ws (by simp))
    have e : printTable (ws :: rows) = [' '].intercalate ws ++ '\n' :: printTable rows := by simp [printTable, printLine]
    rw [e, scanLines_line h1 (fun hh => h2 (List.mem_of_getLast? hh)), scanLines_table (fun x hx => h x (by simp [hx]))]
    rfl

/-- Every line of a printed table is checked, and nothing else. -/
theorem table_lines {rows : List (List (List Char))} (h : ∀ ws ∈ rows, ∀ w ∈ ws, Word w) {P : List Char → Prop} :
    (∀ line ∈ linesOf (some (printTable rows)), P line) ↔ ∀ ws ∈ rows, P ([' '].intercalate ws) := by
  simp only [linesOf, scanLines_table h, List.mem_map, forall_exists_index, and_imp, forall_apply_eq_imp_iff₂]

theorem hex_setString {w : List Char} {n : ℕ} (h : Hex w n) : setString16 w = some (n : ℤ) := setString16_nat h.1 h.2

/-- `strconv.ParseUint` on a number in range. -/
theorem parseLoopGo_eq {bits : ℕ} : ∀ {s : List Char} {acc n : ℕ}, hexNat acc s = some n → n < 2 ^ bits → parseLoopGo bits acc s = n
  | [], acc, n, h, _ => by simpa [hexNat, parseLoopGo] using h
  | c :: s, acc, n, h, hn => by
    rw [hexNat] at h
    rw [parseLoopGo]
    cases hd : digitVal c with
    | none => simp [hd] at h
    | some d =>
      simp only [hd] at h ⊢
      split_ifs at h with h1
      have hmono : ∀ {s : List Char} {a m : ℕ}, hexNat a s = some m → a ≤ m := by
        intro s
        induction s with
        | nil => intro a m h; simp [hexNat] at h; omega
        | cons c s ih =>
          intro a m h
          rw [hexNat] at h
          cases hd : digitVal c with
          | none => simp [hd] at h
          | some d =>
            simp only [hd] at h
            split_ifs at h
            have := ih h
            omega
      have := hmono h
      rw [if_neg (by omega), if_pos (by omega), parseLoopGo_eq h hn]

theorem hex_parseUint {w : List Char} {n bits : ℕ} (h : Hex w n) (hn : n < 2 ^ bits) : parseUintGo bits w = n := by
  rw [parseUintGo, if_neg h.1, parseLoopGo_eq (hexNat_iff.2 h.2) hn]

theorem wrapInt_iff {bits n : ℕ} (hb : 0 < bits) (hn : n < 2 ^ bits) {v : ℤ} : wrapInt bits n = v ↔ TwosComplement bits n v := by
  obtain ⟨c, rfl⟩ : ∃ c, bits = c + 1 := ⟨bits - 1, by omega⟩
  unfold wrapInt TwosComplement
  rw [Nat.mod_eq_of_lt hn, Nat.add_sub_cancel]
  have hp : (0:ℤ) < 2 ^ c := by positivity
  have e : (2:ℤ) ^ (c + 1) = 2 * 2 ^ c := by ring
  have hn' : (n:ℤ) < 2 * 2 ^ c := by rw [← e]; exact_mod_cast hn
  have h0 : (0:ℤ) ≤ n := by positivity
  have hlt : n < 2 ^ c ↔ (n:ℤ) < 2 ^ c := by
    constructor
    · intro h; exact_mod_cast h
    · intro h; exact_mod_cast h
  rw [e]
  generalize (2:ℤ) ^ c = q at *
  constructor
  · split_ifs with h
    · rintro rfl; have := hlt.1 h; exact ⟨by omega, by omega, 0, by ring⟩
    · rintro rfl; have := mt hlt.2 h; exact ⟨by omega, by omega, -1, by ring⟩
  · rintro ⟨h1, h2, k, rfl⟩
    have hk : k = 0 ∨ k = -1 := by
      have a1 : k < 1 := by by_contra hh; nlinarith
      have a2 : -2 < k := by by_contra hh; nlinarith
      omega
    rcases hk with rfl | rfl
    · rw [if_pos (hlt.2 (by omega))]; ring
    · rw [if_neg (fun h => by have := hlt.1 h; omega)]; ring

/-! ### The honest prover of the comparison, allocation and conversion circuits -/

theorem comparison_run {op : FloatVar p → FloatVar p → Circ p (ZMod p)} {R : Ieee.Datum → Ieee.Datum → Prop} (G : Good p b f)
    (h64 : 1 + f.E + f.M ≤ 64) (hop : ∀ {x y dx dy}, Encodes f x dx → Encodes f y dy → (op x y).run b = some (wireOf (R dx dy)))
    (X Y Z : ZMod p) :
    (comparisonCircuit f op X Y Z).run b = some () ↔ IsPattern f X ∧ IsPattern f Y ∧ Z = wireOf (R (datumOf f X) (datumOf f Y)) := by
  unfold comparisonCircuit
  simp only [Circ.bind_eq, Circ.run_bind, Option.bind_eq_some_iff, newFloat_run_iff G h64]
  constructor
  · rintro ⟨_, ⟨h1, rfl⟩, _, ⟨h2, rfl⟩, _, h3, r, h4, h5⟩
    refine ⟨h1, h2, ?_⟩
    rw [hop (wiresOf_encodes G h64 h1) (wiresOf_encodes G h64 h2), Option.some.injEq] at h4
    have := Circ.sat_of_run (st := true) _ _ h5
    simp only [assertIsEqual, Circ.Sat, decide_eq_true_eq] at this
    rw [← this.1, h4]
  · rintro ⟨h1, h2, rfl⟩
    refine ⟨_, ⟨h1, rfl⟩, _, ⟨h2, rfl⟩, (), ?_, _, hop (wiresOf_encodes G h64 h1) (wiresOf_encodes G h64 h2), ?_⟩
    · unfold wireOf
      split <;> simp [assertIsBoolean, Circ.run, isBool]
    · simp [assertIsEqual, Circ.run]

theorem allocation_run (G : Good p b f) (h64 : 1 + f.E + f.M ≤ 64) (X : ZMod p) {y : ℕ} (hy : y < 2 ^ (1 + f.E + f.M)) :
    (allocationCircuit f X y).run b = some () ↔ IsPattern f X ∧ datumOf f X = Ieee.decodeBits ⟨f.E, f.M⟩ y := by
  have hyp : ((y : ℕ) : ZMod p).val = y := ZMod.val_natCast_of_lt (G.lt_of_lt_pow hy (by have := G.hEM; omega))
  have hY : IsPattern f ((y : ℕ) : ZMod p) := by unfold IsPattern; rw [hyp]; exact hy
  have eY := wiresOf_encodes G h64 hY
  have e1 : wiresOf f ((y : ℕ) : ZMod p) = newConstant f y := by unfold wiresOf newConstant; rw [hyp]
  have e2 : datumOf f ((y : ℕ) : ZMod p) = Ieee.decodeBits ⟨f.E, f.M⟩ y := by unfold datumOf; rw [hyp]
  rw [e1, e2] at eY
  unfold allocationCircuit
  simp only [Circ.bind_eq, Circ.run_bind, Option.bind_eq_some_iff, newFloat_run_iff G h64]
  constructor
  · rintro ⟨_, ⟨h1, rfl⟩, h⟩
    exact ⟨h1, (C28_assertIsEqual G (wiresOf_encodes G h64 h1) eY).1.1 h⟩
  · rintro ⟨h1, h⟩
    exact ⟨_, ⟨h1, rfl⟩, (C28_assertIsEqual G (wiresOf_encodes G h64 h1) eY).1.2 h⟩

theorem toInt_run_nat (G : Good p b f) {x : FloatVar p} {s : Bool} {n : ℕ} (ex : Encodes f x (.fin s n)) (hn : n < 2 ^ f.pow2Size) :
    (fToInt f x).run b = some (signedNat s n) := by
  have ha : (n:ℝ) = 0 ∨ (1 ≤ (n:ℝ) ∧ (n:ℝ) < 2 ^ f.pow2Size) := by
    rcases Nat.eq_zero_or_pos n with h | h
    · left; simp [h]
    · right; exact ⟨by exact_mod_cast h, by exact_mod_cast hn⟩
  obtain ⟨r', h1, h2⟩ := C27_toInt_complete (b := b) G ex ha
  have h3 := h2 n 0 (by simp)
  rw [h1, ← h3]; simp

theorem conversion_run (G : Good p b f) (h64 : 1 + f.E + f.M ≤ 64) (hsz : (f.pow2Size : ℤ) ≤ 2 ^ (f.E - 1))
    {op : FloatVar p → Circ p (FloatVar p)} {R : Ieee.Datum → Ieee.Datum → Prop} (huniq : ∀ {x d d'}, R x d → R x d' → d = d')
    (hrun : ∀ {x dx}, Encodes f x dx → ∃ r d, (op x).run b = some r ∧ Encodes f r d ∧ R dx d)
    (hint : ∀ {dx s a}, R dx (.fin s a) → ∃ n : ℕ, a = n) (X Y : ZMod p) :
    (conversionCircuit f op X Y).run b = some () ↔ IsPattern f X ∧
      ∃ (s : Bool) (n : ℕ), n < 2 ^ f.pow2Size ∧ R (datumOf f X) (.fin s n) ∧ Y = signedNat s n := by
  unfold conversionCircuit
  simp only [Circ.bind_eq, Circ.run_bind, Option.bind_eq_some_iff, newFloat_run_iff G h64]
  constructor
  · rintro ⟨_, ⟨hX, rfl⟩, x, hx, r, hr, he⟩
    refine ⟨hX, ?_⟩
    obtain ⟨r', d, h3, h4, h5⟩ := hrun (wiresOf_encodes G h64 hX)
    rw [hx, Option.some.injEq] at h3; subst h3
    have he' := Circ.sat_of_run (st := true) _ _ he
    simp only [assertIsEqual, Circ.Sat, decide_eq_true_eq, and_true] at he'
    by_cases hd : ∀ s a, d = .fin s a → (2:ℝ) ^ f.pow2Size ≤ a
    · exact absurd (Circ.sat_of_run (st := true) _ _ hr) (C27_toInt_rejects_large G h4 hd hsz)
    · push Not at hd
      obtain ⟨s, a, rfl, ha⟩ := hd
      obtain ⟨n, rfl⟩ := hint h5
      have hn : n < 2 ^ f.pow2Size := by exact_mod_cast ha
      refine ⟨s, n, hn, h5, ?_⟩
      rw [toInt_run_nat G h4 hn, Option.some.injEq] at hr
      rw [← he', hr]
  · rintro ⟨hX, s, n, hn, h5, rfl⟩
    obtain ⟨r, d, h6, h7, h8⟩ := hrun (wiresOf_encodes G h64 hX)
    cases huniq h5 h8
    exact ⟨_, ⟨hX, rfl⟩, r, h6, _, toInt_run_nat G h7 hn, by simp [assertIsEqual, Circ.run]⟩

end ZkLoc.Vectors
