import Verif.Core
import Mathlib.Data.List.GetD

/-!
# Helper lemmas: the range checker's accepted sets

Exact characterisation of `CheckSat` for the three modes, and completeness of the honest limbs.
-/

namespace ZkLoc

variable {p : ℕ} [Fact p.Prime]

/-- Value of a limb list as a natural number. -/
def natCompose (b : ℕ) : List ℕ → ℕ
  | [] => 0
  | l :: ls => l + 2 ^ b * natCompose b ls

theorem compose_map_cast (b : ℕ) (ls : List ℕ) :
    compose b (ls.map (fun n : ℕ => (n : ZMod p))) = ((natCompose b ls : ℕ) : ZMod p) := by
  induction ls with
  | nil => simp [compose, natCompose]
  | cons l ls ih => simp [compose, natCompose, ih]

theorem compose_eq (b : ℕ) (ls : List (ZMod p)) :
    compose b ls = ((natCompose b (ls.map ZMod.val) : ℕ) : ZMod p) := by
  rw [← compose_map_cast, List.map_map]
  congr 1
  conv_lhs => rw [← List.map_id ls]
  apply List.map_congr_left
  intro x _
  simp

theorem natCompose_lt (b : ℕ) (ls : List ℕ) (h : ∀ l ∈ ls, l < 2 ^ b) :
    natCompose b ls < 2 ^ (ls.length * b) := by
  induction ls with
  | nil => simp [natCompose]
  | cons l ls ih =>
    have h1 := ih (fun x hx => h x (List.mem_cons_of_mem _ hx))
    have h2 := h l (by simp)
    simp only [natCompose, List.length_cons]
    have : 2 ^ ((ls.length + 1) * b) = 2 ^ b * 2 ^ (ls.length * b) := by rw [← pow_add]; ring_nf
    rw [this]
    have h3 : natCompose b ls + 1 ≤ 2 ^ (ls.length * b) := h1
    calc l + 2 ^ b * natCompose b ls < 2 ^ b + 2 ^ b * natCompose b ls := by omega
      _ = 2 ^ b * (natCompose b ls + 1) := by ring
      _ ≤ _ := Nat.mul_le_mul_left _ h3

theorem natCompose_lt_last (b c : ℕ) (ls : List ℕ) (h : ∀ l ∈ ls, l < 2 ^ b) (hne : ls ≠ [])
    (hl : ls.getD (ls.length - 1) 0 < 2 ^ c) :
    natCompose b ls < 2 ^ ((ls.length - 1) * b + c) := by
  induction ls with
  | nil => simp at hne
  | cons l ls ih =>
    have h2 := h l (by simp)
    by_cases hls : ls = []
    · subst hls
      simpa [natCompose] using hl
    · have hpos : 0 < ls.length := List.length_pos_iff.mpr hls
      have h1 := ih (fun x hx => h x (List.mem_cons_of_mem _ hx)) hls (by
        have : ls.length - 1 + 1 = ls.length := by omega
        simp only [List.length_cons, Nat.add_sub_cancel] at hl
        rw [← this, List.getD_cons_succ] at hl
        exact hl)
      simp only [natCompose, List.length_cons, Nat.add_sub_cancel]
      have h4 : 2 ^ (ls.length * b + c) = 2 ^ b * 2 ^ ((ls.length - 1) * b + c) := by
        rw [← pow_add]
        congr 1
        obtain ⟨k, hk⟩ : ∃ k, ls.length = k + 1 := ⟨ls.length - 1, by omega⟩
        rw [hk]; simp; ring
      rw [h4]
      have h3 : natCompose b ls + 1 ≤ 2 ^ ((ls.length - 1) * b + c) := h1
      calc l + 2 ^ b * natCompose b ls < 2 ^ b + 2 ^ b * natCompose b ls := by omega
        _ = 2 ^ b * (natCompose b ls + 1) := by ring
        _ ≤ _ := Nat.mul_le_mul_left _ h3

theorem natCompose_decomposeHint (b n t : ℕ) :
    natCompose b (decomposeHint b n t) = t % 2 ^ (n * b) := by
  induction n generalizing t with
  | zero => simp [decomposeHint, natCompose, Nat.mod_one]
  | succ n ih =>
    simp only [decomposeHint, natCompose, ih]
    have : 2 ^ ((n + 1) * b) = 2 ^ b * 2 ^ (n * b) := by rw [← pow_add]; ring_nf
    rw [this, Nat.mod_mul]

theorem decomposeHint_lt (b n t : ℕ) : ∀ l ∈ decomposeHint b n t, l < 2 ^ b := by
  induction n generalizing t with
  | zero => simp [decomposeHint]
  | succ n ih =>
    intro l hl
    simp only [decomposeHint, List.mem_cons] at hl
    rcases hl with rfl | hl
    · exact Nat.mod_lt _ (by positivity)
    · exact ih _ l hl

theorem decomposeHint_last (b n t : ℕ) :
    (decomposeHint b (n + 1) t).getD n 0 = t / 2 ^ (n * b) % 2 ^ b := by
  induction n generalizing t with
  | zero => simp [decomposeHint]
  | succ n ih =>
    rw [decomposeHint, List.getD_cons_succ, ih, Nat.div_div_eq_div_mul, ← pow_add]
    congr 3; ring

/-! ### `decompSize` and `slack` -/

theorem decompSize_pos {bits b : ℕ} (hb : 0 < b) (hn : 0 < bits) : 0 < decompSize bits b := by
  unfold decompSize; exact Nat.div_pos (by omega) hb

theorem le_decompSize_mul {b : ℕ} (bits : ℕ) (hb : 0 < b) : bits ≤ decompSize bits b * b := by
  unfold decompSize
  have := Nat.div_add_mod (bits + b - 1) b
  have h2 := Nat.mod_lt (bits + b - 1) hb
  have h3 : b * ((bits + b - 1) / b) = (bits + b - 1) / b * b := Nat.mul_comm _ _
  omega

theorem decompSize_mul_lt {bits b : ℕ} (hb : 0 < b) (hn : 0 < bits) :
    decompSize bits b * b < bits + b := by
  unfold decompSize
  have := Nat.div_mul_le_self (bits + b - 1) b
  omega

theorem slack_lt {bits b : ℕ} (hb : 0 < b) (hn : 0 < bits) : slack b bits < b := by
  have := decompSize_mul_lt hb hn
  unfold slack; omega

theorem slack_add {b : ℕ} (bits : ℕ) (hb : 0 < b) : bits + slack b bits = decompSize bits b * b := by
  have := le_decompSize_mul bits hb
  unfold slack; omega

theorem decompSize_of_dvd {b bits : ℕ} (hb : 0 < b) (h : b ∣ bits) : decompSize bits b * b = bits := by
  obtain ⟨k, rfl⟩ := h
  unfold decompSize
  have : (b * k + b - 1) / b = k := by
    rw [show b * k + b - 1 = (b - 1) + b * k by omega, Nat.add_mul_div_left _ _ hb,
      Nat.div_eq_of_lt (by omega)]; omega
  rw [this, Nat.mul_comm]

/-! ### Loose -/

theorem inTable_iff (b : ℕ) (v : ZMod p) : inTable b v = true ↔ v.val < 2 ^ b := by simp [inTable]

theorem inTable_natCast {b l : ℕ} (h : l < 2 ^ b) : inTable b ((l : ℕ) : ZMod p) = true := by
  rw [inTable_iff]; exact lt_of_le_of_lt (val_natCast_le l) h

theorem compose_val_lt (b : ℕ) (ls : List (ZMod p)) (h : ∀ l ∈ ls, inTable b l = true) :
    (compose b ls).val < 2 ^ (ls.length * b) := by
  rw [compose_eq]
  refine lt_of_le_of_lt (val_natCast_le _) ?_
  have := natCompose_lt b (ls.map ZMod.val) (by
    intro l hl
    obtain ⟨x, hx, rfl⟩ := List.mem_map.1 hl
    exact (inTable_iff b x).1 (h x hx))
  simpa using this

/-- The loose check accepts exactly the values below `2^(L*b)`. -/
theorem checkSat_loose_iff {b bits : ℕ} (hb : 0 < b) (hn : 0 < bits) (v : ZMod p) :
    CheckSat b v bits .loose ↔ v.val < 2 ^ (decompSize bits b * b) := by
  have hL := decompSize_pos hb hn
  constructor
  · rintro ⟨limbs, hlen, hok⟩
    simp only [entryOk, Bool.and_eq_true] at hok
    obtain ⟨h1, h2⟩ := hok
    by_cases h : decompSize bits b = 1
    · simp [rangeQueries, h, inTable_iff] at h2
      rw [h]; simpa using h2
    · simp only [recomposes, h, hL.ne', if_false] at h1
      simp only [rangeQueries, h, if_false] at h2
      simp at h1 h2
      rw [h1, ← hlen]
      exact compose_val_lt b limbs (by simpa using h2)
  · intro hv
    apply Circ.checkSat_of_checkRun
    simp only [checkRun, entryOk, Bool.and_eq_true]
    by_cases h : decompSize bits b = 1
    · simp [recomposes, rangeQueries, h, inTable_iff]
      rw [h] at hv; simpa using hv
    · simp only [recomposes, rangeQueries, h, hL.ne', if_false, honestLimbs]
      constructor
      · simp [compose_map_cast, natCompose_decomposeHint, Nat.mod_eq_of_lt hv]
      · simp
        intro l hl
        exact inTable_natCast (decomposeHint_lt _ _ _ l hl)

theorem checkRun_loose {b bits : ℕ} (hb : 0 < b) (hn : 0 < bits) {v : ZMod p} (hv : v.val < 2 ^ bits) :
    checkRun b v bits .loose = true := by
  have hL := decompSize_pos hb hn
  have hv : v.val < 2 ^ (decompSize bits b * b) :=
    lt_of_lt_of_le hv (Nat.pow_le_pow_right (by norm_num) (le_decompSize_mul bits hb))
  simp only [checkRun, entryOk, Bool.and_eq_true]
  by_cases h : decompSize bits b = 1
  · simp [recomposes, rangeQueries, h, inTable_iff]
    rw [h] at hv; simpa using hv
  · simp only [recomposes, rangeQueries, h, hL.ne', if_false, honestLimbs]
    constructor
    · simp [compose_map_cast, natCompose_decomposeHint, Nat.mod_eq_of_lt hv]
    · simp
      intro l hl
      exact inTable_natCast (decomposeHint_lt _ _ _ l hl)

/-! ### Small absolute values -/

/-- The `TightForSmallAbs` check accepts exactly the values with `(v * 2^diff mod p) < 2^(L*b)`. -/
theorem checkSat_smallAbs_imp {b bits : ℕ} (hb : 0 < b) (hn : 0 < bits) (v : ZMod p)
    (h : CheckSat b v bits .smallAbs) :
    (v * 2 ^ slack b bits).val < 2 ^ (decompSize bits b * b) := by
  have hL := decompSize_pos hb hn
  obtain ⟨limbs, hlen, hok⟩ := h
  simp only [entryOk, Bool.and_eq_true] at hok
  obtain ⟨h1, h2⟩ := hok
  by_cases h : decompSize bits b = 1
  · simp [rangeQueries, h, inTable_iff] at h2
    rw [h]; simpa using h2
  · simp only [recomposes, h, hL.ne', if_false] at h1
    simp only [rangeQueries, h, if_false] at h2
    simp at h1 h2
    rw [h1, ← hlen]
    exact compose_val_lt b limbs (by simpa using h2)

theorem checkSat_smallAbs_of {b bits : ℕ} (hb : 0 < b) (hn : 0 < bits) (v : ZMod p)
    (hv : (v * 2 ^ slack b bits).val < 2 ^ (decompSize bits b * b)) :
    CheckSat b v bits .smallAbs := by
  have hL := decompSize_pos hb hn
  refine ⟨(decomposeHint b (decompSize bits b) (v * 2 ^ slack b bits).val).map (fun n : ℕ => (n : ZMod p)),
    by simp [Circ.length_decomposeHint], ?_⟩
  simp only [entryOk, Bool.and_eq_true]
  by_cases h : decompSize bits b = 1
  · simp [recomposes, rangeQueries, h, inTable_iff]
    rw [h] at hv; simpa using hv
  · simp only [recomposes, rangeQueries, h, hL.ne', if_false]
    constructor
    · simp [compose_map_cast, natCompose_decomposeHint, Nat.mod_eq_of_lt hv]
    · simp
      intro l hl
      exact inTable_natCast (decomposeHint_lt _ _ _ l hl)

theorem checkSat_smallAbs_iff {b bits : ℕ} (hb : 0 < b) (hn : 0 < bits) (v : ZMod p) :
    CheckSat b v bits .smallAbs ↔ (v * 2 ^ slack b bits).val < 2 ^ (decompSize bits b * b) :=
  ⟨checkSat_smallAbs_imp hb hn v, checkSat_smallAbs_of hb hn v⟩

theorem checkRun_smallAbs {b bits : ℕ} (hb : 0 < b) (hn : 0 < bits)
    (hp : 2 ^ (decompSize bits b * b) ≤ p) {v : ZMod p} (hv : v.val < 2 ^ bits) :
    checkRun b v bits .smallAbs = true := by
  have hL := decompSize_pos hb hn
  have hs := slack_add bits hb
  have hlt : v.val * 2 ^ slack b bits < 2 ^ (decompSize bits b * b) := by
    rw [← hs, pow_add]; exact Nat.mul_lt_mul_of_pos_right hv (by positivity)
  have hcast : v * 2 ^ slack b bits = ((v.val * 2 ^ slack b bits : ℕ) : ZMod p) := by
    push_cast; simp
  simp only [checkRun, entryOk, Bool.and_eq_true]
  by_cases h : decompSize bits b = 1
  · simp only [recomposes, rangeQueries, h, honestLimbs]
    rw [h, one_mul] at hlt
    have := inTable_natCast (p := p) hlt
    rw [← hcast] at this
    simp [this]
  · simp only [recomposes, rangeQueries, h, hL.ne', if_false, honestLimbs]
    constructor
    · simp only [compose_map_cast, natCompose_decomposeHint, if_true, Nat.mod_eq_of_lt hlt, hcast]
      simp
    · simp
      intro l hl
      exact inTable_natCast (decomposeHint_lt _ _ _ l hl)

/-- For integers of small absolute value the `TightForSmallAbs` check is exact. -/
theorem checkSat_smallAbs_int {b bits : ℕ} (hb : 0 < b) (hn : 0 < bits) {z : ℤ} {C : ℕ}
    (hz : |z| ≤ 2 ^ C) (hC : bits ≤ C) (hp : 2 ^ (C + b + 1) ≤ p) :
    CheckSat b ((z : ZMod p)) bits .smallAbs ↔ 0 ≤ z ∧ z < 2 ^ bits := by
  rw [checkSat_smallAbs_iff hb hn]
  have hs := slack_add bits hb
  have hsl := slack_lt hb hn
  have hcast : (z : ZMod p) * 2 ^ slack b bits = ((z * 2 ^ slack b bits : ℤ) : ZMod p) := by push_cast; ring
  have hpow : (2:ℤ) ^ (C + b + 1) ≤ p := by exact_mod_cast hp
  have e1 : (2:ℤ) ^ (C + b + 1) = 2 * (2 ^ C * 2 ^ b) := by rw [pow_succ, pow_add]; ring
  have hsb : (2:ℤ) ^ slack b bits ≤ 2 ^ b := pow_le_pow_right₀ (by norm_num) hsl.le
  have hspos : (0:ℤ) < 2 ^ slack b bits := by positivity
  have hLb : (2:ℤ) ^ (decompSize bits b * b) = 2 ^ bits * 2 ^ slack b bits := by rw [← hs, pow_add]
  have hbC : (2:ℤ) ^ bits ≤ 2 ^ C := pow_le_pow_right₀ (by norm_num) hC
  have habs : |z * 2 ^ slack b bits| ≤ 2 ^ C * 2 ^ b := by
    rw [abs_mul, abs_of_pos hspos]
    exact mul_le_mul hz hsb hspos.le (by positivity)
  have hCb : (0:ℤ) < 2 ^ C * 2 ^ b := by positivity
  have hbb : (2:ℤ) ^ bits * 2 ^ slack b bits ≤ 2 ^ C * 2 ^ b := mul_le_mul hbC hsb hspos.le (by positivity)
  rw [hcast]
  constructor
  · intro h
    have h' : (((z * 2 ^ slack b bits : ℤ) : ZMod p).val : ℤ) < 2 ^ bits * 2 ^ slack b bits := by
      rw [← hLb]; exact_mod_cast h
    rcases lt_or_ge z 0 with hneg | hpos
    · exfalso
      have hzneg : z * 2 ^ slack b bits < 0 := mul_neg_of_neg_of_pos hneg hspos
      rw [val_intCast_neg hzneg (by rw [abs_of_neg hzneg] at habs; linarith)] at h'
      rw [abs_of_neg hzneg] at habs
      linarith
    · refine ⟨hpos, ?_⟩
      have hz0 : 0 ≤ z * 2 ^ slack b bits := mul_nonneg hpos hspos.le
      rw [val_intCast_nonneg hz0 (by rw [abs_of_nonneg hz0] at habs; linarith)] at h'
      exact lt_of_mul_lt_mul_right h' hspos.le
  · rintro ⟨hpos, hlt⟩
    have hz0 : 0 ≤ z * 2 ^ slack b bits := mul_nonneg hpos hspos.le
    have h2 : z * 2 ^ slack b bits < 2 ^ bits * 2 ^ slack b bits := mul_lt_mul_of_pos_right hlt hspos
    have := val_intCast_nonneg (p := p) hz0 (by linarith)
    have h3 : (((z * 2 ^ slack b bits : ℤ) : ZMod p).val : ℤ) < 2 ^ (decompSize bits b * b) := by
      rw [this, hLb]; exact h2
    exact_mod_cast h3

/-! ### Unknown range -/

theorem checkRun_unknown {b bits : ℕ} (hb : 0 < b) (hn : 0 < bits) {v : ZMod p}
    (hv : v.val < 2 ^ bits) : checkRun b v bits .unknown = true := by
  have hL := decompSize_pos hb hn
  have hs := slack_add bits hb
  have hsl := slack_lt hb hn
  have hv' : v.val < 2 ^ (decompSize bits b * b) :=
    lt_of_lt_of_le hv (Nat.pow_le_pow_right (by norm_num) (le_decompSize_mul bits hb))
  simp only [checkRun, entryOk, Bool.and_eq_true]
  by_cases h : decompSize bits b = 1
  · have hlt : v.val * 2 ^ slack b bits < 2 ^ b := by
      rw [h, one_mul] at hs
      calc v.val * 2 ^ slack b bits < 2 ^ bits * 2 ^ slack b bits :=
            Nat.mul_lt_mul_of_pos_right hv (by positivity)
        _ = 2 ^ b := by rw [← pow_add, hs]
    have hq := inTable_natCast (p := p) hlt
    rw [Nat.cast_mul, Nat.cast_pow, ZMod.natCast_val, Nat.cast_ofNat, ZMod.cast_id] at hq
    rw [h, one_mul] at hv'
    simp only [recomposes, rangeQueries, h]
    by_cases h0 : slack b bits = 0
    · simp [h0, inTable_iff, hv']
    · simp [h0, hq]; simpa [inTable_iff] using hv'
  · have hlast : (honestLimbs b v bits .unknown).getD (decompSize bits b - 1) 0 * 2 ^ slack b bits
        = ((v.val / 2 ^ ((decompSize bits b - 1) * b) % 2 ^ b * 2 ^ slack b bits : ℕ) : ZMod p) := by
      obtain ⟨k, hk⟩ : ∃ k, decompSize bits b = k + 1 := ⟨decompSize bits b - 1, by omega⟩
      have := decomposeHint_last b k v.val
      simp only [honestLimbs, hk, Nat.add_sub_cancel]
      rw [show (0 : ZMod p) = ((0 : ℕ) : ZMod p) by simp, List.getD_map]
      rw [if_neg (by decide), mul_one, this]; push_cast; ring
    have hq : inTable b ((honestLimbs b v bits .unknown).getD (decompSize bits b - 1) 0
        * 2 ^ slack b bits) = true := by
      rw [hlast]; apply inTable_natCast
      have h1 : v.val / 2 ^ ((decompSize bits b - 1) * b) < 2 ^ (b - slack b bits) := by
        rw [Nat.div_lt_iff_lt_mul (by positivity), ← pow_add]
        refine lt_of_lt_of_le hv (Nat.pow_le_pow_right (by norm_num) ?_)
        obtain ⟨k, hk⟩ : ∃ k, decompSize bits b = k + 1 := ⟨decompSize bits b - 1, by omega⟩
        rw [hk] at hs ⊢
        simp only [Nat.add_sub_cancel]
        have : (k + 1) * b = k * b + b := by ring
        omega
      have h2 : v.val / 2 ^ ((decompSize bits b - 1) * b) < 2 ^ b :=
        lt_of_lt_of_le h1 (Nat.pow_le_pow_right (by norm_num) (by omega))
      rw [Nat.mod_eq_of_lt h2]
      calc _ < 2 ^ (b - slack b bits) * 2 ^ slack b bits := Nat.mul_lt_mul_of_pos_right h1 (by positivity)
        _ = 2 ^ b := by rw [← pow_add]; congr 1; omega
    constructor
    · simp only [recomposes, h, hL.ne', if_false, honestLimbs]
      simp [compose_map_cast, natCompose_decomposeHint, Nat.mod_eq_of_lt hv']
    · simp only [rangeQueries, h, if_false, List.all_append, Bool.and_eq_true]
      constructor
      · simp [honestLimbs]
        intro l hl
        exact inTable_natCast (decomposeHint_lt _ _ _ l hl)
      · split
        · simp only [List.all_cons, List.all_nil, Bool.and_true]; exact hq
        · simp

/-- The `TightForUnknownRange` check is exact. -/
theorem checkSat_unknown_iff {b bits : ℕ} (hb : 0 < b) (hn : 0 < bits) (hp : 2 ^ (2 * b) ≤ p)
    (v : ZMod p) : CheckSat b v bits .unknown ↔ v.val < 2 ^ bits := by
  have hL := decompSize_pos hb hn
  have hs := slack_add bits hb
  have hsl := slack_lt hb hn
  refine ⟨?_, fun h => Circ.checkSat_of_checkRun (checkRun_unknown hb hn h)⟩
  rintro ⟨limbs, hlen, hok⟩
  -- a limb below `2^b` whose shift by the slack is again below `2^b` is below `2^(b - slack)`
  have key : ∀ l : ZMod p, l.val < 2 ^ b → (slack b bits ≠ 0 → inTable b (l * 2 ^ slack b bits) = true) →
      l.val < 2 ^ (b - slack b bits) := by
    intro l hl hq
    by_cases h0 : slack b bits = 0
    · simpa [h0] using hl
    · have hq := hq h0
      have hc : l * 2 ^ slack b bits = ((l.val * 2 ^ slack b bits : ℕ) : ZMod p) := by push_cast; simp
      have hlt : l.val * 2 ^ slack b bits < p := by
        refine lt_of_lt_of_le ?_ hp
        calc l.val * 2 ^ slack b bits < 2 ^ b * 2 ^ slack b bits :=
              Nat.mul_lt_mul_of_pos_right hl (by positivity)
          _ ≤ 2 ^ b * 2 ^ b := Nat.mul_le_mul_left _ (Nat.pow_le_pow_right (by norm_num) hsl.le)
          _ = 2 ^ (2 * b) := by rw [← pow_add]; congr 1; ring
      rw [hc, inTable_iff, ZMod.val_natCast_of_lt hlt] at hq
      have e : 2 ^ b = 2 ^ (b - slack b bits) * 2 ^ slack b bits := by rw [← pow_add]; congr 1; omega
      rw [e] at hq
      exact lt_of_mul_lt_mul_right hq (by positivity)
  simp only [entryOk, Bool.and_eq_true] at hok
  obtain ⟨h1, h2⟩ := hok
  by_cases h : decompSize bits b = 1
  · simp only [rangeQueries, h, if_true, List.all_cons, Bool.and_eq_true] at h2
    have h3 : v.val < 2 ^ b := by simpa [inTable_iff] using h2.1
    have := key v h3 (fun h0 => by simpa [h0] using h2.2)
    rw [h, one_mul] at hs
    have e : b - slack b bits = bits := by omega
    rwa [e] at this
  · simp only [recomposes, h, hL.ne', if_false] at h1
    simp only [rangeQueries, h, if_false, List.all_append, Bool.and_eq_true] at h2
    obtain ⟨h2, h3⟩ := h2
    simp at h1
    simp only [List.all_eq_true] at h2
    have hne : limbs ≠ [] := by rintro rfl; simp at hlen; omega
    have hmem : limbs.getD (decompSize bits b - 1) 0 ∈ limbs := by
      rw [List.getD_eq_getElem _ _ (by omega)]; exact List.getElem_mem _
    have hlast := key (limbs.getD (decompSize bits b - 1) 0) ((inTable_iff _ _).1 (h2 _ hmem))
      (fun h0 => by simpa [h0] using h3)
    have := natCompose_lt_last b (b - slack b bits) (limbs.map ZMod.val) (by
      intro l hl
      obtain ⟨x, hx, rfl⟩ := List.mem_map.1 hl
      exact (inTable_iff b x).1 (h2 x hx)) (by simpa using hne) (by
        rw [show (0 : ℕ) = ZMod.val (0 : ZMod p) by simp, List.getD_map, List.length_map, hlen]
        exact hlast)
    rw [h1, compose_eq]
    refine lt_of_le_of_lt (val_natCast_le _) (lt_of_lt_of_le this ?_)
    apply Nat.pow_le_pow_right (by norm_num)
    rw [List.length_map, hlen]
    obtain ⟨k, hk⟩ : ∃ k, decompSize bits b = k + 1 := ⟨decompSize bits b - 1, by omega⟩
    rw [hk] at hs ⊢
    simp only [Nat.add_sub_cancel]
    have : (k + 1) * b = k * b + b := by ring
    omega

end ZkLoc
