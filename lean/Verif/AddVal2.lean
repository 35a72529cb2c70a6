import Verif.AddVal

/-!
# Helper lemmas: `Add` at integer level, all cases
-/

namespace ZkLoc

open Ieee (Datum IsRNE RoundsTo Representable signed)

variable {f : Fmt}

/-- `add_core` for operands in either order. -/
theorem add_sum {p b : ℕ} [Fact p.Prime] (G : Good p b f) {x y : Flt} (hx : x.Valid f) (hy : y.Valid f)
    (hxa : x.abn = false) (hya : y.abn = false) {S : ℤ} {k : ℕ} {e0 : ℤ} (hS : S = addS f x y)
    (he : e0 = max x.exp y.exp) (hk : k = lzShift S (2 * f.M + 5)) :
    (S = 0 → x.sval f + y.sval f = 0) ∧
    (S ≠ 0 → x.sval f + y.sval f ≠ 0 ∧ (x.sval f + y.sval f < 0 ↔ S < 0) ∧
      (2 ^ f.M ≤ rnd (S.natAbs * 2 ^ k) (f.M + 4) true ∧ rnd (S.natAbs * 2 ^ k) (f.M + 4) true ≤ 2 ^ (f.M + 1)) ∧
      (e0 + 1 - k < f.eNormalMin →
        2 ^ (f.eNormalMin - (e0 + 1 - k)).toNat ∣ rnd (S.natAbs * 2 ^ k) (f.M + 4) true) ∧
      IsRNE f.ieee |x.sval f + y.sval f| (rnd (S.natAbs * 2 ^ k) (f.M + 4) true * (2:ℝ) ^ (e0 + 1 - k - f.M)) ∧
      (e0 + 1 - k < f.eNormalMin → 2 ^ (f.M + 4 + (f.eNormalMin - (e0 + 1 - k)).toNat) ∣ S.natAbs * 2 ^ k)) := by
  have hSb := addS_bound (f := f) hx.man_lt hy.man_lt
  rw [← hS] at hSb
  by_cases hle : x.exp ≤ y.exp
  · rw [he, max_eq_right hle]
    have hg : expGap x y = (y.exp - x.exp).toNat := by unfold expGap; omega
    refine add_core G hx hy hxa hya hle hg ?_ hSb hk
    rw [hS]; unfold addS; rw [if_pos hle]
  · rw [he, max_eq_left (by omega)]
    have hg : expGap x y = (x.exp - y.exp).toNat := by unfold expGap; omega
    rw [add_comm (x.sval f)]
    refine add_core G hy hx hya hxa (by omega) hg ?_ hSb hk
    rw [hS]; unfold addS; rw [if_neg hle]

theorem Flt.Valid.exp_fin {p b : ℕ} (G : Good p b f) {x : Flt} (hx : x.Valid f) (hxa : x.abn = false) :
    x.exp ≤ f.eMax - 1 := by
  have := G.hMz
  have := f.eMin_eq
  cases hx with
  | nan s => simp at hxa
  | inf s => simp at hxa
  | zero s => dsimp only; omega
  | fin s e m h1 h2 h3 h4 h5 => exact h4

theorem sval_sign {x : Flt} : (x.sign = true → x.sval f ≤ 0) ∧ (x.sign = false → 0 ≤ x.sval f) := by
  constructor
  · intro h
    rw [← signed_mag, h]; simp [signed, Flt.mag]; positivity
  · intro h
    rw [← signed_mag, h]; simp [signed, Flt.mag]; positivity

/-- Sum of finite operands. -/
theorem addZ_finite {p b : ℕ} [Fact p.Prime] (G : Good p b f) {x y : Flt} (hx : x.Valid f) (hy : y.Valid f)
    (hxa : x.abn = false) (hya : y.abn = false) :
    (x.sval f + y.sval f ≠ 0 →
      (∀ c c' c2, addZ f x y c c2 = addZ f x y c' c2) ∧
      (addZ f x y true true).Valid f ∧
      RoundsTo f.ieee (decide (x.sval f + y.sval f < 0)) |x.sval f + y.sval f| ((addZ f x y true true).datum f) ∧
      ((addZ f x y true false = addZ f x y true true ∧ NoTop f |x.sval f + y.sval f|) ∨
        Pseudo f (decide (x.sval f + y.sval f < 0)) |x.sval f + y.sval f| (addZ f x y true false))) ∧
    (x.sval f + y.sval f = 0 → ∀ c1 c2, addZ f x y c1 c2 =
      if max x.exp y.exp + 1 = f.eMax ∧ c2 = true then ⟨if x.sign = y.sign then x.sign else !c1, f.eMax, 2 ^ f.M, true⟩
      else ⟨if x.sign = y.sign then x.sign else !c1, f.eMin, 0, false⟩) := by
  have hMz := G.hMz
  have hmn := f.eMin_eq
  obtain ⟨S, hS⟩ : ∃ S, S = addS f x y := ⟨_, rfl⟩
  obtain ⟨k, hk⟩ : ∃ k, k = lzShift S (2 * f.M + 5) := ⟨_, rfl⟩
  obtain ⟨e0, he⟩ : ∃ e0, e0 = max x.exp y.exp := ⟨_, rfl⟩
  obtain ⟨m, hm⟩ : ∃ m, m = rnd (S.natAbs * 2 ^ k) (f.M + 4) true := ⟨_, rfl⟩
  obtain ⟨hz, hnz⟩ := add_sum G hx hy hxa hya hS he hk
  have hxe := hx.exp_fin G hxa
  have hye := hy.exp_fin G hya
  have hSgn := sval_sign (f := f) (x := x)
  have hSgn' := sval_sign (f := f) (x := y)
  have hadd : ∀ c1 c2, addZ f x y c1 c2 =
      ⟨if x.sign = y.sign then x.sign else !(if S = 0 then c1 else decide (0 < S)),
        (fixZ f m (decide (S.natAbs * 2 ^ k = 0)) (e0 + 1 - k) false c2).2.1,
        (fixZ f m (decide (S.natAbs * 2 ^ k = 0)) (e0 + 1 - k) false c2).1,
        (fixZ f m (decide (S.natAbs * 2 ^ k = 0)) (e0 + 1 - k) false c2).2.2⟩ := by
    intro c1 c2
    unfold addZ addTail
    simp only [hxa, hya, Bool.or_false, Bool.false_eq_true, if_false]
    rw [← hS, ← hk, ← he, ← hm]
  constructor
  · intro hne
    have hS0 : S ≠ 0 := fun h => hne (hz h)
    obtain ⟨_, hneg, hb, hsub, hr, -⟩ := hnz hS0
    rw [← hm] at hb hsub hr
    have hm0 : m ≠ 0 := by
      have : 0 < 2 ^ f.M := by positivity
      omega
    have hN0 : S.natAbs * 2 ^ k ≠ 0 := by
      apply Nat.mul_ne_zero
      · omega
      · positivity
    have hsg : (if x.sign = y.sign then x.sign else !(decide (0 < S))) = decide (x.sval f + y.sval f < 0) := by
      by_cases hss : x.sign = y.sign
      · rw [if_pos hss]
        cases hxs : x.sign
        · have h1 := hSgn.2 hxs
          have h2 := hSgn'.2 (by rw [← hss, hxs])
          symm; rw [decide_eq_false_iff_not]; linarith
        · have h1 := hSgn.1 hxs
          have h2 := hSgn'.1 (by rw [← hss, hxs])
          symm; rw [decide_eq_true_eq]
          exact lt_of_le_of_ne (by linarith) hne
      · rw [if_neg hss, Bool.eq_iff_iff, decide_eq_true_eq, hneg]
        simp; omega
    have hres : ∀ c1 c2, addZ f x y c1 c2 = fixRec f (decide (x.sval f + y.sval f < 0)) m (e0 + 1 - k) c2 := by
      intro c1 c2
      rw [hadd, if_neg hS0, hsg]
      unfold fixRec
      rw [decide_eq_false hN0, decide_eq_false hm0, if_neg hm0]
    have hfix := fix_correct (f := f) hMz (s := decide (x.sval f + y.sval f < 0)) (m := m) (e := e0 + 1 - k) (Or.inr hb)
      (fun h _ => hsub h) (fun h => absurd h hm0) hr
    refine ⟨fun c c' c2 => by rw [hres, hres], ?_⟩
    rw [hres, hres]
    exact ⟨hfix.1.1, hfix.1.2, hfix.2⟩
  · intro h0 c1 c2
    have hS0 : S = 0 := by
      by_contra h
      exact (hnz h).1 h0
    have hk0 : k = 0 := by rw [hk, hS0]; rfl
    have hm0 : m = 0 := by rw [hm, hS0]; simp [rnd_zero]
    rw [hadd, hS0, hk0, hm0, ← he]
    have hp : ¬ (0 = 2 ^ (f.M + 1)) := by
      have : 0 < 2 ^ (f.M + 1) := by positivity
      omega
    have h1 : ¬ f.eMax < e0 + 1 := by omega
    simp only [fixZ, hp, decide_false, Bool.false_eq_true, if_false, add_zero, Int.natAbs_zero, zero_mul, decide_true,
      if_true, Nat.cast_zero, sub_zero, h1, Bool.false_or, Bool.or_false]
    by_cases h2 : e0 + 1 = f.eMax
    · cases c2 <;> simp [h2]
    · simp [h2]

theorem infinite_dominates {M L T : ℕ} {δ : ℕ} (hL : L = 2 ^ M) (hT : T < 2 ^ (M + 1)) (hδ : δ < M + 3) :
    T * 2 ^ δ < L * 2 ^ (M + 3) := by
  rw [hL]
  calc T * 2 ^ δ < 2 ^ (M + 1) * 2 ^ δ := Nat.mul_lt_mul_of_pos_right hT (by positivity)
    _ ≤ 2 ^ (M + 1) * 2 ^ (M + 2) := Nat.mul_le_mul_left _ (Nat.pow_le_pow_right (by norm_num) (by omega))
    _ = _ := by rw [← pow_add, ← pow_add]; congr 1; omega

/-- Sum with an abnormal operand. -/
theorem addZ_abn {p b : ℕ} [Fact p.Prime] (G : Good p b f) {x y : Flt} (hx : x.Valid f) (hy : y.Valid f)
    (hab : x.abn = true ∨ y.abn = true) (c1 c2 : Bool) :
    (addZ f x y c1 c2).Valid f ∧ Ieee.Add f.ieee (x.datum f) (y.datum f) ((addZ f x y c1 c2).datum f) := by
  have hor : (x.abn || y.abn) = true := by rcases hab with h | h <;> simp [h]
  obtain ⟨c, hc⟩ : ∃ c, c = (if addS f x y = 0 then c1 else decide (0 < addS f x y)) := ⟨_, rfl⟩
  have hadd : addZ f x y c1 c2 = ⟨if x.sign = y.sign then x.sign else !c, f.eMax,
      if x.abn then (if !y.abn || decide (x.smant = y.smant) then x.man else 0) else y.man, true⟩ := by
    unfold addZ addTail
    simp only
    rw [hor, fixZ_abn, ← hc]
    simp only
    rcases hab with h | h
    · simp [h]
    · by_cases h' : x.abn = true
      · simp [h']
      · simp [h', h]
  -- sign of an infinity plus a finite number
  have hsgx : x.abn = true → x.man ≠ 0 → y.abn = false → c = !x.sign := by
    intro h1 h2 h3
    have hxe := hx.exp_of_abn h1
    have hye := hy.exp_fin G h3
    have hxm : x.man = 2 ^ f.M := by
      cases hx with
      | nan s => simp at h2
      | inf s => rfl
      | zero s => simp at h1
      | fin s e m => simp at h1
    have hdom := infinite_dominates (M := f.M) (L := x.man) (T := y.man) (δ := f.M + 3 - expGap x y) hxm hy.man_lt
      (by unfold expGap; omega)
    have hS : addS f x y = y.smant * 2 ^ (f.M + 3 - expGap x y) + x.smant * 2 ^ (f.M + 3) := by
      unfold addS; rw [if_neg (by omega)]
    have hd : ((y.man:ℤ)) * 2 ^ (f.M + 3 - expGap x y) < x.man * 2 ^ (f.M + 3) := by exact_mod_cast hdom
    have hyn : 0 ≤ (y.man:ℤ) * 2 ^ (f.M + 3 - expGap x y) := by positivity
    rw [hc, hS]
    unfold Flt.smant
    cases x.sign
    · have hp : 0 < (if y.sign = true then -(y.man:ℤ) else y.man) * 2 ^ (f.M + 3 - expGap x y) + x.man * 2 ^ (f.M + 3) := by
        split <;> linarith
      simp only [Bool.false_eq_true, if_false]
      rw [if_neg hp.ne', decide_eq_true hp]; rfl
    · have hp : (if y.sign = true then -(y.man:ℤ) else y.man) * 2 ^ (f.M + 3 - expGap x y) + -(x.man:ℤ) * 2 ^ (f.M + 3) < 0 := by
        split <;> linarith
      simp only [if_true]
      rw [if_neg hp.ne, decide_eq_false (by linarith)]; rfl
  have hsgy : y.abn = true → y.man ≠ 0 → x.abn = false → c = !y.sign := by
    intro h1 h2 h3
    have hxe := hy.exp_of_abn h1
    have hye := hx.exp_fin G h3
    have hym : y.man = 2 ^ f.M := by
      cases hy with
      | nan s => simp at h2
      | inf s => rfl
      | zero s => simp at h1
      | fin s e m => simp at h1
    have hdom := infinite_dominates (M := f.M) (L := y.man) (T := x.man) (δ := f.M + 3 - expGap x y) hym hx.man_lt
      (by unfold expGap; omega)
    have hS : addS f x y = x.smant * 2 ^ (f.M + 3 - expGap x y) + y.smant * 2 ^ (f.M + 3) := by
      unfold addS; rw [if_pos (by omega)]
    have hd : ((x.man:ℤ)) * 2 ^ (f.M + 3 - expGap x y) < y.man * 2 ^ (f.M + 3) := by exact_mod_cast hdom
    have hyn : 0 ≤ (x.man:ℤ) * 2 ^ (f.M + 3 - expGap x y) := by positivity
    rw [hc, hS]
    unfold Flt.smant
    cases y.sign
    · have hp : 0 < (if x.sign = true then -(x.man:ℤ) else x.man) * 2 ^ (f.M + 3 - expGap x y) + y.man * 2 ^ (f.M + 3) := by
        split <;> linarith
      simp only [Bool.false_eq_true, if_false]
      rw [if_neg hp.ne', decide_eq_true hp]; rfl
    · have hp : (if x.sign = true then -(x.man:ℤ) else x.man) * 2 ^ (f.M + 3 - expGap x y) + -(y.man:ℤ) * 2 ^ (f.M + 3) < 0 := by
        split <;> linarith
      simp only [if_true]
      rw [if_neg hp.ne, decide_eq_false (by linarith)]; rfl
  have h2M : (2:ℕ) ^ f.M ≠ 0 := by positivity
  have vnan : ∀ s, Flt.Valid f ⟨s, f.eMax, 0, true⟩ := Flt.Valid.nan
  have vinf : ∀ s, Flt.Valid f ⟨s, f.eMax, 2 ^ f.M, true⟩ := Flt.Valid.inf
  rw [hadd]
  clear hadd hc
  cases hx with
  | nan s =>
    cases hy with
    | nan t => simp [Flt.smant, Flt.datum, Ieee.Add, vnan]
    | inf t => simp [Flt.datum, Ieee.Add, vnan]
    | zero t => simp [Flt.datum, Ieee.Add, vnan]
    | fin t e' m' h1 h2 h3 h4 h5 => simp [Flt.datum, Ieee.Add, vnan]
  | inf s =>
    cases hy with
    | nan t =>
      have : ¬ (Flt.smant ⟨s, f.eMax, 2 ^ f.M, true⟩ = Flt.smant ⟨t, f.eMax, 0, true⟩) := by
        unfold Flt.smant; cases s <;> simp
      simp [this, Flt.datum, Ieee.Add, vnan]
    | inf t =>
      cases s <;> cases t
      · simp [Flt.datum, Ieee.Add, vinf]
      · have : ¬ (Flt.smant ⟨false, f.eMax, 2 ^ f.M, true⟩ = Flt.smant ⟨true, f.eMax, 2 ^ f.M, true⟩) := by
          unfold Flt.smant
          have : (0:ℤ) < ((2 ^ f.M : ℕ) : ℤ) := by positivity
          simp only [Bool.false_eq_true, if_false, if_true]; omega
        simp [this, Flt.datum, Ieee.Add, vnan]
      · have : ¬ (Flt.smant ⟨true, f.eMax, 2 ^ f.M, true⟩ = Flt.smant ⟨false, f.eMax, 2 ^ f.M, true⟩) := by
          unfold Flt.smant
          have : (0:ℤ) < ((2 ^ f.M : ℕ) : ℤ) := by positivity
          simp only [Bool.false_eq_true, if_false, if_true]; omega
        simp [this, Flt.datum, Ieee.Add, vnan]
      · simp [Flt.datum, Ieee.Add, vinf]
    | zero t =>
      have := hsgx rfl h2M rfl
      simp only at this
      simp [this, Flt.datum, Ieee.Add, vinf]
    | fin t e' m' h1 h2 h3 h4 h5 =>
      have := hsgx rfl h2M rfl
      simp only at this
      simp [this, Flt.datum, Ieee.Add, vinf]
  | zero s =>
    cases hy with
    | nan t => simp [Flt.datum, Ieee.Add, vnan]
    | inf t =>
      have := hsgy rfl h2M rfl
      simp only at this
      have hst : (if s = t then s else t) = t := by split <;> simp_all
      simp [this, Flt.datum, Ieee.Add, vinf, hst]
    | zero t => simp at hor
    | fin t e' m' h1 h2 h3 h4 h5 => simp at hor
  | fin s e m h1 h2 h3 h4 h5 =>
    cases hy with
    | nan t => simp [Flt.datum, Ieee.Add, vnan]
    | inf t =>
      have := hsgy rfl h2M rfl
      simp only at this
      have hst : (if s = t then s else t) = t := by split <;> simp_all
      simp [this, Flt.datum, Ieee.Add, vinf, hst]
    | zero t => simp at hor
    | fin t e' m' h1 h2 h3 h4 h5 => simp at hor

end ZkLoc
