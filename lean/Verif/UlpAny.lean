import Verif.UlpSpec
import Verif.AnyWidth

/-!
# Helper lemmas: `AssertIsEqualOrCustomULP` at every table width
-/

namespace ZkLoc

open Ieee (Datum)

variable {p b : ℕ} [Fact p.Prime] {f : Fmt}

/-- What a forged `Add` yields, with the exponent: the one of the exact sum. -/
theorem add_forged_exp (G : Good p b f) {x y : Flt} (hx : x.Valid f) (hy : y.Valid f) (c1 c2 : Bool) :
    addZ0 f x y c1 c2 = addZ f x y c1 c2 ∨
    (x.abn = false ∧ y.abn = false ∧ x.sval f + y.sval f ≠ 0 ∧ ∃ s e, addZ0 f x y c1 c2 = ⟨s, e, 0, false⟩ ∧ f.eMin < e ∧ e ≤ f.eMax ∧
      e = max x.exp y.exp + 1 - lzShift (addS f x y) (2 * f.M + 5) ∧
      ∃ r, Ieee.IsRNE f.ieee |x.sval f + y.sval f| r ∧ (2:ℝ) ^ e ≤ r ∧ r ≤ 2 ^ (e + 1)) := by
  have hMz := G.hMz
  have hmn := f.eMin_eq
  have hNm := f.eNormalMin_eq
  obtain ⟨S, hS⟩ : ∃ S, S = addS f x y := ⟨_, rfl⟩
  obtain ⟨k, hk⟩ : ∃ k, k = lzShift S (2 * f.M + 5) := ⟨_, rfl⟩
  by_cases hab : (x.abn || y.abn) = true
  · left
    unfold addZ0 addZ
    simp only [addTail_eq, addFin, fixZ, hab, Bool.or_true, if_true]
  by_cases hS0 : S = 0
  · left
    unfold addZ0 addZ
    simp only [addTail_eq]
    rw [← hS, hS0, Int.natAbs_zero, zero_mul, rnd_zero]
  have hxa : x.abn = false := by cases h : x.abn; rfl; rw [h] at hab; simp at hab
  have hya : y.abn = false := by cases h : y.abn; rfl; rw [h] at hab; simp at hab
  obtain ⟨e0, he⟩ : ∃ e0, e0 = max x.exp y.exp := ⟨_, rfl⟩
  obtain ⟨m, hm⟩ : ∃ m, m = rnd (S.natAbs * 2 ^ k) (f.M + 4) true := ⟨_, rfl⟩
  obtain ⟨-, hnz⟩ := add_sum G hx hy hxa hya hS he hk
  obtain ⟨hne, -, hb, -, hr, hd⟩ := hnz hS0
  rw [← hm] at hb hr
  have hxe := hx.exp_fin G hxa
  have hye := hy.exp_fin G hya
  have hN0 : S.natAbs * 2 ^ k ≠ 0 := Nat.mul_ne_zero (by omega) (by positivity)
  have hNb : S.natAbs * 2 ^ k < 2 ^ (2 * f.M + 5) := by
    have := leadingZeros_spec (by omega : 0 < S.natAbs) (hS ▸ addS_bound (f := f) hx.man_lt hy.man_lt)
    rw [hk, lzShift, if_neg hS0]; exact this.2.2
  have hemin : f.eMin < e0 + 1 - k := by
    by_contra hlt
    have h1 := Nat.le_of_dvd (Nat.pos_of_ne_zero hN0) (hd (by omega))
    have h2 := lt_of_le_of_lt h1 hNb
    have h3 := (Nat.pow_lt_pow_iff_right (by norm_num : 1 < 2)).1 h2
    omega
  have hmax : e0 + 1 - k ≤ f.eMax := by omega
  have p1 : ¬ (0 = 2 ^ (f.M + 1)) := by have : 0 < 2 ^ (f.M + 1) := by positivity
                                        omega
  by_cases ha : e0 + 1 - k = f.eMax ∧ c2 = true
  · left
    unfold addZ0 addZ
    simp only [addTail_eq, addFin]
    rw [← hS, ← hk, ← he, ← hm, hxa, hya]
    have hfix : ∀ n, fixZ f n (decide (S.natAbs * 2 ^ k = 0)) (e0 + 1 - k) (false || false) c2 = (2 ^ f.M, f.eMax, true) := by
      intro n
      unfold fixZ
      rw [ha.2, ha.1]
      by_cases hn : n = 2 ^ (f.M + 1) <;> simp [hn]
    rw [hfix, hfix]
  · right
    have ha2 : (decide (f.eMax < e0 + 1 - k) || (decide (e0 + 1 - k = f.eMax) && c2) || (false || false)) = false := by
      have : ¬ f.eMax < e0 + 1 - k := by omega
      simp only [this, decide_false, Bool.false_or, Bool.or_false]
      by_cases h : e0 + 1 - k = f.eMax
      · have : c2 = false := by cases c2; rfl; exact absurd ⟨h, rfl⟩ ha
        simp [this]
      · simp [h]
    have hfix : fixZ f 0 (decide (S.natAbs * 2 ^ k = 0)) (e0 + 1 - k) (false || false) c2 = (0, e0 + 1 - k, false) := by
      unfold fixZ
      simp only [p1, decide_false, Bool.false_eq_true, if_false, add_zero, decide_eq_false hN0]
      rw [ha2]; simp
    have hz : addZ0 f x y c1 c2 = ⟨if x.sign = y.sign then x.sign else !(if S = 0 then c1 else decide (0 < S)), e0 + 1 - k, 0, false⟩ := by
      unfold addZ0 addFin
      simp only []
      rw [← hS, ← hk, ← he, hxa, hya, hfix]
      simp
    refine ⟨hxa, hya, hne, _, _, hz, hemin, hmax, by rw [he, ← hS, hk], _, hr, ?_, ?_⟩
    · exact pow_real_ge (f := f) (e := e0 + 1 - k) hb.1
    · have h1 : (m:ℝ) ≤ 2 ^ (f.M + 1) := by exact_mod_cast hb.2
      have h2 : (2:ℝ) ^ (e0 + 1 - k + 1) = 2 ^ (f.M + 1) * 2 ^ (e0 + 1 - k - f.M) := by
        rw [← zpow_natCast, ← zpow_add₀ (by norm_num)]; congr 1; push_cast; ring
      rw [h2]
      gcongr

/-- The rest of `AssertIsEqualOrCustomULP` after the subtraction. -/
theorem ulpRest_dec {H : Prop} (G : Good p b f) {x y t z : Flt} (hx : x.Valid f) (hy : y.Valid f) (ht : t.Valid f) (hz : z.Bdd f) :
    Dec b H (Circ.bind (fIsLe f (z.abs.toVar : FloatVar p) t.toVar) fun cmp =>
        Circ.bind (sameData (x.toVar : FloatVar p) y.toVar) fun condTwo =>
          Circ.bind (or' (gIsEq cmp 1) condTwo) fun ok => assertIsEqual ok 1)
        (lessZ z.abs t true = true ∨ x.SameBody y) := by
  have hz' : z.abs.Bdd f := ⟨hz.man, hz.lo, hz.hi⟩
  refine Dec.det_bind (fLess_spec (p := p) (b := b) (H := H) G hz' (ht.bdd G) true) ?_
  refine Dec.det_bind (sameData_spec G (hx.bdd G) (hy.bdd G)) ?_
  rw [gIsEq_eq]
  refine Dec.det_bind (or_spec _ _) ?_
  refine Dec.assertEq ?_
  rw [B_eq_one, Bool.or_eq_true, decide_eq_true_iff, decide_eq_true_iff, B_eq_one]

/-- Comparing a vanished record with a tolerance compares the exponents. -/
theorem lessZ_vanished {t : Flt} {s : Bool} {e : ℤ} (hs : t.sign = false) :
    lessZ (Flt.abs ⟨s, e, 0, false⟩) t true = true ↔ t.isNaN = false ∧ e ≤ t.exp := by
  unfold lessZ Flt.abs
  simp only [Flt.isNaN, hs, Bool.false_and, Bool.false_or, if_true, Bool.false_eq_true, if_false]
  by_cases hn : (t.abn && decide (t.man = 0)) = true
  · rw [if_pos hn]; simp [hn]
  · rw [if_neg hn]
    have hn' : (t.abn && decide (t.man = 0)) = false := by simpa using hn
    rw [hn']
    by_cases he : e = t.exp
    · by_cases hm : 0 = t.man
      · simp [he, ← hm]
      · have : ¬ t.man ≤ 0 := by omega
        simp [he, hm]
        omega
    · simp only [he, if_false, true_and]
      have : (!decide (t.exp ≤ e)) = true ↔ e < t.exp := by simp
      rw [this]; omega

/-- The circuit at every table width, on integers. -/
theorem customULP_any (G : Good p b f) (hp : AddField p b f) {x y t : Flt} (hx : x.Valid f) (hy : y.Valid f) (ht : t.Valid f) {ulp : ℕ}
    (hu : (newConstant f ulp : FloatVar p) = t.toVar) (st : Bool) :
    (fAssertIsEqualOrCustomULP f (x.toVar : FloatVar p) y.toVar ulp).Sat b st () ↔
      (fAssertIsEqualOrCustomULP f (x.toVar : FloatVar p) y.toVar ulp).run b = some () ∨
      ((x.datum f).SameSign (y.datum f) ∧ AddForge b f x y.neg ∧
        ∃ c1 c2, addZ0 f x y.neg c1 c2 ≠ addZ f x y.neg c1 c2 ∧ lessZ (addZ0 f x y.neg c1 c2).abs t true = true) := by
  have hyn := hy.neg
  -- the conditions left by an honest subtraction
  have honest := fAssertIsEqualOrCustomULP_dec (p := p) (b := b) (H := False) G (by simp) hx hy ht hu
  have hsub := fAdd_spec_any (p := p) (b := b) (H := True) G (hx.bdd G) (hyn.bdd G) hx.man_cases hyn.man_cases (abn_of_eMax G hx hyn) hp.1 hp.2
  have hsgn := assertSameSign_dec (p := p) (b := b) (H := True) G hx.man_lt hy.man_lt
  rw [sameSign_iff (f := f)] at hsgn
  -- every honest outcome leads to the same condition
  have hrest : ∀ c1 c2, (x.datum f).SameSign (y.datum f) → (addZ f x y.neg c1 c2).Bdd f ∧
      ((lessZ (addZ f x y.neg c1 c2).abs t true = true ∨ x.SameBody y) ↔
        (Ieee.Within f.ieee (t.datum f) (x.datum f) (y.datum f) ∨ x.SameBody y)) := by
    intro c1 c2 hsign
    rw [← sameSign_iff] at hsign
    have rest : ∀ z : Flt, z.Valid f → (¬ x.SameBody y → (Ieee.Le (z.datum f).abs (t.datum f) ↔
        Ieee.Within f.ieee (t.datum f) (x.datum f) (y.datum f))) → z.Bdd f ∧ ((lessZ z.abs t true = true ∨ x.SameBody y) ↔
          (Ieee.Within f.ieee (t.datum f) (x.datum f) (y.datum f) ∨ x.SameBody y)) := by
      intro z hz hiff
      refine ⟨hz.bdd G, ?_⟩
      rw [le_iff_lessZ G hz.abs ht, abs_datum]
      by_cases hs : x.SameBody y
      · simp [hs]
      · simp [hs, hiff hs]
    rcases add_outcomes G hx hyn c1 c2 with ⟨h1, h2⟩ | ⟨_, a, h1, h2, h3, h4⟩ | ⟨_, h1, h2⟩ | ⟨_, s, a, u, c, h1, h2, h3, h4⟩
    · refine rest _ h1 (fun _ => ?_)
      rw [neg_datum, ← sub_iff_add_neg] at h2
      constructor
      · intro h; exact ⟨_, h2, h⟩
      · rintro ⟨d, h3, h4⟩
        rw [h2.unique h3]; exact h4
    · rw [h4]
      refine rest _ (Flt.Valid.zero _) (fun hs => absurd ?_ hs)
      rw [neg_datum] at h2
      refine (datum_inj G hx hy ?_).1
      rw [h1]
      cases hd : y.datum f with
      | nan => rw [hd] at h2; cases h2
      | inf _ => rw [hd] at h2; cases h2
      | fin u c =>
        rw [hd] at h2
        simp only [Ieee.Datum.neg, Ieee.Datum.fin.injEq] at h2
        rw [h2.2, show u = x.sign by
          have := h2.1; cases u <;> cases hxs : x.sign <;> simp_all]
    · rw [h2]
      refine rest _ (Flt.Valid.inf _) (fun hs => absurd ?_ hs)
      obtain ⟨s, u, a, h3, h4, h5, _⟩ := h1
      refine (datum_inj G hx hy ?_).1
      rw [neg_datum] at h4
      rw [h3]
      cases hd : y.datum f with
      | nan => rw [hd] at h4; cases h4
      | inf _ => rw [hd] at h4; cases h4
      | fin w c =>
        rw [hd] at h4
        simp only [Ieee.Datum.neg, Ieee.Datum.fin.injEq] at h4
        rw [h4.2, show w = s by
          have := h4.1; cases u <;> cases w <;> cases s <;> simp_all]
    · exfalso
      obtain ⟨hxa, rfl, rfl⟩ := datum_fin_iff.1 h1
      obtain ⟨hya, rfl, rfl⟩ := datum_fin_iff.1 h2
      have hya' : y.abn = false := hya
      have hs : x.sign = y.sign := by
        rcases hsign with h | h | h
        · simp [Flt.isNaN, hxa] at h
        · simp [Flt.isNaN, hya'] at h
        · exact h
      refine no_pseudo_of_same_sign G hx hy hxa hya' ?_ h4
      show |Ieee.signed x.sign (x.mag f) + Ieee.signed (!y.sign) (y.mag f)| = _
      rw [← hs]; exact signed_sub_same
  rw [honest.run]
  unfold fAssertIsEqualOrCustomULP
  simp only [Circ.bind_eq]
  rw [Circ.sat_bind]
  unfold fSub
  rw [fNeg_toVar]
  constructor
  · rintro ⟨⟨⟩, h1, h2⟩
    have hs := (hsgn.sat trivial st).1 h1
    rw [Circ.sat_bind] at h2
    obtain ⟨d, h3, h4⟩ := h2
    rcases (hsub.sat trivial st d).1 h3 with ⟨c1, c2, rfl⟩ | ⟨hf, c1, c2, rfl⟩
    · rw [fAbs_toVar, hu] at h4
      exact Or.inl ⟨hs, (hrest c1 c2 hs).2.1 (((ulpRest_dec (H := True) G hx hy ht (hrest c1 c2 hs).1).sat trivial st).1 h4)⟩
    · rcases add_forged_exp G hx hyn c1 c2 with he | ⟨-, -, -, s, e, he, h5, h6, -⟩
      · rw [he, fAbs_toVar, hu] at h4
        exact Or.inl ⟨hs, (hrest c1 c2 hs).2.1 (((ulpRest_dec (H := True) G hx hy ht (hrest c1 c2 hs).1).sat trivial st).1 h4)⟩
      · have hB : (addZ0 f x y.neg c1 c2).Bdd f := by rw [he]; exact ⟨by positivity, h5.le, h6⟩
        rw [fAbs_toVar, hu] at h4
        rcases ((ulpRest_dec (H := True) G hx hy ht hB).sat trivial st).1 h4 with h7 | h7
        · by_cases hz : addZ0 f x y.neg c1 c2 = addZ f x y.neg c1 c2
          · rw [hz] at h7
            exact Or.inl ⟨hs, (hrest c1 c2 hs).2.1 (Or.inl h7)⟩
          · exact Or.inr ⟨hs, hf, c1, c2, hz, h7⟩
        · exact Or.inl ⟨hs, Or.inr h7⟩
  · rintro (⟨hs, h1⟩ | ⟨hs, hf, c1, c2, hz, h1⟩)
    · refine ⟨(), (hsgn.sat trivial st).2 hs, ?_⟩
      rw [Circ.sat_bind]
      refine ⟨_, (hsub.sat trivial st _).2 (Or.inl ⟨true, true, rfl⟩), ?_⟩
      rw [fAbs_toVar, hu]
      exact ((ulpRest_dec (H := True) G hx hy ht (hrest true true hs).1).sat trivial st).2 ((hrest true true hs).2.2 h1)
    · refine ⟨(), (hsgn.sat trivial st).2 hs, ?_⟩
      rw [Circ.sat_bind]
      refine ⟨_, (hsub.sat trivial st _).2 (Or.inr ⟨hf, c1, c2, rfl⟩), ?_⟩
      have hB : (addZ0 f x y.neg c1 c2).Bdd f := by
        rcases add_forged_exp G hx hyn c1 c2 with he | ⟨-, -, -, s, e, he, h5, h6, -⟩
        · exact absurd he hz
        · rw [he]; exact ⟨by positivity, h5.le, h6⟩
      rw [fAbs_toVar, hu]
      exact ((ulpRest_dec (H := True) G hx hy ht hB).sat trivial st).2 (Or.inl h1)

end ZkLoc
