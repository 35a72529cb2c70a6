import Verif.AssertVal
import Verif.Spec.Tolerance

/-!
# `AssertIsEqualOrCustomULP`: circuit level and meaning
-/

namespace ZkLoc

variable {p : ℕ} {b : ℕ} {f : Fmt} {H : Prop}

namespace Dec

theorem seq_dep {c : Circ p Unit} {d : Unit → Circ p Unit} {P Q : Prop} (h1 : Dec b H c P)
    (h2 : P → Dec b H (d ()) Q) : Dec b H (Circ.bind c d) (P ∧ Q) := by
  by_cases hP : P
  · exact seq h1 (h2 hP)
  · refine ⟨?_, fun hH st => ?_⟩
    · rw [Circ.run_bind]
      cases hc : c.run b with
      | none => simp [hP]
      | some u => exact absurd (h1.run.1 hc) hP
    · rw [Circ.sat_bind]
      constructor
      · rintro ⟨⟨⟩, h3, _⟩; exact absurd ((h1.sat hH st).1 h3) hP
      · rintro ⟨h, _⟩; exact absurd h hP

theorem spec_bind {α : Type} {c : Circ p α} {v : α} {S : α → Prop} {d : α → Circ p Unit} {Q : Prop}
    (h1 : Spec b H c v S) (hv : S v) (h2 : ∀ a, S a → Dec b H (d a) Q) : Dec b H (Circ.bind c d) Q := by
  refine ⟨?_, fun hH st => ?_⟩
  · rw [Circ.run_bind, h1.run]; exact (h2 v hv).run
  · rw [Circ.sat_bind]
    constructor
    · rintro ⟨a, h3, h4⟩
      have ha := (h1.sat hH st a).1 h3
      exact ((h2 a ha).sat hH st).1 h4
    · intro h
      exact ⟨v, (h1.sat hH st v).2 hv, ((h2 v hv).sat hH st).2 h⟩

end Dec

variable [Fact p.Prime]

theorem le_iff_lessZ (G : Good p b f) {x y : Flt} (hx : x.Valid f) (hy : y.Valid f) :
    lessZ x y true = true ↔ Ieee.Le (x.datum f) (y.datum f) := by
  rw [lessZ_iff G hx hy]
  constructor
  · rintro ⟨u, v, h1, h2, h | h⟩
    · exact ⟨u, v, h1, h2, h.le⟩
    · exact ⟨u, v, h1, h2, h.2.le⟩
  · rintro ⟨u, v, h1, h2, h⟩
    exact ⟨u, v, h1, h2, h.lt_or_eq.imp id (fun h => ⟨rfl, h⟩)⟩

/-- A number not above a representable one does not round above it. -/
theorem isRNE_le {F : Ieee.Format} {v r m : ℝ} (h : Ieee.IsRNE F v r) (hm : Ieee.Representable F m) (hv : v ≤ m) : r ≤ m := by
  by_contra hc
  have hc := not_le.1 hc
  have h1 := h.nearest m hm
  rw [abs_of_nonpos (by linarith), abs_of_nonpos (by linarith)] at h1
  linarith

/-- The difference of two finite floats of the same sign never overflows. -/
theorem no_pseudo_of_same_sign (G : Good p b f) {x y z : Flt} (hx : x.Valid f) (hy : y.Valid f) (hxa : x.abn = false)
    (hya : y.abn = false) {s : Bool} {v : ℝ} (hv : v = |x.mag f - y.mag f|) : ¬ Pseudo f s v z := by
  intro h
  obtain ⟨n, h1, h2, h3, _⟩ := overflowed_of_pseudo (p := p) h
  have hge : (2:ℝ) ^ f.eMax ≤ n * (2:ℝ) ^ ((2:ℤ) ^ (f.E - 1) - f.M) := pow_real_ge (f := f) (e := f.eMax) h1
  have hlt : ∀ {u : Flt}, u.Valid f → u.abn = false → u.mag f < 2 ^ f.eMax := by
    intro u hu ha
    have h4 := pow_real_lt (f := f) (e := u.exp) hu.man_lt
    exact lt_of_lt_of_le h4 (zpow_le_zpow_right₀ (by norm_num) (by have := hu.exp_fin G ha; omega))
  have hx0 := x.mag_nonneg f
  have hy0 := y.mag_nonneg f
  have : v ≤ x.mag f ∨ v ≤ y.mag f := by
    rw [hv]
    rcases abs_cases (x.mag f - y.mag f) with ⟨h, _⟩ | ⟨h, _⟩
    · left; linarith
    · right; linarith
  rcases this with h5 | h5
  · have := isRNE_le h3 (valid_representable G hx hxa) h5
    linarith [hlt hx hxa]
  · have := isRNE_le h3 (valid_representable G hy hya) h5
    linarith [hlt hy hya]

theorem sameSign_iff {x y : Flt} : (x.isNaN = true ∨ y.isNaN = true ∨ x.sign = y.sign) ↔ (x.datum f).SameSign (y.datum f) := by
  unfold Flt.isNaN Flt.datum
  cases hx : x.abn <;> cases hy : y.abn <;> by_cases hxm : x.man = 0 <;> by_cases hym : y.man = 0 <;>
    simp [hxm, hym, Ieee.Datum.SameSign]

theorem signed_sub_same {s : Bool} {a c : ℝ} : |Ieee.signed s a + Ieee.signed (!s) c| = |a - c| := by
  cases s
  · simp [Ieee.signed, sub_eq_add_neg]
  · simp only [Ieee.signed, if_true, Bool.not_true, Bool.false_eq_true, if_false]
    rw [show -a + c = -(a - c) by ring, abs_neg]

theorem fAssertIsEqualOrCustomULP_dec (G : Good p b f) (hH : H → b ∣ f.pow2Size) {x y t : Flt} (hx : x.Valid f) (hy : y.Valid f)
    (ht : t.Valid f) {ulp : ℕ} (hu : (newConstant f ulp : FloatVar p) = t.toVar) :
    Dec b H (fAssertIsEqualOrCustomULP f (x.toVar : FloatVar p) y.toVar ulp)
      ((x.datum f).SameSign (y.datum f) ∧
        (Ieee.Within f.ieee (t.datum f) (x.datum f) (y.datum f) ∨ x.SameBody y)) := by
  unfold fAssertIsEqualOrCustomULP
  simp only [Circ.bind_eq]
  rw [← sameSign_iff]
  refine Dec.seq_dep (assertSameSign_dec G hx.man_lt hy.man_lt) (fun hsign => ?_)
  have hyn := hy.neg
  unfold fSub
  rw [fNeg_toVar]
  refine Dec.spec_bind (fAdd_spec G (hx.bdd G) (hyn.bdd G) hx.man_cases hyn.man_cases (abn_of_eMax G hx hyn) hH) ⟨true, true, rfl⟩ ?_
  rintro _ ⟨c1, c2, rfl⟩
  rw [fAbs_toVar, hu]
  have rest : ∀ z : Flt, z.Valid f → (¬ x.SameBody y → (Ieee.Le (z.datum f).abs (t.datum f) ↔
      Ieee.Within f.ieee (t.datum f) (x.datum f) (y.datum f))) →
      Dec b H (Circ.bind (fIsLe f (z.abs.toVar : FloatVar p) t.toVar) fun cmp =>
        Circ.bind (sameData (x.toVar : FloatVar p) y.toVar) fun condTwo =>
          Circ.bind (or' (gIsEq cmp 1) condTwo) fun ok => assertIsEqual ok 1)
        (Ieee.Within f.ieee (t.datum f) (x.datum f) (y.datum f) ∨ x.SameBody y) := by
    intro z hz hiff
    have h := fLess_spec (p := p) (b := b) (H := H) G (hz.abs.bdd G) (ht.bdd G) true
    refine Dec.det_bind h ?_
    refine Dec.det_bind (sameData_spec G (hx.bdd G) (hy.bdd G)) ?_
    rw [gIsEq_eq]
    refine Dec.det_bind (or_spec _ _) ?_
    refine Dec.assertEq ?_
    rw [B_eq_one, Bool.or_eq_true, decide_eq_true_iff, decide_eq_true_iff, B_eq_one, le_iff_lessZ G hz.abs ht, abs_datum]
    by_cases hs : x.SameBody y
    · simp [hs]
    · simp [hs, hiff hs]
  rcases add_outcomes G hx hyn c1 c2 with ⟨h1, h2⟩ | ⟨_, a, h1, h2, h3, h4⟩ | ⟨_, h1, h2⟩ | ⟨_, s, a, u, c, h1, h2, h3, h4⟩
  · refine rest _ h1 (fun _ => ?_)
    rw [neg_datum, ← sub_iff_add_neg] at h2
    constructor
    · intro h; exact ⟨_, h2, h⟩
    · rintro ⟨d, h3, h4⟩
      rw [h2.unique h3]; exact h4
  · rw [h4]
    refine rest _ (Flt.Valid.zero _) (fun hs => absurd ?_ hs)
    rw [neg_datum] at h2
    refine (datum_inj G hx hy ?_).1
    rw [h1]
    cases hd : y.datum f with
    | nan => rw [hd] at h2; cases h2
    | inf _ => rw [hd] at h2; cases h2
    | fin u c =>
      rw [hd] at h2
      simp only [Ieee.Datum.neg, Ieee.Datum.fin.injEq] at h2
      rw [h2.2, show u = x.sign by
        have := h2.1; cases u <;> cases hxs : x.sign <;> simp_all]
  · rw [h2]
    refine rest _ (Flt.Valid.inf _) (fun hs => absurd ?_ hs)
    obtain ⟨s, u, a, h3, h4, h5, _⟩ := h1
    refine (datum_inj G hx hy ?_).1
    rw [neg_datum] at h4
    rw [h3]
    cases hd : y.datum f with
    | nan => rw [hd] at h4; cases h4
    | inf _ => rw [hd] at h4; cases h4
    | fin w c =>
      rw [hd] at h4
      simp only [Ieee.Datum.neg, Ieee.Datum.fin.injEq] at h4
      rw [h4.2, show w = s by
        have := h4.1; cases u <;> cases w <;> cases s <;> simp_all]
  · exfalso
    obtain ⟨hxa, rfl, rfl⟩ := datum_fin_iff.1 h1
    obtain ⟨hya, rfl, rfl⟩ := datum_fin_iff.1 h2
    have hya' : y.abn = false := hya
    have hs : x.sign = y.sign := by
      rcases hsign with h | h | h
      · simp [Flt.isNaN, hxa] at h
      · simp [Flt.isNaN, hya'] at h
      · exact h
    refine no_pseudo_of_same_sign G hx hy hxa hya' ?_ h4
    show |Ieee.signed x.sign (x.mag f) + Ieee.signed (!y.sign) (y.mag f)| = _
    rw [← hs]; exact signed_sub_same

end ZkLoc
