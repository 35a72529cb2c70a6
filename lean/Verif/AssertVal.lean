import Verif.AssertSpec

/-!
# Equality assertions on floats: meaning
-/

namespace ZkLoc

variable {p : ℕ} [Fact p.Prime] {b : ℕ} {f : Fmt}

theorem valid_nan_eq {z : Flt} (hz : z.Valid f) (h : z.datum f = .nan) : z = ⟨z.sign, f.eMax, 0, true⟩ := by
  cases hz with
  | nan s => rfl
  | inf s => simp [Flt.datum] at h
  | zero s => simp [Flt.datum] at h
  | fin s e m => simp [Flt.datum] at h

/-- Equal data means equal records, up to the sign of a NaN. -/
theorem datum_inj (G : Good p b f) {x y : Flt} (hx : x.Valid f) (hy : y.Valid f) (h : x.datum f = y.datum f) :
    x.SameBody y ∧ (x.datum f ≠ .nan → x = y) := by
  cases hd : x.datum f with
  | nan =>
    have h1 := valid_nan_eq hx hd
    have h2 := valid_nan_eq hy (h ▸ hd)
    refine ⟨?_, fun h => absurd rfl h⟩
    rw [h1, h2]; exact ⟨rfl, rfl, rfl⟩
  | inf s =>
    have h1 := valid_inf_eq hx hd
    have h2 := valid_inf_eq hy (h ▸ hd)
    rw [h1, h2]
    exact ⟨⟨rfl, rfl, rfl⟩, fun _ => rfl⟩
  | fin s a =>
    obtain ⟨hxa, hs1, hm1⟩ := datum_fin_iff.1 hd
    obtain ⟨hya, hs2, hm2⟩ := datum_fin_iff.1 (h ▸ hd)
    have hnx : x.isNaN = false := by simp [Flt.isNaN, hxa]
    have hny : y.isNaN = false := by simp [Flt.isNaN, hya]
    have he := (emag_eq_iff G hx hy hnx hny).1 (by simp [Flt.emag, hxa, hya, ← hm1, ← hm2])
    refine ⟨⟨he.1, he.2, by rw [hxa, hya]⟩, fun _ => ?_⟩
    ext
    · rw [← hs1, ← hs2]
    · exact he.1
    · exact he.2
    · rw [hxa, hya]

theorem isNaN_iff {x : Flt} : x.isNaN = true ↔ x.datum f = .nan := by
  unfold Flt.isNaN Flt.datum
  cases x.abn <;> simp

theorem same_iff (G : Good p b f) {x y : Flt} (hx : x.Valid f) (hy : y.Valid f) :
    ((x.isNaN = true ∨ y.isNaN = true ∨ x.sign = y.sign) ∧ x.SameBody y) ↔ x.datum f = y.datum f := by
  constructor
  · rintro ⟨h, h1, h2, h3⟩
    have hnan : x.isNaN = y.isNaN := by unfold Flt.isNaN; rw [h2, h3]
    rcases h with h | h | h
    · rw [isNaN_iff.1 h, isNaN_iff.1 (hnan ▸ h)]
    · rw [isNaN_iff.1 h, isNaN_iff.1 (hnan ▸ h)]
    · have : x = y := by ext <;> assumption
      rw [this]
  · intro h
    obtain ⟨h1, h2⟩ := datum_inj G hx hy h
    refine ⟨?_, h1⟩
    by_cases hn : x.datum f = .nan
    · exact Or.inl (isNaN_iff.2 hn)
    · rw [h2 hn]; simp

/-- `y` is one step above `x` in the sense of `AssertIsEqualOrULP`. -/
def ulpUp (f : Fmt) (x y : Flt) : Prop :=
  (x.exp = y.exp ∧ y.man = x.man + 1) ∨ (y.exp = x.exp + 1 ∧ y.man = 2 ^ f.M ∧ x.man = 2 ^ (f.M + 1) - 1)

theorem ulpStep_iff {x y : Flt} : ulpStep f x y ↔ ulpUp f x y ∨ ulpUp f y x := by
  unfold ulpStep ulpUp
  constructor
  · rintro (⟨h, h' | h'⟩ | h | h)
    · exact Or.inr (Or.inl ⟨h.symm, h'⟩)
    · exact Or.inl (Or.inl ⟨h, h'⟩)
    · exact Or.inr (Or.inr h)
    · exact Or.inl (Or.inr h)
  · rintro ((⟨h, h'⟩ | h) | ⟨h, h'⟩ | h)
    · exact Or.inl ⟨h, Or.inr h'⟩
    · exact Or.inr (Or.inr h)
    · exact Or.inl ⟨h.symm, Or.inl h'⟩
    · exact Or.inr (Or.inl h)

theorem no_between {F : Ieee.Format} {n : ℕ} {k : ℤ} (hn : 2 ^ F.M ≤ n) {q : ℝ} (hq : Ieee.Representable F q)
    (h1 : (n:ℝ) * 2 ^ k < q) : ((n + 1 : ℕ) : ℝ) * 2 ^ k ≤ q := by
  have hP : (0:ℝ) < 2 ^ k := by positivity
  have h2 : (2:ℝ) ^ F.M ≤ n := by exact_mod_cast hn
  obtain ⟨m, rfl⟩ := hq.multiple (k := k) (Or.inr (by nlinarith))
  have h3 : (n:ℝ) < m := lt_of_mul_lt_mul_right h1 hP.le
  have h4 : n + 1 ≤ m := by exact_mod_cast h3
  exact mul_le_mul_of_nonneg_right (by exact_mod_cast h4) hP.le

theorem mag_of_carry {f : Fmt} {x : Flt} {e : ℤ} (h : x.man + 1 = 2 ^ (f.M + 1)) (he : e = x.exp + 1) :
    ((2 ^ f.M : ℕ) : ℝ) * 2 ^ (e - (f.M:ℤ)) = ((x.man + 1 : ℕ) : ℝ) * 2 ^ (x.exp - (f.M:ℤ)) := by
  rw [h, he, show x.exp + 1 - (f.M:ℤ) = (x.exp - f.M) + 1 by ring, zpow_add_one₀ (by norm_num)]
  push_cast; ring

/-- A finite valid magnitude is representable. -/
theorem valid_representable (G : Good p b f) {x : Flt} (hx : x.Valid f) (ha : x.abn = false) :
    Ieee.Representable f.ieee (x.mag f) := by
  have hNm := f.eNormalMin_eq
  have hq : f.ieee.qmin = f.eNormalMin - f.M := by
    rw [hNm]; show 1 - ((2:ℤ) ^ (f.E - 1) - 1) - (f.M:ℤ) = _
    unfold Fmt.eMax; ring
  cases hx with
  | nan s => simp at ha
  | inf s => simp at ha
  | zero s =>
    refine ⟨0, f.ieee.qmin, by positivity, le_rfl, by simp [Flt.mag]⟩
  | fin s e m h1 h2 h3 h4 h5 =>
    by_cases hn : f.eNormalMin ≤ e
    · exact ⟨m, e - f.M, h2, by rw [hq]; omega, rfl⟩
    · obtain ⟨n, hn'⟩ := h5 (by omega)
      have hpos : 0 < 2 ^ (f.eNormalMin - e).toNat := by positivity
      refine ⟨n, f.ieee.qmin, ?_, le_rfl, ?_⟩
      · refine lt_of_le_of_lt ?_ h2
        rw [hn']; exact Nat.le_mul_of_pos_left _ hpos
      · unfold Flt.mag
        simp only
        rw [hq, hn']; push_cast
        have : f.eNormalMin - (f.M:ℤ) = ((f.eNormalMin - e).toNat : ℤ) + (e - f.M) := by omega
        rw [this, zpow_add₀ (by norm_num), zpow_natCast]; ring

theorem ulpUp_iff (G : Good p b f) {x y : Flt} (hx : x.Valid f) (hy : y.Valid f) :
    (ulpUp f x y ∧ x.sign = y.sign) ↔ Ieee.NextAway f.ieee (x.datum f) (y.datum f) := by
  have hMz := G.hMz
  have hNm := f.eNormalMin_eq
  have hmn := f.eMin_eq
  have hM4 : 4 ≤ f.M := le_trans G.hE G.hEM
  have h2M : 16 ≤ 2 ^ f.M := le_trans (by norm_num) (Nat.pow_le_pow_right (n := 2) (by norm_num) hM4)
  have h2M1 : 2 ^ (f.M + 1) = 2 * 2 ^ f.M := pow_succ' _ _
  have hemin : f.ieee.emin = f.eNormalMin := by
    rw [hNm]; show 1 - ((2:ℤ) ^ (f.E - 1) - 1) = _
    unfold Fmt.eMax; ring
  have hbias : f.ieee.bias + 1 = f.eMax := by
    show ((2:ℤ) ^ (f.E - 1) - 1) + 1 = _
    unfold Fmt.eMax; ring
  have hqmin : f.ieee.qmin = f.eNormalMin - f.M := by
    rw [← hemin]; rfl
  have man_abn : ∀ {z : Flt}, z.Valid f → z.abn = true → z.man = 0 ∨ z.man = 2 ^ f.M := by
    intro z hz ha
    cases hz with
    | nan s => exact Or.inl rfl
    | inf s => exact Or.inr rfl
    | zero s => simp at ha
    | fin s e m => simp at ha
  have even_sub : ∀ {z : Flt}, z.Valid f → z.man ≠ 0 → z.exp < f.eNormalMin → 2 ∣ z.man := by
    intro z hz h0 he
    cases hz with
    | nan s => simp at h0
    | inf s => simp only at he; omega
    | zero s => simp at h0
    | fin s e m h1 h2 h3 h4 h5 =>
      exact dvd_trans (dvd_pow_self 2 (by simp only at he; omega)) (h5 he)
  constructor
  · rintro ⟨hup, hs⟩
    have hxm : 2 ^ f.M ≤ x.man := by
      rcases hx.man_cases with h | h
      · exfalso
        rcases hup with ⟨_, h2⟩ | ⟨_, _, h2⟩
        · rcases hy.man_cases with h3 | h3 <;> omega
        · omega
      · exact h
    have hxlt := hx.man_lt
    have hxa : x.abn = false := by
      by_contra hc
      have hc : x.abn = true := by simpa using hc
      have he := hx.exp_of_abn hc
      rcases hup with ⟨h1, h2⟩ | ⟨h1, _, h2⟩
      · have hya : y.abn = true := by
          cases hya : y.abn
          · have := hy.exp_fin G hya; omega
          · rfl
        rcases man_abn hx hc with h3 | h3 <;> rcases man_abn hy hya with h4 | h4 <;> omega
      · rcases man_abn hx hc with h3 | h3 <;> omega
    have hnorm : f.eNormalMin ≤ x.exp := by
      by_contra hc
      have h1 := even_sub hx (by omega) (by omega)
      rcases hup with ⟨h2, h3⟩ | ⟨h2, h3, h4⟩
      · have h5 := even_sub hy (by omega) (by omega); omega
      · omega
    have hge := pow_real_ge (f := f) (e := x.exp) hxm
    refine ⟨x.sign, x.mag f, datum_fin hxa, ?_, ?_⟩
    · rw [hemin]
      exact le_trans (zpow_le_zpow_right₀ (by norm_num) hnorm) hge
    have hsucc : ∀ q, Ieee.Representable f.ieee q → x.mag f < q → ((x.man + 1 : ℕ) : ℝ) * 2 ^ (x.exp - (f.M:ℤ)) ≤ q :=
      fun q hq h => no_between (F := f.ieee) hxm hq h
    have hlt : x.mag f < ((x.man + 1 : ℕ) : ℝ) * 2 ^ (x.exp - (f.M:ℤ)) := by
      unfold Flt.mag
      exact mul_lt_mul_of_pos_right (by push_cast; linarith) (by positivity)
    cases hya : y.abn
    · left
      refine ⟨y.mag f, by rw [datum_fin hya, hs], ?_⟩
      have hmag : y.mag f = ((x.man + 1 : ℕ) : ℝ) * 2 ^ (x.exp - (f.M:ℤ)) := by
        rcases hup with ⟨h2, h3⟩ | ⟨h2, h3, h4⟩
        · unfold Flt.mag; rw [h3, h2]
        · unfold Flt.mag; rw [h3]; exact mag_of_carry (by omega) h2
      rw [hmag]
      exact ⟨hlt, fun q hq h => absurd (hsucc q hq h.1) (not_le.2 h.2)⟩
    · right
      have hye := hy.exp_of_abn hya
      have hxe := hx.exp_fin G hxa
      rcases hup with ⟨h2, h3⟩ | ⟨h2, h3, h4⟩
      · omega
      refine ⟨by simp [Flt.datum, hya, h3, hs], valid_representable G hx hxa, ?_, ?_⟩
      · rw [hbias]
        have := pow_real_lt (f := f) (e := x.exp) hxlt
        rw [show f.eMax = x.exp + 1 by omega]
        exact this
      · intro q hq hlt2
        by_contra hc
        have h5 := hsucc q hq (not_le.1 hc)
        rw [← mag_of_carry (f := f) (x := x) (e := f.eMax) (by omega) (by omega)] at h5
        have h6 := pow_real_ge (f := f) (e := f.eMax) (le_refl (2 ^ f.M))
        rw [hbias] at hlt2
        linarith
  · rintro ⟨s, a, hdx, hnorm, hy2⟩
    obtain ⟨hxa, rfl, rfl⟩ := datum_fin_iff.1 hdx
    rw [hemin] at hnorm
    have hpos : (0:ℝ) < 2 ^ f.eNormalMin := by positivity
    have hxm : 2 ^ f.M ≤ x.man := by
      rcases hx.man_cases with h | h
      · have := mag_eq_zero (f := f).2 h; linarith
      · exact h
    have hxlt := hx.man_lt
    have hxe : f.eNormalMin ≤ x.exp := by
      by_contra hc
      have h1 := pow_real_lt (f := f) (e := x.exp) hxlt
      have h2 : (2:ℝ) ^ (x.exp + 1) ≤ 2 ^ f.eNormalMin := zpow_le_zpow_right₀ (by norm_num) (by omega)
      unfold Flt.mag at hnorm
      linarith
    have hxe2 := hx.exp_fin G hxa
    have hrep : Ieee.Representable f.ieee (((x.man + 1 : ℕ) : ℝ) * 2 ^ (x.exp - (f.M:ℤ))) :=
      Ieee.representable_mul (F := f.ieee) (by show x.man + 1 ≤ 2 ^ (f.M + 1); omega) (by rw [hqmin]; omega)
    have hlt : x.mag f < ((x.man + 1 : ℕ) : ℝ) * 2 ^ (x.exp - (f.M:ℤ)) := by
      unfold Flt.mag
      exact mul_lt_mul_of_pos_right (by push_cast; linarith) (by positivity)
    rcases hy2 with ⟨c, hdy, hac, hadj⟩ | ⟨hdy, hmax⟩
    · obtain ⟨hya, hs, rfl⟩ := datum_fin_iff.1 hdy
      refine ⟨?_, hs⟩
      have hym : 2 ^ f.M ≤ y.man := by
        rcases hy.man_cases with h | h
        · have := mag_eq_zero (f := f).2 h
          have := x.mag_nonneg f
          linarith
        · exact h
      have hye : f.eNormalMin ≤ y.exp := by
        by_contra hc
        have h1 := pow_real_lt (f := f) (e := y.exp) hy.man_lt
        have h2 : (2:ℝ) ^ (y.exp + 1) ≤ 2 ^ f.eNormalMin := zpow_le_zpow_right₀ (by norm_num) (by omega)
        have h3 : y.mag f < 2 ^ (y.exp + 1) := h1
        linarith
      have h1 := no_between (F := f.ieee) (k := x.exp - f.M) hxm (valid_representable G hy hya) hac
      have h2 : y.mag f = ((x.man + 1 : ℕ) : ℝ) * 2 ^ (x.exp - (f.M:ℤ)) := by
        refine le_antisymm ?_ h1
        by_contra hc
        exact hadj _ hrep ⟨hlt, not_le.1 hc⟩
      unfold Flt.mag at h2
      by_cases hcarry : x.man + 1 = 2 ^ (f.M + 1)
      · right
        rw [← mag_of_carry hcarry rfl] at h2
        obtain ⟨h3, h4⟩ := Ieee.normal_unique (F := f.ieee) hy.man_lt (by show 2 ^ f.M < 2 ^ (f.M + 1); omega)
          (by rw [hqmin]; omega) (by rw [hqmin]; omega) (Or.inl hym) (Or.inl le_rfl) h2
        exact ⟨by omega, h3, by omega⟩
      · left
        obtain ⟨h3, h4⟩ := Ieee.normal_unique (F := f.ieee) hy.man_lt (by show x.man + 1 < 2 ^ (f.M + 1); omega)
          (by rw [hqmin]; omega) (by rw [hqmin]; omega) (Or.inl hym) (Or.inl (by show 2 ^ f.M ≤ x.man + 1; omega)) h2
        exact ⟨by omega, h3⟩
    · have hy3 := valid_inf_eq hy hdy
      obtain ⟨_, _, hmax⟩ := hmax
      rw [hbias] at hmax
      have hnot : ¬ ((x.man + 1 : ℕ) : ℝ) * 2 ^ (x.exp - (f.M:ℤ)) < 2 ^ f.eMax := fun h =>
        absurd (hmax _ hrep h) (not_le.2 hlt)
      have hm : x.man + 1 = 2 ^ (f.M + 1) := by
        by_contra hc
        apply hnot
        have h1 := pow_real_lt (f := f) (e := x.exp) (show x.man + 1 < 2 ^ (f.M + 1) by omega)
        exact lt_of_lt_of_le h1 (zpow_le_zpow_right₀ (by norm_num) (by omega))
      have he : x.exp = f.eMax - 1 := by
        by_contra hc
        apply hnot
        rw [← mag_of_carry hm rfl]
        have h1 := pow_real_lt (f := f) (e := x.exp + 1) (show 2 ^ f.M < 2 ^ (f.M + 1) by omega)
        exact lt_of_lt_of_le h1 (zpow_le_zpow_right₀ (by norm_num) (by omega))
      rw [hy3]
      exact ⟨Or.inr ⟨by simp only; omega, rfl, by omega⟩, rfl⟩

end ZkLoc
