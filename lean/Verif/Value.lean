import Verif.AddSpec
import Verif.Spec.Ieee

/-!
# Helper layer: integer-level floats and IEEE data
-/

namespace ZkLoc

open Ieee (Datum IsRNE RoundsTo Representable)

/-- The IEEE format of a context. -/
def Fmt.ieee (f : Fmt) : Ieee.Format := ⟨f.E, f.M⟩

/-- The IEEE datum denoted by an integer-level float: `(-1)^sign * man * 2^(exp - M)`. -/
noncomputable def Flt.datum (f : Fmt) (x : Flt) : Datum :=
  if x.abn then (if x.man = 0 then .nan else .inf x.sign)
  else .fin x.sign (x.man * (2:ℝ) ^ (x.exp - f.M))

theorem ieee_M (f : Fmt) : f.ieee.M = f.M := rfl
theorem ieee_bias (f : Fmt) : f.ieee.bias + 1 = f.eMax := by
  unfold Ieee.Format.bias Fmt.eMax Fmt.ieee; ring
theorem ieee_qmin (f : Fmt) : f.ieee.qmin = f.eNormalMin - f.M := by
  unfold Ieee.Format.qmin Ieee.Format.emin Ieee.Format.bias Fmt.eNormalMin Fmt.eMax Fmt.ieee; ring

/-- `rnd` rounds to nearest, ties to even (`h`: the represented value is exactly `V`; otherwise it is
strictly between `V` and `V + D`, where `D` divides `V` and the half-quantum). -/
theorem rnd_real {V q D : ℕ} {h : Bool} {w : ℝ} (hq : 1 ≤ q) (hD : D ∣ V) (hD2 : D ∣ 2 ^ (q - 1))
    (hw1 : h = true → w = V) (hw2 : h = false → (V:ℝ) < w ∧ w < V + D) :
    |w - rnd V q h * (2:ℝ) ^ q| ≤ 2 ^ q / 2 ∧ (|w - rnd V q h * (2:ℝ) ^ q| = 2 ^ q / 2 → Even (rnd V q h)) := by
  obtain ⟨q, rfl⟩ : ∃ q', q = q' + 1 := ⟨q - 1, by omega⟩
  rw [Nat.add_sub_cancel] at hD2
  obtain ⟨P, hP⟩ : ∃ P, P = 2 ^ q := ⟨_, rfl⟩
  have hPpos : 0 < P := by rw [hP]; positivity
  have h2P : 2 ^ (q + 1) = 2 * P := by rw [hP]; ring
  have h2Pr : (2:ℝ) ^ (q + 1) = 2 * P := by rw [hP]; push_cast; ring
  obtain ⟨a, ha⟩ : ∃ a, a = V / 2 ^ (q + 1) := ⟨_, rfl⟩
  obtain ⟨c, hc⟩ : ∃ c, c = V % 2 ^ (q + 1) := ⟨_, rfl⟩
  have hV : V = a * (2 * P) + c := by
    rw [ha, hc, h2P, mul_comm]; exact (Nat.div_add_mod V (2 * P)).symm
  have hclt : c < 2 * P := by rw [hc, h2P]; exact Nat.mod_lt _ (by omega)
  have hVr : (V:ℝ) = a * (2 * P) + c := by rw [hV]; push_cast; ring
  have hPr : (0:ℝ) < P := by exact_mod_cast hPpos
  rw [← hP] at hD2
  have hDc : D ∣ c := by
    have h1 : D ∣ a * (2 * P) := Dvd.dvd.mul_left (Dvd.dvd.mul_left hD2 2) a
    rw [hV] at hD
    exact (Nat.dvd_add_right h1).1 hD
  have hrnd : rnd V (q + 1) h = if c = P ∧ h = true then a + a % 2 else if P ≤ c then a + 1 else a := by
    unfold rnd; rw [← ha, ← hc, Nat.add_sub_cancel, ← hP]
  rw [hrnd, h2Pr]
  have hhalf : (2 * (P:ℝ)) / 2 = P := by ring
  rw [hhalf]
  have habs : ∀ n : ℕ, ∀ x : ℝ, w - n * (2 * (P:ℝ)) = x → -(P:ℝ) < x → x < P →
      |w - n * (2 * (P:ℝ))| ≤ P ∧ (|w - n * (2 * (P:ℝ))| = P → Even n) := by
    intro n x hx h1 h2
    rw [hx]
    have : |x| < P := abs_lt.2 ⟨h1, h2⟩
    exact ⟨this.le, fun h => absurd h (ne_of_lt this)⟩
  have step : ∀ {x : ℕ}, D ∣ x → c < x → c + D ≤ x := by
    intro x hx hlt
    obtain ⟨i, rfl⟩ := hDc
    obtain ⟨j, rfl⟩ := hx
    have hij : i < j := Nat.lt_of_mul_lt_mul_left hlt
    calc D * i + D = D * (i + 1) := by ring
      _ ≤ D * j := Nat.mul_le_mul_left _ hij
  cases h with
  | true =>
    have hw := hw1 rfl
    rw [hw, hVr]
    rw [hw, hVr] at habs
    by_cases hcP : c = P
    · simp only [hcP, and_self, if_true]
      have hev : Even (a + a % 2) := by
        rcases Nat.mod_two_eq_zero_or_one a with h | h
        · rw [h, add_zero]; exact Nat.even_iff.2 h
        · rw [h]; exact Nat.even_iff.2 (by omega)
      refine ⟨?_, fun _ => hev⟩
      rcases Nat.mod_two_eq_zero_or_one a with h | h
      · rw [h, add_zero, add_sub_cancel_left, abs_of_pos hPr]
      · rw [h]; push_cast
        have : (a:ℝ) * (2 * P) + P - (a + 1) * (2 * P) = -P := by ring
        rw [this, abs_neg, abs_of_pos hPr]
    · simp only [hcP, false_and, if_false]
      by_cases hle : P ≤ c
      · rw [if_pos hle]
        refine habs (a + 1) ((c:ℝ) - 2 * P) (by push_cast; ring) ?_ ?_
        · have : (P:ℝ) < c := by exact_mod_cast (lt_of_le_of_ne hle (Ne.symm hcP))
          linarith
        · have : (c:ℝ) < 2 * P := by exact_mod_cast hclt
          linarith
      · rw [if_neg hle]
        refine habs a (c:ℝ) (by ring) ?_ ?_
        · have : (0:ℝ) ≤ c := by positivity
          linarith
        · exact_mod_cast (by omega : c < P)
  | false =>
    obtain ⟨h1, h2⟩ := hw2 rfl
    rw [hVr] at h1 h2
    simp only [Bool.false_eq_true, and_false, if_false]
    by_cases hle : P ≤ c
    · rw [if_pos hle]
      have hs := step (Dvd.dvd.mul_left hD2 2) hclt
      have hs' : (c:ℝ) + D ≤ 2 * P := by exact_mod_cast hs
      have hle' : (P:ℝ) ≤ c := by exact_mod_cast hle
      refine habs (a + 1) _ rfl ?_ ?_ <;> push_cast <;> linarith
    · rw [if_neg hle]
      have hs := step hD2 (by omega)
      have hs' : (c:ℝ) + D ≤ P := by exact_mod_cast hs
      have hc0 : (0:ℝ) ≤ c := by positivity
      refine habs a _ rfl ?_ ?_ <;> linarith

/-- The malformed "finite" record with exponent `E_MAX` that a prover may leave instead of an infinity:
`d` is the overflowed result, whose rounded magnitude lies in `[2^E_MAX, 2^(E_MAX+1))`. -/
structure Pseudo (f : Fmt) (s : Bool) (v : ℝ) (z : Flt) : Prop where
  sign : z.sign = s
  abn : z.abn = false
  exp : z.exp = f.eMax
  lo : 2 ^ f.M ≤ z.man
  hi : z.man < 2 ^ (f.M + 1)
  rne : IsRNE f.ieee v (z.man * (2:ℝ) ^ (f.eMax - f.M))

/-- The rounded result does not fall into the binade just above the format's range. -/
def NoTop (f : Fmt) (v : ℝ) : Prop :=
  ∀ r, IsRNE f.ieee v r → ¬ ((2:ℝ) ^ f.eMax ≤ r ∧ r < 2 ^ (f.eMax + 1))

/-- The final record assembled from `fixOverflow` (zero significand cleared). -/
def fixRec (f : Fmt) (s : Bool) (m : ℕ) (e : ℤ) (c : Bool) : Flt :=
  ⟨s, (fixZ f m (decide (m = 0)) e false c).2.1, if m = 0 then 0 else (fixZ f m (decide (m = 0)) e false c).1,
    (fixZ f m (decide (m = 0)) e false c).2.2⟩

theorem pow_real_lt {f : Fmt} {m : ℕ} {e : ℤ} (h : m < 2 ^ (f.M + 1)) : (m:ℝ) * 2 ^ (e - f.M) < 2 ^ (e + 1) := by
  have h1 : (m:ℝ) < 2 ^ (f.M + 1) := by exact_mod_cast h
  have h2 : (0:ℝ) < 2 ^ (e - f.M) := by positivity
  have h3 : (2:ℝ) ^ (e + 1) = 2 ^ (f.M + 1) * 2 ^ (e - f.M) := by
    rw [← zpow_natCast, ← zpow_add₀ (by norm_num)]; congr 1; push_cast; ring
  rw [h3]; exact mul_lt_mul_of_pos_right h1 h2

theorem pow_real_ge {f : Fmt} {m : ℕ} {e : ℤ} (h : 2 ^ f.M ≤ m) : (2:ℝ) ^ e ≤ (m:ℝ) * 2 ^ (e - f.M) := by
  have h1 : (2:ℝ) ^ f.M ≤ m := by exact_mod_cast h
  have h2 : (0:ℝ) < 2 ^ (e - f.M) := by positivity
  have h3 : (2:ℝ) ^ e = 2 ^ f.M * 2 ^ (e - f.M) := by
    rw [← zpow_natCast, ← zpow_add₀ (by norm_num)]; congr 1; ring
  rw [h3]; exact mul_le_mul_of_nonneg_right h1 h2.le

/-- Correctness of the final overflow handling, given a correctly rounded significand. -/
theorem fix_correct {f : Fmt} (hMe : 2 * (f.M : ℤ) + 4 ≤ f.eMax) {s : Bool} {m : ℕ} {e : ℤ} {v : ℝ}
    (hm : m = 0 ∨ (2 ^ f.M ≤ m ∧ m ≤ 2 ^ (f.M + 1)))
    (hsub : e < f.eNormalMin → m ≠ 0 → 2 ^ (f.eNormalMin - e).toNat ∣ m)
    (h0 : m = 0 → e < f.eMax) (hr : IsRNE f.ieee v (m * (2:ℝ) ^ (e - f.M))) :
    ((fixRec f s m e true).Valid f ∧ RoundsTo f.ieee s v ((fixRec f s m e true).datum f)) ∧
    ((fixRec f s m e false = fixRec f s m e true ∧ NoTop f v) ∨ Pseudo f s v (fixRec f s m e false)) := by
  have hmn := f.eMin_eq
  have hNm := f.eNormalMin_eq
  have hpos := f.eMax_pos
  have hMpos : (0:ℕ) < 2 ^ f.M := by positivity
  have hM1 : 2 ^ (f.M + 1) = 2 * 2 ^ f.M := by ring
  rcases hm with rfl | ⟨hm1, hm2⟩
  · -- zero
    have hlt := h0 rfl
    have hz : ∀ c, fixRec f s 0 e c = ⟨s, f.eMin, 0, false⟩ := by
      intro c
      have hne : ¬ (0 = 2 ^ (f.M + 1)) := by omega
      have h1 : ¬ f.eMax < e := by omega
      have h2 : ¬ e = f.eMax := by omega
      unfold fixRec fixZ
      simp [hne, h1, h2]
    refine ⟨⟨?_, ?_⟩, Or.inl ⟨by rw [hz, hz], fun r hr' h => ?_⟩⟩
    rotate_left 2
    · rw [← hr.unique hr'] at h
      have : (0:ℝ) < 2 ^ f.eMax := by positivity
      simp at h; linarith [h.1]
    · rw [hz]; exact Flt.Valid.zero s
    · rw [hz]
      refine ⟨_, hr, fun _ => ?_, fun h => ?_⟩
      · simp [Flt.datum]
      · simp at h
        have : (0:ℝ) < 2 ^ (f.ieee.bias + 1) := by positivity
        linarith
  · have hmne : m ≠ 0 := by omega
    -- after renormalisation
    obtain ⟨m', e', hm'1, hm'2, hval, hsub', hrec⟩ : ∃ (m' : ℕ) (e' : ℤ), 2 ^ f.M ≤ m' ∧ m' < 2 ^ (f.M + 1) ∧
        (m:ℝ) * 2 ^ (e - f.M) = m' * 2 ^ (e' - f.M) ∧
        (e' < f.eNormalMin → 2 ^ (f.eNormalMin - e').toNat ∣ m') ∧
        (∀ c, fixRec f s m e c = if (decide (f.eMax < e') || (decide (e' = f.eMax) && c)) then ⟨s, f.eMax, 2 ^ f.M, true⟩
          else ⟨s, e', m', false⟩) := by
      by_cases hov : m = 2 ^ (f.M + 1)
      · refine ⟨2 ^ f.M, e + 1, le_rfl, by omega, ?_, ?_, ?_⟩
        · rw [hov, show e + 1 - (f.M:ℤ) = (e - f.M) + 1 by ring, zpow_add_one₀ (by norm_num)]; push_cast; ring
        · intro h
          have h1 := hsub (by omega) hmne
          rw [hov] at h1
          have h2 := (Nat.pow_dvd_pow_iff_le_right (x := 2) (by norm_num)).1 h1
          exact pow_dvd_pow _ (by omega)
        · intro c
          unfold fixRec fixZ
          simp only [hov, decide_true, if_true, Bool.or_false, Bool.true_or]
          have hne : ¬ (2 ^ (f.M + 1) = 0) := by positivity
          simp only [hne, decide_false, if_false, Bool.false_eq_true]
          by_cases hc : (decide (f.eMax < e + 1) || (decide (e + 1 = f.eMax) && c)) = true
          · rw [if_pos hc, if_pos hc, hc]
          · rw [if_neg hc, if_neg hc]
            simp only [Bool.not_eq_true] at hc
            rw [hc]
      · refine ⟨m, e, hm1, by omega, rfl, fun h => hsub h hmne, ?_⟩
        intro c
        unfold fixRec fixZ
        simp only [hov, hmne, decide_false, if_false, Bool.false_eq_true, Bool.or_false, Bool.false_or, add_zero]
        by_cases hc : (decide (f.eMax < e) || (decide (e = f.eMax) && c)) = true
        · rw [if_pos hc, if_pos hc, if_pos hc, hc]
        · rw [if_neg hc, if_neg hc, if_neg hc]
          simp only [Bool.not_eq_true] at hc
          rw [hc]
    rw [hval] at hr
    have hge : f.eMin + 1 ≤ e' := by
      by_contra hlt
      have h1 := Nat.le_of_dvd (by omega) (hsub' (by omega))
      have h2 : 2 ^ (f.M + 1) ≤ 2 ^ (f.eNormalMin - e').toNat := Nat.pow_le_pow_right (by norm_num) (by omega)
      omega
    rcases lt_trichotomy e' f.eMax with hlt | heq | hgt
    · have h1 : ¬ f.eMax < e' := by omega
      have h2 : ¬ e' = f.eMax := by omega
      have hz : ∀ c, fixRec f s m e c = ⟨s, e', m', false⟩ := by intro c; rw [hrec]; simp [h1, h2]
      refine ⟨⟨?_, ?_⟩, Or.inl ⟨by rw [hz, hz], fun r hr' h => ?_⟩⟩
      rotate_left 2
      · rw [← hr.unique hr'] at h
        have h3 := pow_real_lt (e := e') hm'2
        have h4 : (2:ℝ) ^ (e' + 1) ≤ 2 ^ f.eMax := zpow_le_zpow_right₀ (by norm_num) (by omega)
        linarith [h.1]
      · rw [hz]; exact Flt.Valid.fin s e' m' hm'1 hm'2 hge (by omega) hsub'
      · rw [hz]
        refine ⟨_, hr, fun _ => by simp [Flt.datum], fun h => ?_⟩
        rw [ieee_bias] at h
        have h3 := pow_real_lt (e := e') hm'2
        have h4 : (2:ℝ) ^ (e' + 1) ≤ 2 ^ f.eMax := zpow_le_zpow_right₀ (by norm_num) (by omega)
        linarith
    · have hzt : fixRec f s m e true = ⟨s, f.eMax, 2 ^ f.M, true⟩ := by rw [hrec]; simp [heq]
      have hzf : fixRec f s m e false = ⟨s, e', m', false⟩ := by rw [hrec]; simp [heq]
      have hbig := pow_real_ge (e := e') hm'1
      refine ⟨⟨?_, ?_⟩, Or.inr ?_⟩
      · rw [hzt]; exact Flt.Valid.inf s
      · rw [hzt]
        refine ⟨_, hr, fun h => ?_, fun _ => by simp [Flt.datum]⟩
        rw [ieee_bias, ← heq] at h
        linarith
      · rw [hzf]
        exact ⟨rfl, rfl, heq, hm'1, hm'2, by rw [← heq]; exact hr⟩
    · have hz : ∀ c, fixRec f s m e c = ⟨s, f.eMax, 2 ^ f.M, true⟩ := by intro c; rw [hrec]; simp [hgt]
      have hbig := pow_real_ge (e := e') hm'1
      refine ⟨⟨?_, ?_⟩, Or.inl ⟨by rw [hz, hz], fun r hr' h => ?_⟩⟩
      rotate_left 2
      · rw [← hr.unique hr'] at h
        have h4 : (2:ℝ) ^ (f.eMax + 1) ≤ 2 ^ e' := zpow_le_zpow_right₀ (by norm_num) (by omega)
        linarith [h.2]
      · rw [hz]; exact Flt.Valid.inf s
      · rw [hz]
        refine ⟨_, hr, fun h => ?_, fun _ => by simp [Flt.datum]⟩
        rw [ieee_bias] at h
        have h4 : (2:ℝ) ^ f.eMax ≤ 2 ^ e' := zpow_le_zpow_right₀ (by norm_num) (by omega)
        linarith

end ZkLoc
