import Verif.NewFloatSpec
import Verif.Spec.Encodes

/-!
# Helper lemmas: the specification vocabulary in terms of integer-level floats
-/

namespace ZkLoc

theorem valid_comps_canonical {f : Fmt} {x : Flt} (hx : x.Valid f) : Canonical f.E f.M x.comps := by
  have hmn := f.eMin_eq
  have hmx : f.eMax = 2 ^ (f.E - 1) := rfl
  have hN := f.eNormalMin_eq
  refine ⟨by cases x.sign <;> simp [Flt.comps], ?_⟩
  cases hx with
  | nan s => left; exact ⟨rfl, rfl, Or.inl rfl⟩
  | inf s => left; exact ⟨rfl, rfl, Or.inr rfl⟩
  | zero s => right; left; exact ⟨rfl, hmn, rfl⟩
  | fin s e m h1 h2 h3 h4 h5 =>
    right; right
    refine ⟨rfl, h1, h2, by simp only [Flt.comps]; omega, by simp only [Flt.comps]; omega, fun k hk => ?_⟩
    simp only [Flt.comps] at hk ⊢
    rcases Nat.eq_zero_or_pos k with h | h
    · rw [h]; simp
    · exact dvd_trans (pow_dvd_pow _ (by omega)) (h5 (by omega))

theorem canonical_exists_valid {f : Fmt} {c : Components} (hc : Canonical f.E f.M c) :
    ∃ x : Flt, x.Valid f ∧ x.comps = c := by
  have hmn := f.eMin_eq
  have hmx : f.eMax = 2 ^ (f.E - 1) := rfl
  have hN := f.eNormalMin_eq
  obtain ⟨hs, h⟩ := hc
  obtain ⟨cs, ce, cm, ca⟩ := c
  simp only at hs h
  obtain ⟨s, rfl⟩ : ∃ s : Bool, cs = s.toNat := by
    rcases hs with rfl | rfl
    · exact ⟨false, rfl⟩
    · exact ⟨true, rfl⟩
  rcases h with ⟨rfl, rfl, rfl | rfl⟩ | ⟨rfl, rfl, rfl⟩ | ⟨rfl, h1, h2, h3, h4, h5⟩
  · exact ⟨_, Flt.Valid.nan s, rfl⟩
  · exact ⟨_, Flt.Valid.inf s, rfl⟩
  · exact ⟨_, Flt.Valid.zero s, by simp [Flt.comps, hmn, hmx]⟩
  · refine ⟨_, Flt.Valid.fin s ce cm h1 h2 (by omega) (by omega) (fun hlt => h5 _ (by omega)), rfl⟩

theorem denotes_comps (f : Fmt) (x : Flt) : denotes f.M x.comps = x.datum f := by
  unfold denotes Flt.datum Flt.comps
  cases x.abn <;> cases x.sign <;> simp

theorem comps_toVar {p : ℕ} (x : Flt) : (x.comps.toVar : FloatVar p) = x.toVar := by
  unfold Flt.comps Components.toVar Flt.toVar
  cases x.sign <;> cases x.abn <;> simp

theorem encodes_iff {p : ℕ} {f : Fmt} {r : FloatVar p} {d : Ieee.Datum} :
    Encodes f r d ↔ ∃ x : Flt, x.Valid f ∧ x.datum f = d ∧ r = x.toVar := by
  constructor
  · rintro ⟨c, hc, rfl, rfl⟩
    obtain ⟨x, hx, rfl⟩ := canonical_exists_valid hc
    exact ⟨x, hx, (denotes_comps f x).symm, comps_toVar x⟩
  · rintro ⟨x, hx, rfl, rfl⟩
    exact ⟨x.comps, valid_comps_canonical hx, denotes_comps f x, (comps_toVar x).symm⟩

theorem overflowed_of_pseudo {p : ℕ} {f : Fmt} {s : Bool} {v : ℝ} {z : Flt} (h : Pseudo f s v z) :
    Overflowed f s v (z.toVar : FloatVar p) := by
  refine ⟨z.man, h.lo, h.hi, h.rne, ?_⟩
  unfold Flt.toVar
  rw [h.sign, h.abn, h.exp]
  cases s <;> simp [Fmt.eMax]

end ZkLoc
