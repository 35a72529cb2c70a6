import Verif.ArithBridge
import Verif.GoodInst

/-!
# Helpers for the concrete cases beside the theorems: binary32 wires over the BN254 scalar field
-/

namespace ZkLoc

/-- Wires of a binary32 bit pattern. -/
def w32 (v : ℕ) : FloatVar bn254 := (componentsOf v 8 23).toVar

theorem w32_eq {v : ℕ} (hv : v < 2 ^ 32) : w32 v = (fltOf f32 v).toVar := by
  unfold w32
  have h := componentsOf_eq (f := f32) (v := v) (by decide) (by decide) (by simpa [f32] using hv)
  rw [show componentsOf v 8 23 = (fltOf f32 v).comps from h, comps_toVar]

theorem w32_valid {v : ℕ} (hv : v < 2 ^ 32) : (fltOf f32 v).Valid f32 :=
  fltOf_valid (by decide) (by simpa [f32] using hv)

theorem w32_encodes {v : ℕ} (hv : v < 2 ^ 32) : Encodes f32 (w32 v) (Ieee.decodeBits ⟨8, 23⟩ v) :=
  encodes_iff.2 ⟨_, w32_valid hv, fltOf_datum (by decide) (by simpa [f32] using hv), w32_eq hv⟩

theorem mul32 {x y z : ℕ} (hx : x < 2 ^ 32) (hy : y < 2 ^ 32) (hz : z < 2 ^ 32)
    (h : mulZ f32 (fltOf f32 x) (fltOf f32 y) true = fltOf f32 z) : (fMul f32 (w32 x) (w32 y)).run 8 = some (w32 z) := by
  rw [w32_eq hx, w32_eq hy, w32_eq hz, (fMul_spec (H := False) good8 ((w32_valid hx).bdd good8) ((w32_valid hy).bdd good8)
    (by simp)).run, h]

theorem div32 {x y z : ℕ} (hx : x < 2 ^ 32) (hy : y < 2 ^ 32) (hz : z < 2 ^ 32)
    (h : divZ f32 (fltOf f32 x) (fltOf f32 y) true = fltOf f32 z) : (fDiv f32 (w32 x) (w32 y)).run 8 = some (w32 z) := by
  rw [w32_eq hx, w32_eq hy, w32_eq hz, (fDiv_spec (H := False) good8 ((w32_valid hx).bdd good8) ((w32_valid hy).bdd good8)
    (w32_valid hy).man_cases (by simp)).run, h]

theorem sqrt32 {x z : ℕ} (hx : x < 2 ^ 32) (hz : z < 2 ^ 32)
    (h : sqrtZ f32 (fltOf f32 x) = fltOf f32 z) : (fSqrt f32 (w32 x)).run 8 = some (w32 z) := by
  rw [w32_eq hx, w32_eq hz, (fSqrt_spec (H := False) good8 ((w32_valid hx).bdd good8) (by simp)).run, h]

theorem add32 {x y z : ℕ} (hx : x < 2 ^ 32) (hy : y < 2 ^ 32) (hz : z < 2 ^ 32)
    (h : addZ f32 (fltOf f32 x) (fltOf f32 y) true true = fltOf f32 z) :
    (fAdd f32 (w32 x) (w32 y)).run 8 = some (w32 z) := by
  rw [w32_eq hx, w32_eq hy, w32_eq hz, (fAdd_spec (H := False) good8 ((w32_valid hx).bdd good8) ((w32_valid hy).bdd good8)
    (w32_valid hx).man_cases (w32_valid hy).man_cases (abn_of_eMax good8 (w32_valid hx) (w32_valid hy)) (by simp)).run, h]

/-- Outcomes available to a prover who answers `false` to the sign questions left open by the gadgets. -/
theorem mul32_sat {x y : ℕ} (hx : x < 2 ^ 32) (hy : y < 2 ^ 32) (c st : Bool) :
    (fMul f32 (w32 x) (w32 y)).Sat 8 st (mulZ f32 (fltOf f32 x) (fltOf f32 y) c).toVar := by
  rw [w32_eq hx, w32_eq hy]
  exact ((fMul_spec (H := True) good8 ((w32_valid hx).bdd good8) ((w32_valid hy).bdd good8)
    (by decide)).sat trivial _ _).2 ⟨c, rfl⟩

theorem add32_sat {x y : ℕ} (hx : x < 2 ^ 32) (hy : y < 2 ^ 32) (c1 c2 st : Bool) :
    (fAdd f32 (w32 x) (w32 y)).Sat 8 st (addZ f32 (fltOf f32 x) (fltOf f32 y) c1 c2).toVar := by
  rw [w32_eq hx, w32_eq hy]
  exact ((fAdd_spec (H := True) good8 ((w32_valid hx).bdd good8) ((w32_valid hy).bdd good8)
    (w32_valid hx).man_cases (w32_valid hy).man_cases (abn_of_eMax good8 (w32_valid hx) (w32_valid hy))
    (by decide)).sat trivial _ _).2 ⟨c1, c2, rfl⟩

theorem div32_sat {x y : ℕ} (hx : x < 2 ^ 32) (hy : y < 2 ^ 32) (c st : Bool) :
    (fDiv f32 (w32 x) (w32 y)).Sat 8 st (divZ f32 (fltOf f32 x) (fltOf f32 y) c).toVar := by
  rw [w32_eq hx, w32_eq hy]
  exact ((fDiv_spec (H := True) good8 ((w32_valid hx).bdd good8) ((w32_valid hy).bdd good8)
    (w32_valid hy).man_cases (by decide)).sat trivial _ _).2 ⟨c, rfl⟩

/-- Wires with exponent `E_MAX` that are not marked abnormal encode no datum. -/
theorem not_encodes_top {z : Flt} (hz : z.exp = f32.eMax) (ha : z.abn = false) (d : Ieee.Datum) :
    ¬ Encodes f32 (z.toVar : FloatVar bn254) d := by
  intro h
  obtain ⟨x, hx, _, h⟩ := encodes_iff.1 h
  have h1 := congrArg FloatVar.exponent h
  have h2 := congrArg FloatVar.isAbnormal h
  simp only [Flt.toVar] at h1 h2
  rw [ha] at h2
  have hxa : x.abn = false := (B_inj.1 h2).symm
  have hlt := hx.exp_fin good8 hxa
  have hge := hx.exp_ge good8
  rw [hz] at h1
  have hb : |f32.eMax - x.exp| < (bn254 : ℤ) := by
    have e1 : f32.eMax = 128 := by decide
    have e2 : f32.eMin = -150 := by decide
    rw [e1] at hlt ⊢; rw [e2] at hge
    have : (300:ℤ) < (bn254 : ℤ) := by decide
    rw [abs_of_pos (by linarith)]; linarith
  have := (intCast_inj hb).1 h1
  omega

end ZkLoc
