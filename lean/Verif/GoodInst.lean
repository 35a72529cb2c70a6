import Verif.Field
import Verif.Flt

/-!
# The parameter conditions hold for the formats and fields used by the repository
-/

namespace ZkLoc

theorem good_bn254_f32 {b : ℕ} (hb : Width b) : Good bn254 b f32 :=
  ⟨hb, by decide, by decide, by decide, by decide, by decide, by unfold bn254 f32; norm_num⟩
theorem good_bn254_f64 {b : ℕ} (hb : Width b) : Good bn254 b f64 :=
  ⟨hb, by decide, by decide, by decide, by decide, by decide, by unfold bn254 f64; norm_num⟩
theorem good_bls12_381_f32 {b : ℕ} (hb : Width b) : Good bls12_381 b f32 :=
  ⟨hb, by decide, by decide, by decide, by decide, by decide, by unfold bls12_381 f32; norm_num⟩
theorem good_bls12_381_f64 {b : ℕ} (hb : Width b) : Good bls12_381 b f64 :=
  ⟨hb, by decide, by decide, by decide, by decide, by decide, by unfold bls12_381 f64; norm_num⟩

theorem width8 : Width 8 := ⟨by norm_num, by norm_num⟩
theorem good8 : Good bn254 8 f32 := good_bn254_f32 width8

end ZkLoc
