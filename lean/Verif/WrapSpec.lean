import Verif.SinSpec
import Verif.Props.Location
import Verif.Props.Centre

/-!
# Helper lemmas: the circuit that computes the sines and cosines itself
-/

namespace ZkLoc

variable {p : ℕ} [Fact p.Prime] {b : ℕ} {f : Fmt} {g : GeoConsts} {k : TrigConsts} {ds : List ℕ} {m : Prover}

/-- Rounding respects bounds by numbers of the format. -/
theorem Rn.le' {e w q : ℝ} (h : Rn f e w) (hq : Ieee.Representable ⟨f.E, f.M⟩ |q|) (h0 : 0 ≤ q) (he : |e| ≤ q) : |w| ≤ q := by
  rw [abs_of_nonneg h0] at hq
  exact h.abs_le hq he

/-- `lng + π/2`, brought below `π`. -/
theorem shiftedLng_ok (G : Good p b f) (hm : m.Fits b f) (hf : Fine f) {h : ℝ} (h1 : Num f (newConstant f g.halfPi : FloatVar p) h)
    (h2 : Num f (newConstant f g.pi : FloatVar p) (2 * h)) (h4 : Num f (newConstant f g.twoPi : FloatVar p) (4 * h)) (hpi : |h - Real.pi / 2| ≤ ulpHalf f)
    {x : FloatVar p} {v : ℝ} (hx : Num f x v) (hv : |v| ≤ 2 * h) :
    Ok m b (shiftedLng f g x) (fun z => ∃ w, Num f z w ∧ |w| ≤ 2 * h ∧ |Real.sin w - Real.cos v| ≤ 14 * ulpHalf f) := by
  have hbig := big_ge G
  have hu := hf.hu
  have u0 := ulpHalf_pos (f := f)
  have hη := eta_le_u1000 hf
  have pi1 := Real.pi_gt_d6
  have pi2 := Real.pi_lt_d6
  have hv' := abs_le.1 hv
  rw [abs_le] at hpi
  norm_num at pi1 pi2 hu
  have hcos : Real.cos v = Real.sin (v + Real.pi / 2) := by rw [Real.sin_add_pi_div_two]
  unfold shiftedLng
  simp only [Circ.bind_eq, Circ.pure_eq]
  have hvh : |v + h| ≤ 3 * h := abs_le.2 ⟨by linarith, by linarith⟩
  refine (ok_add G hm hx h1 (by linarith) (by linarith)).bind ?_
  rintro tmp ⟨t, ht, hr⟩
  have kt := hr.err2
  have kt1 : ulpHalf f * |v + h| ≤ ulpHalf f * (475 / 100) := mul_le_mul_of_nonneg_left (by linarith) u0.le
  have kt2 : |t - (v + Real.pi / 2)| ≤ 6 * ulpHalf f := by
    rw [abs_le] at kt ⊢
    constructor <;> linarith
  have kt3 := abs_le.1 kt2
  refine (ok_gt G ht h2).bind ?_
  rintro _ rfl
  have ht4 : |t - 4 * h| ≤ big f := by rw [abs_le]; constructor <;> linarith
  refine (ok_sub G hm ht h4 (by rw [abs_lt]; constructor <;> linarith) ht4).bind ?_
  rintro sh ⟨s, hs, hr'⟩
  refine (Ok.select _ _ _).bind ?_
  rintro _ rfl
  refine (Ok.select _ _ _).bind ?_
  rintro _ rfl
  refine (Ok.select _ _ _).bind ?_
  rintro _ rfl
  by_cases hc : 2 * h < t
  · simp only [hc, decide_true, if_true]
    have r2 : Ieee.Representable ⟨f.E, f.M⟩ |2 * h| := h2.repr G
    have e0 : |t - 4 * h| ≤ 2 * h := abs_le.2 ⟨by linarith, by linarith⟩
    refine Ok.pure ⟨s, ?_, hr'.le' r2 (by linarith) e0, ?_⟩
    · have ha : sh.isAbnormal = 0 := hs.normal
      rw [← ha]; exact hs
    · have k1 := hr'.err2
      have k2 : ulpHalf f * |t - 4 * h| ≤ ulpHalf f * (315 / 100) := mul_le_mul_of_nonneg_left (by linarith) u0.le
      have k3 : |s - (v + Real.pi / 2 - 2 * Real.pi)| ≤ 14 * ulpHalf f := by
        rw [abs_le] at k1 ⊢
        constructor <;> linarith
      rw [hcos, ← Real.sin_sub_two_pi (v + Real.pi / 2)]
      exact (Real.abs_sin_sub_sin_le _ _).trans k3
  · simp only [hc, decide_false, Bool.false_eq_true, if_false]
    refine Ok.pure ⟨t, ?_, ?_, ?_⟩
    · have ha : tmp.isAbnormal = 0 := ht.normal
      rw [← ha]; exact ht
    · rw [abs_le]; constructor <;> linarith
    · rw [hcos]
      exact (Real.abs_sin_sub_sin_le _ _).trans (kt2.trans (by linarith))

/-- What is used of the constants of the circuit. -/
structure WrapConsts (p : ℕ) [Fact p.Prime] (f : Fmt) (k : TrigConsts) (ds : List ℕ) (g : GeoConsts) (h : ℝ) : Prop where
  sin : SinConsts p f k ds
  h1 : Num f (newConstant f g.halfPi : FloatVar p) h
  h2 : Num f (newConstant f g.pi : FloatVar p) (2 * h)
  h4 : Num f (newConstant f g.twoPi : FloatVar p) (4 * h)
  pi : k.pi = g.pi
  near : |h - Real.pi / 2| ≤ ulpHalf f

/-- The four sines and cosines. -/
theorem wrapperTrig_ok (G : Good p b f) (hm : m.Fits b f) {h : ℝ} (W : WrapConsts p f k ds g h) {lat lng : FloatVar p} {φ l : ℝ}
    (hlat : Num f lat φ) (hlng : Num f lng l) (hφ : |φ| ≤ h) (hl : |l| ≤ 2 * h) :
    Ok m b (wrapperTrig f k ds g lat lng) (fun t => Near f t.1 (Real.sin φ) (96 * ulpHalf f) ∧ Near f t.2.1 (Real.cos φ) (96 * ulpHalf f) ∧
      Near f t.2.2.1 (Real.sin l) (96 * ulpHalf f) ∧ Near f t.2.2.2 (Real.cos l) (96 * ulpHalf f)) := by
  have hbig := big_ge G
  have hu := W.sin.fine.hu
  have u0 := ulpHalf_pos (f := f)
  have hη := eta_le_u1000 W.sin.fine
  have pi1 := Real.pi_gt_d6
  have pi2 := Real.pi_lt_d6
  have hpi := W.near
  have hφ' := abs_le.1 hφ
  rw [abs_le] at hpi
  norm_num at pi1 pi2 hu
  have hP : Num f (newConstant f k.pi : FloatVar p) (2 * h) := W.pi ▸ W.h2
  unfold wrapperTrig
  simp only [Circ.bind_eq, Circ.pure_eq]
  have e0 : |φ + h| ≤ 2 * h := abs_le.2 ⟨by linarith, by linarith⟩
  refine (ok_add G hm hlat W.h1 (by linarith) (by linarith)).bind ?_
  rintro term ⟨t, ht, hr⟩
  have kt := hr.err2
  have kt1 : ulpHalf f * |φ + h| ≤ ulpHalf f * (315 / 100) := mul_le_mul_of_nonneg_left (by linarith) u0.le
  have kt2 : |t - (φ + Real.pi / 2)| ≤ 5 * ulpHalf f := by
    rw [abs_le] at kt ⊢
    constructor <;> linarith
  refine (sinTaylor_ok G hm W.sin ht hP (hr.le' (W.h2.repr G) (by linarith) e0)).bind ?_
  rintro cl ⟨wc, hwc, hec⟩
  refine (shiftedLng_ok G hm W.sin.fine W.h1 W.h2 W.h4 W.near hlng hl).bind ?_
  rintro sl ⟨v, hv, hv1, hv2⟩
  refine (sinTaylor_ok G hm W.sin hv hP hv1).bind ?_
  rintro cg ⟨wg, hwg, heg⟩
  refine (sinTaylor_ok G hm W.sin hlng hP hl).bind ?_
  rintro sg ⟨ws, hws, hes⟩
  refine (sinTaylor_ok G hm W.sin hlat hP (hφ.trans (by linarith))).bind ?_
  rintro z ⟨wz, hwz, hez⟩
  refine Ok.pure ⟨⟨wz, hwz, by linarith⟩, ⟨wc, hwc, ?_⟩, ⟨ws, hws, by linarith⟩, ⟨wg, hwg, ?_⟩⟩
  · have h1 := (Real.abs_sin_sub_sin_le t (φ + Real.pi / 2)).trans kt2
    rw [Real.sin_add_pi_div_two] at h1
    have := abs_sub_le wc (Real.sin t) (Real.cos φ)
    linarith
  · have := abs_sub_le wg (Real.sin v) (Real.cos l)
    linarith

theorem wrapConsts32 : WrapConsts p f32 consts32 sinDenoms32 geo32 (13176795 / 2 ^ 23) where
  sin := sinConsts32
  h1 := num_exact (E := 8) (M := 23) (neg := false) (num := 13176795) (den := 2 ^ 23) (by norm_num) (by norm_num) (by decide)
      (by decide +kernel) (by norm_num [Ieee.signed])
  h2 := num_exact (E := 8) (M := 23) (neg := false) (num := 13176795) (den := 2 ^ 22) (by norm_num) (by norm_num) (by decide)
      (by decide +kernel) (by norm_num [Ieee.signed])
  h4 := num_exact (E := 8) (M := 23) (neg := false) (num := 13176795) (den := 2 ^ 21) (by norm_num) (by norm_num) (by decide)
      (by decide +kernel) (by norm_num [Ieee.signed])
  pi := rfl
  near := by
    have h1 := Real.pi_gt_d20
    have h2 := Real.pi_lt_d20
    rw [ulpHalf32, abs_le]
    constructor <;> norm_num at * <;> linarith

/-- The number of a bit pattern. -/
def PatternOf (f : Fmt) (v : ℕ) (x : ℝ) : Prop := v < 2 ^ (1 + f.E + f.M) ∧ ∃ s a, Ieee.decodeBits ⟨f.E, f.M⟩ v = .fin s a ∧ Ieee.signed s a = x

theorem newFloat_ok (G : Good p b f) (h64 : 1 + f.E + f.M ≤ 64) {v : ℕ} {x : ℝ} (h : PatternOf f v x) :
    Ok m b (newFloat f (v : ZMod p)) (fun r => Num f r x) := by
  obtain ⟨hv, s, a, h1, h2⟩ := h
  have hp : v < p := G.lt_of_lt_pow hv (by have := G.hEM; omega)
  cases m with
  | honest =>
    have h := C14_newFloat_complete (p := p) (b := b) G h64 hv
    refine ⟨_, h, s, a, ?_, h2⟩
    have := C14_newFloat_encodes (st := true) G h64 (Circ.sat_of_run _ _ h)
    rwa [ZMod.val_natCast_of_lt hp, h1] at this
  | any st =>
    intro r hr
    refine ⟨s, a, ?_, h2⟩
    have := C14_newFloat_encodes G h64 hr
    rwa [ZMod.val_natCast_of_lt hp, h1] at this

theorem assertZero_ok {c : ZMod p} (h : c = 0) : Ok m b (assertIsEqual c (0 : ZMod p)) (fun _ => True) := by
  subst h
  cases m with
  | honest => exact ⟨(), by simp [assertIsEqual, Circ.run], trivial⟩
  | any st => exact fun _ _ => trivial

theorem assertLe_ok {c : ZMod p} {n : ℕ} (h : m = .honest → c.val ≤ n) (hn : n < p) : Ok m b (assertIsLessOrEqual c n) (fun _ => c.val ≤ n) := by
  cases m with
  | honest => exact ⟨(), by simp [assertIsLessOrEqual, Circ.run, h rfl], h rfl⟩
  | any st =>
    intro r hr
    simp only [assertIsLessOrEqual, Circ.pure_eq, Circ.Sat, decide_eq_true_eq] at hr
    exact hr.1

/-- The input section for a location in range. -/
theorem locInputs_ok (G : Good p b f) (h64 : 1 + f.E + f.M ≤ 64) {h : ℝ} (h1 : Num f (newConstant f g.halfPi : FloatVar p) h)
    (h2 : Num f (newConstant f g.pi : FloatVar p) (2 * h)) {Lat Lng : ℕ} {φ l : ℝ} (hφ : PatternOf f Lat φ) (hl : PatternOf f Lng l) (hφ1 : φ ≤ h)
    (hl1 : l ≤ 2 * h) {res : ZMod p} (hres : m = .honest → res.val ≤ 15) :
    Ok m b (locInputs f g (Lat : ZMod p) (Lng : ZMod p) res) (fun r => Num f r.1 φ ∧ Num f r.2 l ∧ res.val ≤ 15) := by
  have hp : 2 ^ 4 ≤ p := (Nat.pow_le_pow_right (by norm_num) (by omega)).trans G.hp
  unfold locInputs
  simp only [Circ.bind_eq, Circ.pure_eq]
  refine (newFloat_ok G h64 hφ).bind fun lat hlat => ?_
  refine (newFloat_ok G h64 hl).bind fun lng hlng => ?_
  refine (ok_gt G hlat h1).bind ?_
  rintro _ rfl
  refine (assertZero_ok (by simp [not_lt.2 hφ1, B])).bind fun _ _ => ?_
  refine (ok_gt G hlng h2).bind ?_
  rintro _ rfl
  refine (assertZero_ok (by simp [not_lt.2 hl1, B])).bind fun _ _ => ?_
  refine (assertLe_ok (n := 15) hres (by omega)).bind fun _ hr => ?_
  exact Ok.pure ⟨hlat, hlng, hr⟩

/-- The cell of the circuit that computes the sines and cosines itself. -/
theorem wrapperCell_ok (G : Good p b f) (hm : m.Fits b f) (h64 : 1 + f.E + f.M ≤ 64) (C : CellConsts p f g) {h : ℝ} (W : WrapConsts p f k ds g h)
    (hτ : 96 * ulpHalf f ≤ 1 / 2 ^ 16) {Lat Lng : ℕ} {φ l : ℝ} (hφ : PatternOf f Lat φ) (hl : PatternOf f Lng l) (hφ1 : |φ| ≤ h) (hl1 : |l| ≤ 2 * h)
    {res : ZMod p} (hres : m = .honest → res.val ≤ 15) :
    OkOr m b (wrapperCell f k ds g (Lat : ZMod p) (Lng : ZMod p) res) (∃ F ∈ H3.faceGeo, H3.sqd F φ l ≤ (20 * (96 * ulpHalf f)) ^ 2)
      (fun r => ∃ n : ℕ, n < 16 ∧ res = n ∧ CellOk m (96 * ulpHalf f) φ l n r) := by
  have u0 := ulpHalf_pos (f := f)
  unfold wrapperCell
  simp only [Circ.bind_eq]
  refine (locInputs_ok G h64 W.h1 W.h2 hφ hl ((le_abs_self _).trans hφ1) ((le_abs_self _).trans hl1) hres).bindOr ?_
  rintro ⟨lat, lng⟩ ⟨hlat, hlng, hr⟩
  refine (wrapperTrig_ok G hm W hlat hlng hφ1 hl1).bindOr ?_
  rintro ⟨z, c, s, d⟩ ⟨t1, t2, t3, t4⟩
  exact locCell_ok G hm C ⟨by linarith, hτ⟩ t1 t2 t3 t4 (fun _ => by omega)

end ZkLoc
