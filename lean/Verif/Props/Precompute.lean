import Verif.Props.Wrapper

/-!
# Property theorems C49: the location circuits with precomputed sines and cosines

The theorems hold for any hint values that are near the sines and cosines they stand for; that `PrecomputeHint32`/`PrecomputeHint64` deliver such values is C74.
-/

namespace ZkLoc

variable {p : ℕ} [Fact p.Prime] {b : ℕ} {f : Fmt} {g : GeoConsts}

/-- The values of the hint for the angle `φ`: `γ` and `δ` near the sine and cosine of half the angle, `β` near the sine of the angle. (`α` is used in a check only.) -/
structure HintNear (f : Fmt) (τ φ : ℝ) (h : Pre p) : Prop where
  beta : ∃ a, Num f h.beta a ∧ |a - Real.sin φ| ≤ τ
  gamma : ∃ a, Num f h.gamma a ∧ |a - Real.sin (φ / 2)| ≤ τ / 8
  delta : ∃ a, Num f h.delta a ∧ |a - Real.cos (φ / 2)| ≤ τ / 8

theorem square_near {m : Prover} (G : Good p b f) (hm : m.Fits b f) (hf : Fine f) {x : FloatVar p} {a A τ : ℝ} (hx : Num f x a) (hA : |A| ≤ 1) (h1 : |a - A| ≤ τ / 8)
    (hτ : 16 * ulpHalf f ≤ τ) (hτ' : τ ≤ 1 / 2 ^ 16) : Ok m b (fMul f x x) (fun r => ∃ w, Num f r w ∧ |w - A ^ 2| ≤ τ / 4 * |A| + 66 / 1000 * τ ∧ |w| ≤ 2) := by
  have hbig := big_ge G
  have u0 := ulpHalf_pos (f := f)
  have hη := eta_le_u1000 hf
  norm_num at hτ'
  have t0 : 0 < τ := by linarith
  have ha : |a| ≤ 1 + τ / 8 := by
    have : |a| ≤ |a - A| + |A| := by simpa using abs_add_le (a - A) A
    linarith
  have haa : |a * a| ≤ 1001 / 1000 := by
    rw [abs_mul]
    have := mul_le_mul ha ha (abs_nonneg _) (by linarith)
    nlinarith
  refine (ok_mul G hm hx hx (by linarith)).mono ?_
  rintro r ⟨w, hw, hr⟩
  have hw2 := hr.abs_le_pow G 1 (haa.trans (by norm_num))
  refine ⟨w, hw, ?_, by simpa using hw2⟩
  have k1 := hr.err2
  have k2 : ulpHalf f * |a * a| ≤ ulpHalf f * (1001 / 1000) := mul_le_mul_of_nonneg_left haa u0.le
  have k3 : |a * a - A ^ 2| ≤ τ / 4 * |A| + τ / 1000 := by
    rw [show a * a - A ^ 2 = (a - A) * (a - A) + 2 * (A * (a - A)) by ring]
    refine (abs_add_le _ _).trans ?_
    rw [abs_mul, abs_mul, abs_mul, abs_two]
    have e1 : |a - A| * |a - A| ≤ τ / 8 * (τ / 8) := mul_le_mul h1 h1 (abs_nonneg _) (by linarith)
    have e2 : |A| * |a - A| ≤ |A| * (τ / 8) := mul_le_mul_of_nonneg_left h1 (abs_nonneg _)
    nlinarith
  have k4 := abs_sub_le w (a * a) (A ^ 2)
  rw [abs_sub_comm] at k1
  linarith

/-- The cosine from the half angle. -/
theorem preCos_ok {m : Prover} (G : Good p b f) (hm : m.Fits b f) (hf : Fine f) {τ φ : ℝ} (hτ : 16 * ulpHalf f ≤ τ) (hτ' : τ ≤ 1 / 2 ^ 16) {h : Pre p}
    (H : HintNear f τ φ h) : Ok m b (preCos f h) (fun r => ∃ w, Num f r w ∧ |w - Real.cos φ| ≤ τ) := by
  have hbig := big_ge G
  have u0 := ulpHalf_pos (f := f)
  have hη := eta_le_u1000 hf
  obtain ⟨c, hc, hc'⟩ := H.gamma
  obtain ⟨d, hd, hd'⟩ := H.delta
  unfold preCos
  simp only [Circ.bind_eq]
  refine (square_near G hm hf hd (Real.abs_cos_le_one _) hd' hτ hτ').bind ?_
  rintro dd ⟨D, hD, hD', hD2⟩
  refine (square_near G hm hf hc (Real.abs_sin_le_one _) hc' hτ hτ').bind ?_
  rintro gg ⟨C, hC, hC', hC2⟩
  norm_num at hτ'
  have hs : |D - C| ≤ 4 := (abs_sub _ _).trans (by linarith)
  refine (ok_sub G hm hD hC (by linarith) (by linarith)).mono ?_
  rintro r ⟨w, hw, hr⟩
  refine ⟨w, hw, ?_⟩
  have k1 := hr.err2
  have hcs : Real.cos φ = Real.cos (φ / 2) ^ 2 - Real.sin (φ / 2) ^ 2 := by
    rw [← Real.cos_two_mul']; ring_nf
  have hsum : |Real.cos (φ / 2)| + |Real.sin (φ / 2)| ≤ 3 / 2 := by
    have h1 := Real.sin_sq_add_cos_sq (φ / 2)
    rw [← sq_abs (Real.sin (φ / 2)), ← sq_abs (Real.cos (φ / 2))] at h1
    nlinarith [sq_nonneg (|Real.cos (φ / 2)| - |Real.sin (φ / 2)|)]
  have k2 : |D - C - Real.cos φ| ≤ 1 / 2 * τ + 8 / 1000 * τ := by
    rw [hcs, show D - C - (Real.cos (φ / 2) ^ 2 - Real.sin (φ / 2) ^ 2) = (D - Real.cos (φ / 2) ^ 2) - (C - Real.sin (φ / 2) ^ 2) by ring]
    refine (abs_sub _ _).trans ?_
    have : τ / 4 * (|Real.cos (φ / 2)| + |Real.sin (φ / 2)|) ≤ τ / 4 * (3 / 2) := mul_le_mul_of_nonneg_left hsum (by linarith)
    nlinarith
  have k3 : |D - C| ≤ 2 := by
    have := abs_add_le (D - C - Real.cos φ) (Real.cos φ)
    rw [sub_add_cancel] at this
    have := Real.abs_cos_le_one φ
    linarith
  have k4 : ulpHalf f * |D - C| ≤ ulpHalf f * 2 := mul_le_mul_of_nonneg_left k3 u0.le
  rw [abs_sub_comm] at k1
  have := abs_sub_le w (D - C) (Real.cos φ)
  linarith

theorem run_some_bind {α β : Type} {c : Circ p α} {k : α → Circ p β} {r : β} (h : (Circ.bind c k).run b = some r) :
    ∃ a, c.run b = some a ∧ (k a).run b = some r := by
  rw [Circ.run_bind] at h
  exact Option.bind_eq_some_iff.1 h

theorem precompute_run {h v : Pre p} (hr : (precompute f h).run b = some v) : v = h := by
  unfold precompute at hr
  simp only [Circ.bind_eq, Circ.pure_eq] at hr
  obtain ⟨_, _, hr⟩ := run_some_bind hr
  obtain ⟨_, _, hr⟩ := run_some_bind hr
  obtain ⟨_, _, hr⟩ := run_some_bind hr
  obtain ⟨_, _, hr⟩ := run_some_bind hr
  simp only [hintFloat, newHint, Circ.bind_eq, Circ.pure_eq, Circ.bind, Circ.run, Option.some.injEq] at hr
  exact hr.symm

/-- What follows the hints. -/
theorem preTail_correct (G : Good p b f) (C : CellConsts p f g) {τ φ l : ℝ} (hτ : 16 * ulpHalf f ≤ τ) (hτ' : τ ≤ 1 / 2 ^ 16) {vLat vLng : Pre p}
    (h1 : HintNear f τ φ vLat) (h2 : HintNear f τ l vLng) {cLat cLng : Pre p → Circ p Unit} {n : ℕ} (hn : n ≤ 15) {I J K : ZMod p}
    (h : (preTail f g cLat cLng (n : ZMod p) I J K vLat vLng).run b = some ()) :
    ∃ i j k : ℤ, I = i ∧ J = j ∧ K = k ∧ H3.CellAt (64 * τ) (768 * τ * Real.sqrt 7 ^ n) n φ l i j k := by
  have u0 := ulpHalf_pos (f := f)
  unfold preTail at h
  simp only [Circ.bind_eq] at h
  obtain ⟨_, _, h⟩ := run_some_bind h
  obtain ⟨_, _, h⟩ := run_some_bind h
  obtain ⟨cosLat, hc1, h⟩ := run_some_bind h
  obtain ⟨cosLng, hc2, h⟩ := run_some_bind h
  obtain ⟨r, hr, h⟩ := run_some_bind h
  obtain ⟨_, hq1, w1⟩ := preCos_ok (m := .honest) G (.inl rfl) C.fine hτ hτ' h1
  obtain ⟨_, hq2, w2⟩ := preCos_ok (m := .honest) G (.inl rfl) C.fine hτ hτ' h2
  obtain rfl := Option.some.inj (hc1.symm.trans hq1)
  obtain rfl := Option.some.inj (hc2.symm.trans hq2)
  obtain ⟨i, j, k, e, hcell⟩ := C45_cell_correct G C ⟨by linarith, hτ', h1.beta, w1, h2.beta, w2⟩ hn hr
  have := sat_assertCell (Circ.sat_of_run (st := true) _ _ h)
  rw [e] at this
  simp only [Prod.mk.injEq] at this
  exact ⟨i, j, k, this.1.symm, this.2.1.symm, this.2.2.symm, hcell⟩

/-- **C49** Every cell that the honest prover proves with the single-precision circuit contains the location, at every table width, if the hint values are near
the sines and cosines. `τ` may be as small as `2^-20`. -/
theorem C49_precompute_correct32 (G : Good p b f32) {τ φ l : ℝ} (hτ : 16 * (1 / 2 ^ 24) ≤ τ) (hτ' : τ ≤ 1 / 2 ^ 16) {hLat hLng : Pre p}
    (h1 : HintNear f32 τ φ hLat) (h2 : HintNear f32 τ l hLng) {n : ℕ} (hn : n ≤ 15) {Lat Lng I J K : ZMod p}
    (h : (precomputeCircuit32 hLat hLng Lat Lng (n : ZMod p) I J K).run b = some ()) :
    ∃ i j k : ℤ, I = i ∧ J = j ∧ K = k ∧ H3.CellAt (64 * τ) (768 * τ * Real.sqrt 7 ^ n) n φ l i j k := by
  unfold precomputeCircuit32 at h
  simp only [Circ.bind_eq] at h
  obtain ⟨_, _, h'1⟩ := run_some_bind h
  obtain ⟨_, e1, h'2⟩ := run_some_bind h'1
  obtain ⟨_, e2, h'3⟩ := run_some_bind h'2
  obtain rfl := precompute_run e1
  obtain rfl := precompute_run e2
  exact preTail_correct G cellConsts32 (by rw [ulpHalf32]; exact hτ) hτ' h1 h2 hn h'3

/-- **C49** The same for double precision. `τ` may be as small as `2^-49`: the hexagon of resolution 15 is enlarged by less than `2^-18`. -/
theorem C49_precompute_correct64 (G : Good p b f64) {τ φ l : ℝ} (hτ : 16 * (1 / 2 ^ 53) ≤ τ) (hτ' : τ ≤ 1 / 2 ^ 16) {hLat hLng : Pre p}
    (h1 : HintNear f64 τ φ hLat) (h2 : HintNear f64 τ l hLng) {n : ℕ} (hn : n ≤ 15) {Lat Lng I J K : ZMod p}
    (h : (precomputeCircuit64 hLat hLng Lat Lng (n : ZMod p) I J K).run b = some ()) :
    ∃ i j k : ℤ, I = i ∧ J = j ∧ K = k ∧ H3.CellAt (64 * τ) (768 * τ * Real.sqrt 7 ^ n) n φ l i j k := by
  unfold precomputeCircuit64 at h
  simp only [Circ.bind_eq] at h
  obtain ⟨_, _, h'1⟩ := run_some_bind h
  obtain ⟨_, _, h'2⟩ := run_some_bind h'1
  obtain ⟨_, _, h'3⟩ := run_some_bind h'2
  obtain ⟨_, e1, h'4⟩ := run_some_bind h'3
  obtain ⟨_, e2, h'5⟩ := run_some_bind h'4
  obtain rfl := precompute_run e1
  obtain rfl := precompute_run e2
  exact preTail_correct G cellConsts64 (by rw [ulpHalf64]; exact hτ) hτ' h1 h2 hn h'5

/-! Concrete case: the location of `Verif/Props/Cell.lean` (latitude 0, longitude `77/32`, cell `(0, 30, 10)` of resolution 5). -/

/-- The hint values for the angle 0. -/
def exHintLat : Pre bn254 := ⟨newConstant f32 0, newConstant f32 0, newConstant f32 0, newConstant f32 0x3f800000⟩
/-- The hint values for the angle `77/32`. -/
def exHintLng : Pre bn254 := ⟨newConstant f32 0x4026273b, newConstant f32 0x3f2bbc42, newConstant f32 0x3f6ee407, newConstant f32 0x3eb808f6⟩

theorem exHintLat_near : HintNear f32 (1 / 2 ^ 17) 0 exHintLat where
  beta := ⟨0, num_zero (by decide) (by decide), by rw [Real.sin_zero]; norm_num⟩
  gamma := ⟨0, num_zero (by decide) (by decide), by rw [zero_div, Real.sin_zero]; norm_num⟩
  delta := ⟨1, num_exact (E := 8) (M := 23) (neg := false) (num := 1) (den := 1) (by norm_num) (by norm_num) (by decide) (by decide +kernel)
    (by simp [Ieee.signed]), by rw [zero_div, Real.cos_zero]; norm_num⟩

theorem exHintLng_near : HintNear f32 (1 / 2 ^ 17) (77 / 32) exHintLng where
  beta := by
    obtain ⟨a, h1, h2⟩ := exampleInputs.sinLng
    exact ⟨a, h1, h2.trans (by norm_num)⟩
  gamma := by
    refine ⟨15655943 / 2 ^ 24, num_exact (E := 8) (M := 23) (neg := false) (num := 15655943) (den := 2 ^ 24) (by norm_num) (by norm_num) (by decide)
      (by decide +kernel) (by norm_num [Ieee.signed]), ?_⟩
    have h := trigCheck_sin (X := 77 * 2 ^ 18) (V := 15655943) (k := 24) (n := 30) (t := 20) (by decide +kernel)
    rw [show (((77 * 2 ^ 18 : ℤ) : ℝ) / 2 ^ 24) = 77 / 32 / 2 by norm_num] at h
    push_cast at h
    exact h.trans (by norm_num)
  delta := by
    refine ⟨12060918 / 2 ^ 25, num_exact (E := 8) (M := 23) (neg := false) (num := 12060918) (den := 2 ^ 25) (by norm_num) (by norm_num) (by decide)
      (by decide +kernel) (by norm_num [Ieee.signed]), ?_⟩
    have h := trigCheck_cos (X := 77 * 2 ^ 19) (V := 12060918) (k := 25) (n := 30) (t := 20) (by decide +kernel)
    rw [show (((77 * 2 ^ 19 : ℤ) : ℝ) / 2 ^ 25) = 77 / 32 / 2 by norm_num] at h
    push_cast at h
    exact h.trans (by norm_num)

theorem exPrecomputeRun : (precomputeCircuit32 exHintLat exHintLng 0 0x401A0000 5 0 30 10).run 9 = some () := by decide +kernel

/-- The hypotheses of `C49_precompute_correct32` are met at the deployed width. -/
example : ∃ i j k : ℤ, (0 : ZMod bn254) = i ∧ (30 : ZMod bn254) = j ∧ (10 : ZMod bn254) = k ∧
    H3.CellAt (64 * (1 / 2 ^ 17)) (768 * (1 / 2 ^ 17) * Real.sqrt 7 ^ 5) 5 0 (77 / 32) i j k :=
  C49_precompute_correct32 (b := 9) (good_bn254_f32 ⟨by norm_num, by norm_num⟩) (by norm_num) (by norm_num) exHintLat_near exHintLng_near (by norm_num)
    (by exact_mod_cast exPrecomputeRun)

end ZkLoc
