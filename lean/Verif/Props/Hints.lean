import Verif.HintCheck
import Verif.Expr
import Verif.TrigBound

/-!
# Property theorems C74 and C75: the location circuits with the values that the repository's hint functions compute

`PrecomputeHint32` and `PrecomputeHint64` call the sine, cosine and tangent of the Go library. The theorems hold for every library with the stated accuracy.
-/

namespace ZkLoc.Hints

open Ieee

variable {p : ℕ} [Fact p.Prime] {b : ℕ} {L : Libm} {ε : ℝ}

/-! ### The hint values are near the sines and cosines -/

theorem pattern_val {f : Fmt} (G : Good p b f) {V : ℕ} {φ : ℝ} (h : PatternOf f V φ) : PatternOf f (V : ZMod p).val φ := by
  have hp : V < p := G.lt_of_lt_pow h.1 (by have := G.hEM; omega)
  rwa [ZMod.val_natCast_of_lt hp]

/-- **C74** `PrecomputeHint64` delivers values near the sine of the angle and the sine and cosine of half the angle: 16 times the error of the library is enough. -/
theorem C74_hint_near64 (G : Good p b f64) (acc : L.Accurate ε) (h0 : 0 ≤ ε) {V : ℕ} {φ τ : ℝ} (hV : PatternOf f64 V φ) (hφ : |φ| ≤ 4) {h : Pre p}
    (H : PrecomputeHint64 L (V : ZMod p) h) (hτ : 16 * ε ≤ τ) (hτ1 : 16 / 2 ^ 53 ≤ τ) (hτ2 : τ ≤ 1 / 2 ^ 6) : HintNear f64 τ φ h := by
  refine (hinted64 acc h0 (by norm_num at *; linarith) (pattern_val G hV) hφ H).near h0 ?_ ?_
  · norm_num at *; linarith
  · norm_num at *; linarith

/-- **C74** `PrecomputeHint32` delivers values within `2^-20`, which is the best that C49 can use, if the library has an error of at most `2^-28`. -/
theorem C74_hint_near32 (G : Good p b f32) (acc : L.Accurate ε) (h0 : 0 ≤ ε) (h1 : ε ≤ 1 / 2 ^ 28) {V : ℕ} {φ : ℝ} (hV : PatternOf f32 V φ) (hφ : |φ| ≤ 4) {h : Pre p}
    (H : PrecomputeHint32 L (V : ZMod p) h) : HintNear f32 (1 / 2 ^ 20) φ h := by
  refine (hinted32 acc h0 (by norm_num at *; linarith) (pattern_val G hV) hφ H).near (by positivity) ?_ ?_
  · norm_num at *; linarith
  · norm_num at *; linarith

/-! ### What the circuits prove of their own inputs -/

/-- **C74** Every cell that the honest prover proves with the double-precision circuit contains the location that is given to it: the assumption of C49 on the hint values is
discharged by modelling the hint function. -/
theorem C74_location_correct64 (G : Good p b f64) (acc : L.Accurate ε) (h0 : 0 ≤ ε) {Lat Lng n : ℕ} {φ l τ : ℝ} (hφ : PatternOf f64 Lat φ) (hl : PatternOf f64 Lng l)
    (hφ4 : |φ| ≤ 4) (hl4 : |l| ≤ 4) {hLat hLng : Pre p} (H1 : PrecomputeHint64 L (Lat : ZMod p) hLat) (H2 : PrecomputeHint64 L (Lng : ZMod p) hLng)
    (hτ : 16 * ε ≤ τ) (hτ1 : 16 / 2 ^ 53 ≤ τ) (hτ2 : τ ≤ 1 / 2 ^ 16) (hn : n ≤ 15) {I J K : ZMod p}
    (h : (precomputeCircuit64 hLat hLng (Lat : ZMod p) (Lng : ZMod p) (n : ZMod p) I J K).run b = some ()) :
    ∃ i j k : ℤ, I = i ∧ J = j ∧ K = k ∧ H3.CellAt (64 * τ) (768 * τ * Real.sqrt 7 ^ n) n φ l i j k :=
  C49_precompute_correct64 G (by linarith) hτ2 (C74_hint_near64 G acc h0 hφ hφ4 H1 hτ hτ1 (hτ2.trans (by norm_num)))
    (C74_hint_near64 G acc h0 hl hl4 H2 hτ hτ1 (hτ2.trans (by norm_num))) hn h

/-- **C74** The same for single precision. -/
theorem C74_location_correct32 (G : Good p b f32) (acc : L.Accurate ε) (h0 : 0 ≤ ε) (h1 : ε ≤ 1 / 2 ^ 28) {Lat Lng n : ℕ} {φ l : ℝ} (hφ : PatternOf f32 Lat φ)
    (hl : PatternOf f32 Lng l) (hφ4 : |φ| ≤ 4) (hl4 : |l| ≤ 4) {hLat hLng : Pre p} (H1 : PrecomputeHint32 L (Lat : ZMod p) hLat)
    (H2 : PrecomputeHint32 L (Lng : ZMod p) hLng) (hn : n ≤ 15) {I J K : ZMod p}
    (h : (precomputeCircuit32 hLat hLng (Lat : ZMod p) (Lng : ZMod p) (n : ZMod p) I J K).run b = some ()) :
    ∃ i j k : ℤ, I = i ∧ J = j ∧ K = k ∧ H3.CellAt (64 / 2 ^ 20) (768 / 2 ^ 20 * Real.sqrt 7 ^ n) n φ l i j k := by
  have := C49_precompute_correct32 G (τ := 1 / 2 ^ 20) (by norm_num) (by norm_num) (C74_hint_near32 G acc h0 h1 hφ hφ4 H1) (C74_hint_near32 G acc h0 h1 hl hl4 H2) hn h
  rwa [mul_one_div, mul_one_div] at this

/-! ### Completeness in single precision -/

theorem one32 : decodeBits ⟨f32.E, f32.M⟩ 0x3f800000 = .fin false 1 := oneTwo32.one.2
theorem two64 : decodeBits ⟨f64.E, f64.M⟩ 0x4000000000000000 = .fin false 2 := oneTwo64.two.2

/-- **C74** The three single-precision checks accept the values of the hint function. -/
theorem C74_checks_pass32 (G : Good p b f32) (acc : L.Accurate ε) (h0 : 0 ≤ ε) (h1 : ε ≤ 1 / 2 ^ 10) {V : ℕ} {φ : ℝ} (hV : PatternOf f32 V φ) (hφ : |φ| ≤ 4) {h : Pre p}
    (H : PrecomputeHint32 L (V : ZMod p) h) :
    (preChecks f32 geo32 (fun x y => fAssertIsEqualOrCustomULP f32 x y 0x3f800000) (fun x y => fAssertIsEqualOrCustomULP f32 x y 0x3f800000)
      (fun x y => fAssertIsEqualOrCustomULP f32 x y 0x3f800000) h).run b = some () := by
  obtain ⟨v, sg, sd, A, B, C, D, _, eA, eB, eC, eD, n⟩ := hinted32 acc h0 h1 (pattern_val G hV) hφ H
  obtain ⟨x, y, z, i, j, k, l, ex, e1, ey, ez, _, _, _, i1, j1, k1, hiff⟩ := checks_run (b := b) G tame32 oneTwo32 eA eC eD n (by positivity)
    (by norm_num at *; linarith) (by norm_num at *; linarith) (by decide) (by decide) (fun x y => fAssertIsEqualOrCustomULP f32 x y 0x3f800000)
    (fun x y => fAssertIsEqualOrCustomULP f32 x y 0x3f800000) (fun x y => fAssertIsEqualOrCustomULP f32 x y 0x3f800000)
  exact hiff.2 ⟨customULP_passes G (by decide) tame32 ex e1 (by decide) one32 (by norm_num) i1,
    customULP_passes G (by decide) tame32 ey eC (by decide) one32 (by norm_num) j1, customULP_passes G (by decide) tame32 ez eB (by decide) one32 (by norm_num) k1⟩

theorem precompute_runs {f : Fmt} (G : Good p b f) (h64 : 1 + f.E + f.M ≤ 64) (h : Pre p) : (precompute f h).run b = some h := by
  have h0 := C14_newFloat_complete (p := p) (b := b) (v := 0) G h64 (by positivity)
  rw [Nat.cast_zero] at h0
  unfold precompute
  simp only [Circ.bind_eq, Circ.pure_eq, Circ.run_bind, h0, Option.bind_some]
  simp [hintFloat, newHint, Circ.bind_eq, Circ.pure_eq, Circ.bind, Circ.run]

/-- What follows the hints succeeds away from the face centres. -/
theorem preTail_complete {f : Fmt} {g : GeoConsts} (G : Good p b f) (C : CellConsts p f g) {τ φ l : ℝ} (hτ : 16 * ulpHalf f ≤ τ) (hτ' : τ ≤ 1 / 2 ^ 16) {vLat vLng : Pre p}
    (h1 : HintNear f τ φ vLat) (h2 : HintNear f τ l vLng) {cLat cLng : Pre p → Circ p Unit} (c1 : (cLat vLat).run b = some ()) (c2 : (cLng vLng).run b = some ())
    {n : ℕ} (hn : n ≤ 15) (hfar : ∀ F ∈ H3.faceGeo, (20 * τ) ^ 2 < H3.sqd F φ l) :
    ∃ i j k : ℤ, (preTail f g cLat cLng (n : ZMod p) (i : ZMod p) (j : ZMod p) (k : ZMod p) vLat vLng).run b = some () ∧
      H3.CellAt (64 * τ) (768 * τ * Real.sqrt 7 ^ n) n φ l i j k := by
  have u0 := ulpHalf_pos (f := f)
  obtain ⟨cosLat, hq1, w1⟩ := preCos_ok (m := .honest) G (.inl rfl) C.fine hτ hτ' h1
  obtain ⟨cosLng, hq2, w2⟩ := preCos_ok (m := .honest) G (.inl rfl) C.fine hτ hτ' h2
  have T : TrigInputs f τ φ l vLat.beta cosLat vLng.beta cosLng := ⟨by linarith, hτ', h1.beta, w1, h2.beta, w2⟩
  obtain ⟨r, hr⟩ := C45_cell_complete G C T hn hfar
  obtain ⟨i, j, k, e, hcell⟩ := C45_cell_correct G C T hn hr
  refine ⟨i, j, k, ?_, hcell⟩
  unfold preTail
  simp only [Circ.bind_eq, Circ.run_bind, c1, c2, hq1, hq2, hr, Option.bind_some, e]
  simp [assertCell, assertIsEqual, Circ.bind_eq, Circ.bind, Circ.run]

/-- **C74** In single precision the honest prover, whose hints are computed by the repository's hint function from the circuit's own inputs, proves a cell for every location
in range that is farther than `20 * 2^-20` from all face centres, and the cell contains the location. -/
theorem C74_location_complete32 (G : Good p b f32) (acc : L.Accurate ε) (h0 : 0 ≤ ε) (h1 : ε ≤ 1 / 2 ^ 28) {Lat Lng n : ℕ} {φ l : ℝ} (hφ : PatternOf f32 Lat φ)
    (hl : PatternOf f32 Lng l) (hφ1 : |φ| ≤ 13176795 / 2 ^ 23) (hl1 : |l| ≤ 13176795 / 2 ^ 22) {hLat hLng : Pre p} (H1 : PrecomputeHint32 L (Lat : ZMod p) hLat)
    (H2 : PrecomputeHint32 L (Lng : ZMod p) hLng) (hn : n ≤ 15) (hfar : ∀ F ∈ H3.faceGeo, (20 / 2 ^ 20) ^ 2 < H3.sqd F φ l) :
    ∃ i j k : ℤ, (precomputeCircuit32 hLat hLng (Lat : ZMod p) (Lng : ZMod p) (n : ZMod p) (i : ZMod p) (j : ZMod p) (k : ZMod p)).run b = some () ∧
      H3.CellAt (64 / 2 ^ 20) (768 / 2 ^ 20 * Real.sqrt 7 ^ n) n φ l i j k := by
  have hp : 2 ^ 4 ≤ p := (Nat.pow_le_pow_right (by norm_num) (by omega)).trans G.hp
  have hφ4 : |φ| ≤ 4 := hφ1.trans (by norm_num)
  have hl4 : |l| ≤ 4 := hl1.trans (by norm_num)
  have h1' : ε ≤ 1 / 2 ^ 10 := h1.trans (by norm_num)
  obtain ⟨i, j, k, ht, hc⟩ := preTail_complete G cellConsts32 (τ := 1 / 2 ^ 20) (by rw [ulpHalf32]; norm_num) (by norm_num) (C74_hint_near32 G acc h0 h1 hφ hφ4 H1)
    (C74_hint_near32 G acc h0 h1 hl hl4 H2) (C74_checks_pass32 G acc h0 h1' hφ hφ4 H1) (C74_checks_pass32 G acc h0 h1' hl hl4 H2) hn
    (by rwa [mul_one_div])
  rw [mul_one_div, mul_one_div] at hc
  refine ⟨i, j, k, ?_, hc⟩
  obtain ⟨r, hr, _⟩ := locInputs_ok (m := .honest) (g := geo32) (res := (n : ZMod p)) G (by decide) wrapConsts32.h1 wrapConsts32.h2 hφ hl ((le_abs_self _).trans hφ1)
    ((le_abs_self _).trans (by norm_num at hl1 ⊢; exact hl1)) (fun _ => by rw [ZMod.val_natCast_of_lt (by omega)]; exact hn)
  unfold precomputeCircuit32
  simp only [Circ.bind_eq, Circ.run_bind, hr, precompute_runs G (f := f32) (by decide), Option.bind_some]
  exact ht

/-! ### Double precision: the second check -/

/-- Rounding of a number whose neighbourhood is known. -/
theorem rne64 {y : ℝ} {n e : ℕ} (he : e ≤ 1000) (hn : n ≤ 2 ^ 53) (hn1 : 2 ^ 52 < n) (hd : |y - n / 2 ^ e| < 1 / 2 ^ e / 2) : IsRNE F64 y (n / 2 ^ e) := by
  have e1 : (2:ℝ) ^ (-(e : ℤ)) = 1 / 2 ^ e := by rw [zpow_neg, zpow_natCast, one_div]
  have hn2 : ((2 ^ 52 + 1 : ℕ) : ℝ) ≤ n := by exact_mod_cast hn1
  have h0 : (0:ℝ) < 1 / 2 ^ e := by positivity
  have key := isRNE_of_quantum (F := F64) (by norm_num) (v := y) (n := n) (k := -(e : ℤ))
    (by rw [qmin64]; omega) hn (by rw [e1, mul_one_div]; exact hd.le)
    (fun h => by rw [e1, mul_one_div] at h; linarith) (.inr (by
      rw [e1]
      have := (abs_lt.1 hd).1
      have h3 := mul_le_mul_of_nonneg_right hn2 h0.le
      rw [mul_one_div (n:ℝ)] at h3
      generalize (n:ℝ) / 2 ^ e = q at *
      generalize (1:ℝ) / 2 ^ e = d at *
      push_cast at h3
      simp only
      norm_num at h3 ⊢
      linarith))
  rwa [e1, mul_one_div] at key

/-- **C74** Correctly rounded functions have relative error `2^-53`. -/
theorem C74_correctly_rounded_accurate (h : L.CorrectlyRounded) : L.Accurate (1 / 2 ^ 53) := by
  have key : ∀ {g : Datum → Datum} {r : ℝ → ℝ}, Nearest g r → (∀ s a, Representable F64 a → a ≤ 2 → |r (signed s a)| ≤ 2 ^ 55) → Computes (1 / 2 ^ 53) g r := by
    intro g r hg hr s a ha a2
    obtain ⟨g1, g2⟩ := hg s a ha a2
    have hb := hr s a ha a2
    generalize r (signed s a) = y at *
    by_cases hy : y = 0
    · refine ⟨s, 0, g1 hy, ?_, by simp [hy], by simp [hy], fun _ => ⟨rfl, rfl⟩⟩
      subst hy
      cases s <;> simp [signed]
    · obtain ⟨c, e, _, c0, _, hc⟩ := RoundsTo.fin (g2 hy) (abs_nonneg _) (pow_repr (k := 55) (by rw [qmin64]; norm_num)) hb
        (by rw [bias64, ← zpow_natCast]; exact zpow_lt_zpow_right₀ (by norm_num) (by norm_num))
      refine ⟨_, c, e, ?_, fun h => by simp [h], fun h => by simp [h.le], fun h => absurd h hy⟩
      have e1 : |signed (decide (y < 0)) c - y| = |(|y| - c)| := by
        rcases lt_or_ge y 0 with h | h
        · rw [abs_of_neg h]; simp only [h, decide_true, signed, if_true]; congr 1; ring
        · rw [abs_of_nonneg h, abs_sub_comm]; simp [signed, not_lt.2 h]
      rw [e1]
      refine hc.trans (add_le_add (le_of_eq ?_) ?_)
      · rw [show (-((F64.M : ℕ):ℤ) - 1) = -53 by norm_num, zpow_neg]; norm_num
      · rw [qmin64, one_div, ← zpow_natCast, ← zpow_neg]
        exact zpow_le_zpow_right₀ (by norm_num) (by norm_num)
  exact ⟨key h.sin fun s a _ _ => (Real.abs_sin_le_one _).trans (by norm_num), key h.cos fun s a _ _ => (Real.abs_cos_le_one _).trans (by norm_num),
    key h.tan fun s a ha a2 => tan_upper s ha a2⟩

/-- For an extremely small angle a correctly rounded cosine is one. -/
theorem tiny_cos (G : Good p b f64) (hL : Nearest L.cos Real.cos) {V : ℕ} {φ : ℝ} (hV : PatternOf f64 V φ) (hφ : |φ| ≤ 1 / 2 ^ 100) {h : Pre p}
    (H : PrecomputeHint64 L (V : ZMod p) h) {d : Datum} (ed : Encodes f64 h.delta d) : d = .fin false 1 := by
  obtain ⟨s, x, e, hx, hxr⟩ := hintArg_eq (f := f64) (by decide) (by decide) (by decide) (pattern_val G hV)
  obtain ⟨x', a', b', c', d', e', ⟨half, twice, q1, rfl, rfl, rfl, q2, q3⟩, w1, w2, w3, w4⟩ := H
  obtain rfl : Datum.fin s x = x' := Option.some.inj (e.symm.trans e')
  have x0 := hxr.nonneg
  have hx1 : x ≤ 1 / 2 ^ 100 := by
    rw [← hx, abs_signed, abs_of_nonneg x0] at hφ; exact hφ
  obtain ⟨r, rfl, hr, r0, _, r1⟩ := round64 (k := 0) q1 (by positivity) (by norm_num) (by norm_num at *; linarith)
  have r2 : r ≤ 1 / 2 ^ 99 := by
    have := (abs_le.1 r1).2
    norm_num at *; linarith
  have c0 := Real.one_sub_sq_div_two_le_cos (x := r)
  have c1 := Real.cos_le_one r
  have c2 : r ^ 2 ≤ 1 / 2 ^ 99 * 1 := by
    rw [pow_two]
    exact mul_le_mul r2 (r2.trans (by norm_num)) r0 (by norm_num)
  have cpos : 0 < Real.cos r := by norm_num at *; linarith
  have k := (hL (xor s false) r hr.repr (r2.trans (by norm_num))).2 (by rw [cos_signed]; exact cpos.ne')
  simp only [cos_signed, abs_of_pos cpos, not_lt.2 cpos.le, decide_false] at k
  have one := rne64 (y := Real.cos r) (n := 2 ^ 53) (e := 53) (by norm_num) le_rfl (by norm_num) (by
    rw [abs_lt]; constructor <;> norm_num at * <;> linarith)
  obtain ⟨r', k1, k2, _⟩ := k
  obtain rfl := k1.unique one
  have := k2 (by
    rw [bias64]
    refine lt_of_lt_of_le (by norm_num : ((2 ^ 53 : ℕ) : ℝ) / 2 ^ 53 < 2 ^ (1:ℤ)) (zpow_le_zpow_right₀ (by norm_num) (by norm_num)))
  rw [encodes_unique G ed (w4.encodes (by decide) (by decide)), this]
  norm_num

/-- The product of the sine and the cosine of half an angle in range is not extremely small. -/
theorem Near.product_large {u w y φ : ℝ} {sg sd : Bool} {A B C D : ℝ} (n : Near (2 / 2 ^ 140) u w y sg sd A B C D) (hu : u ≤ 1 / 2 ^ 9) (hy : |y - φ / 2| ≤ 1 / 2 ^ 140)
    (hφ : |φ| ≤ 4) (hφ0 : 1 / 2 ^ 100 ≤ |φ|) : 1 / 2 ^ 200 ≤ C * D := by
  obtain ⟨p1, p2⟩ := pi_near
  have hφ2 : |φ / 2| = |φ| / 2 := by rw [abs_div, abs_of_pos (show (0:ℝ) < 2 by norm_num)]
  have t1 := abs_sub_abs_le_abs_sub y (φ / 2)
  have t2 := abs_sub_abs_le_abs_sub (φ / 2) y
  rw [abs_sub_comm] at t2
  rw [hφ2] at t1 t2
  have y1 : 1 / 2 ^ 102 ≤ |y| := by norm_num at *; linarith
  have y2 : |y| ≤ 2.1 := by norm_num at *; linarith
  have hs : |y| / 4 ≤ |Real.sin y| := by
    have e : Real.sin |y| ≤ |Real.sin y| := by
      rcases abs_cases y with ⟨e, _⟩ | ⟨e, _⟩ <;> rw [e]
      · exact le_abs_self _
      · rw [Real.sin_neg]; exact neg_le_abs _
    refine le_trans ?_ e
    have key : ∀ t : ℝ, 0 ≤ t → t ≤ Real.pi / 2 → t * (3 / 5) ≤ Real.sin t := by
      intro t t0 tp
      refine le_trans ?_ (Real.mul_le_sin t0 tp)
      rw [mul_comm]
      refine mul_le_mul_of_nonneg_right ?_ t0
      rw [le_div_iff₀ (by linarith)]
      linarith
    rcases le_total |y| (Real.pi / 2) with h | h
    · have := key _ (abs_nonneg y) h
      have := abs_nonneg y
      linarith
    · rw [← Real.sin_pi_sub]
      have := key (Real.pi - |y|) (by linarith) (by linarith)
      linarith
  have hcs : 1 / 2 ^ 104 ≤ |Real.sin y| := by norm_num at *; linarith
  have hC : |Real.sin y| * (1 - u) - 2 / 2 ^ 140 ≤ C := by
    have := abs_sub_abs_le_abs_sub (Real.sin y) (signed sg C)
    rw [abs_sub_comm, abs_signed, abs_of_nonneg n.c0] at this
    linarith [n.gamma]
  have hD : |Real.cos y| * (1 - u) - 2 / 2 ^ 140 ≤ D := by
    have := abs_sub_abs_le_abs_sub (Real.cos y) (signed sd D)
    rw [abs_sub_comm, abs_signed, abs_of_nonneg n.d0] at this
    linarith [n.delta]
  have hC' : |Real.sin y| / 2 - 2 / 2 ^ 140 ≤ C := by
    refine le_trans ?_ hC
    have : 0 ≤ |Real.sin y| * (1 / 2 - u) := mul_nonneg (abs_nonneg _) (by norm_num at *; linarith)
    linarith
  have hD' : |Real.cos y| / 2 - 2 / 2 ^ 140 ≤ D := by
    refine le_trans ?_ hD
    have : 0 ≤ |Real.cos y| * (1 / 2 - u) := mul_nonneg (abs_nonneg _) (by norm_num at *; linarith)
    linarith
  have hsc : |Real.sin y| ≤ 2 ^ 55 * |Real.cos y| := by
    rw [← Real.tan_mul_cos n.cos_ne, abs_mul]
    exact mul_le_mul_of_nonneg_right n.tan_le (abs_nonneg _)
  rcases le_total (1 / 2) |Real.cos y| with h | h
  · have c1 : 1 / 2 ^ 106 ≤ C := by norm_num at *; linarith
    have d1 : 1 / 2 ^ 3 ≤ D := by norm_num at *; linarith
    exact le_trans (by norm_num) (mul_le_mul c1 d1 (by norm_num) n.c0)
  · have hsin : 1 / 2 ≤ |Real.sin y| := by
      have e := Real.sin_sq_add_cos_sq y
      rw [← sq_abs (Real.sin y), ← sq_abs (Real.cos y)] at e
      nlinarith [abs_nonneg (Real.sin y), abs_nonneg (Real.cos y)]
    have c1 : 1 / 2 ^ 3 ≤ C := by norm_num at *; linarith
    have d1 : 1 / 2 ^ 58 ≤ D := by norm_num at *; linarith
    exact le_trans (by norm_num) (mul_le_mul c1 d1 (by norm_num) n.c0)

theorem beta_exact {C D B l k : ℝ} (hB : IsRNE F64 (2 * (C * D)) B) (hl : IsRNE F64 (C * D) l) (hk : IsRNE F64 (2 * l) k) (h : C = 0 ∨ D = 1 ∨ 1 / 2 ^ 200 ≤ C * D) (hC : Representable F64 C) : k = B := by
  have hk2 : k = 2 * l := hk.unique (Representable.double hl.repr).isRNE
  have z : Representable F64 0 := ⟨0, F64.qmin, by positivity, le_rfl, by simp⟩
  rcases h with rfl | rfl | h
  · rw [zero_mul] at hl hB
    rw [mul_zero] at hB
    rw [hk2, hl.unique z.isRNE, hB.unique z.isRNE, mul_zero]
  · rw [mul_one] at hl hB
    rw [hk2, hl.unique hC.isRNE, hB.unique (Representable.double hC).isRNE]
  · have : (2:ℝ) ^ F64.emin ≤ 1 / 2 ^ 200 := by
      rw [show (1:ℝ) / 2 ^ 200 = 2 ^ (-200 : ℤ) by rw [zpow_neg]; norm_num]
      exact zpow_le_zpow_right₀ (by norm_num) (by norm_num [Format.emin, Format.bias])
    rw [hk2]
    exact (IsRNE.double hl (this.trans h)).unique hB

/-- The checks on the latitude of the double-precision circuit. -/
abbrev latChecks64 (h : Pre p) : Circ p Unit :=
  preChecks f64 geo64 (fun x y => fAssertIsEqualOrCustomULP f64 x y 0x4000000000000000) (fun x y => fAssertIsEqualOrCustomULP f64 x y 0x4000000000000000)
    (fun x y => fAssertIsEqualOrULP f64 x y) h
/-- The checks on the longitude. -/
abbrev lngChecks64 (h : Pre p) : Circ p Unit :=
  preChecks f64 geo64 (fun x y => fAssertIsEqualOrCustomULP f64 x y 0x4000000000000000) (fun x y => fAssertIsEqualOrULP f64 x y)
    (fun x y => fAssertIsEqualOrULP f64 x y) h

/-- **C75** Which hint values the double-precision checks accept: those for the latitude always pass; those for the longitude pass if and only if the rounded product of the tangent
and the cosine is the sine or a neighbour of it. (Angles are zero or not extremely small, unless the cosine of the library is correctly rounded.) -/
theorem C75_checks_exact64 (G : Good p b f64) (acc : L.Accurate ε) (h0 : 0 ≤ ε) (h1 : ε ≤ 1 / 2 ^ 10) {V : ℕ} {φ : ℝ} (hV : PatternOf f64 V φ) (hφ : |φ| ≤ 4)
    (hφ0 : φ = 0 ∨ 1 / 2 ^ 100 ≤ |φ| ∨ Nearest L.cos Real.cos) {h : Pre p} (H : PrecomputeHint64 L (V : ZMod p) h) :
    (latChecks64 h).run b = some () ∧ ∃ a c d m, Encodes f64 h.alpha a ∧ Encodes f64 h.gamma c ∧ Encodes f64 h.delta d ∧ Ieee.Mul F64 a d m ∧
      ((lngChecks64 h).run b = some () ↔ m = c ∨ NextAway F64 m c ∨ NextAway F64 c m) := by
  obtain ⟨v, sg, sd, A, B, C, D, hv, eA, eB, eC, eD, n, hz, hB⟩ := hinted64_full acc h0 h1 (pattern_val G hV) hφ H
  have hw : 3 * ε + 5 / 2 ^ 53 ≤ 1 / 2 ^ 7 := by norm_num at *; linarith
  have hu : ε ≤ 1 / 2 ^ 9 := h1.trans (by norm_num)
  have hCr : Representable F64 C := by
    obtain ⟨_, _, _, c, _, _, _, _, _, w3, _⟩ := H
    have e := encodes_unique G eC (w3.encodes (by decide) (by decide))
    obtain ⟨k, _, h1, _⟩ := w3
    exact decode_fin (h1.trans e.symm)
  have hCD : C = 0 ∨ D = 1 ∨ 1 / 2 ^ 200 ≤ C * D := by
    rcases hφ0 with h | h | h
    · exact .inl (hz h)
    · exact .inr (.inr (n.product_large hu hv hφ h))
    · rcases le_total (1 / 2 ^ 100) |φ| with h' | h'
      · exact .inr (.inr (n.product_large hu hv hφ h'))
      · exact .inr (.inl (Datum.fin.inj (tiny_cos G h hV h' H eD)).2)
  have hzk : ∀ {z : FloatVar p} {k l : ℝ}, Encodes f64 z (.fin (xor sg sd) k) → IsRNE ⟨f64.E, f64.M⟩ (C * D) l → IsRNE ⟨f64.E, f64.M⟩ (2 * l) k →
      (fAssertIsEqualOrULP f64 z h.beta).run b = some () := by
    intro z k l ez nl nk
    rw [(C29_assertIsEqualOrULP G ez eB).1, beta_exact hB nl nk hCD hCr]
    exact .inl rfl
  constructor
  · obtain ⟨x, y, z, i, j, k, l, ex, e1, ey, ez, _, nl, nk, i1, j1, k1, hiff⟩ := checks_run (b := b) G tame64 oneTwo64 eA eC eD n h0 hu hw (by decide) (by decide)
      (fun x y => fAssertIsEqualOrCustomULP f64 x y 0x4000000000000000) (fun x y => fAssertIsEqualOrCustomULP f64 x y 0x4000000000000000) (fun x y => fAssertIsEqualOrULP f64 x y)
    exact hiff.2 ⟨customULP_passes G (by decide) tame64 ex e1 (by decide) two64 (by norm_num) (i1.trans (by norm_num)),
      customULP_passes G (by decide) tame64 ey eC (by decide) two64 (by norm_num) (j1.trans (by norm_num)), hzk ez nl nk⟩
  · obtain ⟨x, y, z, i, j, k, l, ex, e1, ey, ez, hm, nl, nk, i1, j1, k1, hiff⟩ := checks_run (b := b) G tame64 oneTwo64 eA eC eD n h0 hu hw (by decide) (by decide)
      (fun x y => fAssertIsEqualOrCustomULP f64 x y 0x4000000000000000) (fun x y => fAssertIsEqualOrULP f64 x y) (fun x y => fAssertIsEqualOrULP f64 x y)
    refine ⟨_, _, _, _, eA, eC, eD, hm, ?_⟩
    rw [hiff, (C29_assertIsEqualOrULP G ey eC).1]
    exact ⟨fun h => h.2.1, fun h => ⟨customULP_passes G (by decide) tame64 ex e1 (by decide) two64 (by norm_num) (i1.trans (by norm_num)), h, hzk ez nl nk⟩⟩

/-- Constants of the double-precision input section. -/
theorem halfPi64 : Num f64 (newConstant f64 geo64.halfPi : FloatVar p) (884279719003555 / 2 ^ 49) :=
  num_exact (E := 11) (M := 52) (neg := false) (num := 884279719003555) (den := 2 ^ 49) (by norm_num) (by norm_num) (by decide) (by decide +kernel) (by norm_num [signed])
theorem pi64 : Num f64 (newConstant f64 geo64.pi : FloatVar p) (2 * (884279719003555 / 2 ^ 49)) :=
  num_exact (E := 11) (M := 52) (neg := false) (num := 884279719003555) (den := 2 ^ 48) (by norm_num) (by norm_num) (by decide) (by decide +kernel) (by norm_num [signed])
theorem twoPi64 : Num f64 (newConstant f64 geo64.twoPi : FloatVar p) (4 * (884279719003555 / 2 ^ 49)) :=
  num_exact (E := 11) (M := 52) (neg := false) (num := 884279719003555) (den := 2 ^ 47) (by norm_num) (by norm_num) (by decide) (by decide +kernel) (by norm_num [signed])

/-- **C75** The double-precision circuit accepts the values of its hint function, and the cell contains the location, if the rounded product of the tangent and the cosine of half the longitude is the
sine or a neighbour of it. What is missing for all locations is that condition: `C75_lng_check_fails64` shows that it is needed. -/
theorem C75_location_complete64_partial (G : Good p b f64) (acc : L.Accurate ε) (h0 : 0 ≤ ε) {Lat Lng n : ℕ} {φ l τ : ℝ} (hφ : PatternOf f64 Lat φ) (hl : PatternOf f64 Lng l)
    (hφ1 : |φ| ≤ 884279719003555 / 2 ^ 49) (hl1 : |l| ≤ 884279719003555 / 2 ^ 48) (hφ0 : φ = 0 ∨ 1 / 2 ^ 100 ≤ |φ| ∨ Nearest L.cos Real.cos) (hl0 : l = 0 ∨ 1 / 2 ^ 100 ≤ |l| ∨ Nearest L.cos Real.cos) {hLat hLng : Pre p}
    (H1 : PrecomputeHint64 L (Lat : ZMod p) hLat) (H2 : PrecomputeHint64 L (Lng : ZMod p) hLng) (hτ : 16 * ε ≤ τ) (hτ1 : 16 / 2 ^ 53 ≤ τ) (hτ2 : τ ≤ 1 / 2 ^ 16) (hn : n ≤ 15)
    (hfar : ∀ F ∈ H3.faceGeo, (20 * τ) ^ 2 < H3.sqd F φ l)
    (hcond : ∀ a c d m, Encodes f64 hLng.alpha a → Encodes f64 hLng.gamma c → Encodes f64 hLng.delta d → Ieee.Mul F64 a d m → m = c ∨ NextAway F64 m c ∨ NextAway F64 c m) :
    ∃ i j k : ℤ, (precomputeCircuit64 hLat hLng (Lat : ZMod p) (Lng : ZMod p) (n : ZMod p) (i : ZMod p) (j : ZMod p) (k : ZMod p)).run b = some () ∧
      H3.CellAt (64 * τ) (768 * τ * Real.sqrt 7 ^ n) n φ l i j k := by
  have hp : 2 ^ 4 ≤ p := (Nat.pow_le_pow_right (by norm_num) (by omega)).trans G.hp
  have hφ4 : |φ| ≤ 4 := hφ1.trans (by norm_num)
  have hl4 : |l| ≤ 4 := hl1.trans (by norm_num)
  have h1' : ε ≤ 1 / 2 ^ 10 := by norm_num at *; linarith
  have hτ3 : τ ≤ 1 / 2 ^ 6 := hτ2.trans (by norm_num)
  obtain ⟨a, c, d, m, ea, ec, ed, em, hiff⟩ := (C75_checks_exact64 G acc h0 h1' hl hl4 hl0 H2).2
  obtain ⟨i, j, k, ht, hc⟩ := preTail_complete G cellConsts64 (by rw [ulpHalf64]; linarith) hτ2 (C74_hint_near64 G acc h0 hφ hφ4 H1 hτ hτ1 hτ3)
    (C74_hint_near64 G acc h0 hl hl4 H2 hτ hτ1 hτ3) (C75_checks_exact64 G acc h0 h1' hφ hφ4 hφ0 H1).1 (hiff.2 (hcond a c d m ea ec ed em)) hn hfar
  refine ⟨i, j, k, ?_, hc⟩
  obtain ⟨r, hr, e1, e2, _⟩ := locInputs_ok (m := .honest) (g := geo64) (res := (n : ZMod p)) G (by decide) halfPi64 pi64 hφ hl ((le_abs_self _).trans hφ1)
    ((le_abs_self _).trans (by norm_num at hl1 ⊢; exact hl1)) (fun _ => by rw [ZMod.val_natCast_of_lt (by omega)]; exact hn)
  have hbig := big_ge G
  obtain ⟨q, hq, _⟩ := ok_add (m := .honest) G (.inl rfl) e1 halfPi64 (by norm_num at *; linarith)
    ((abs_add_le _ _).trans (by rw [abs_of_pos (show (0:ℝ) < 884279719003555 / 2 ^ 49 by norm_num)]; norm_num at *; linarith))
  obtain ⟨w, hw, _⟩ := shiftedLng_ok (m := .honest) G (.inl rfl) (cellConsts64 (p := p)).fine halfPi64 pi64 twoPi64 (by
    obtain ⟨p1, p2⟩ := pi_near
    rw [ulpHalf64, abs_le]
    constructor <;> norm_num at * <;> linarith) e2 (by norm_num at hl1 ⊢; exact hl1)
  unfold precomputeCircuit64
  simp only [Circ.bind_eq, Circ.run_bind, hr, hq, hw, precompute_runs G (f := f64) (by decide), Option.bind_some]
  exact ht

/-- **C75** With a correctly rounded library there is no condition on the size of the angles. -/
theorem C75_location_complete_rounded64_partial (G : Good p b f64) (hL : L.CorrectlyRounded) {Lat Lng n : ℕ} {φ l : ℝ} (hφ : PatternOf f64 Lat φ) (hl : PatternOf f64 Lng l)
    (hφ1 : |φ| ≤ 884279719003555 / 2 ^ 49) (hl1 : |l| ≤ 884279719003555 / 2 ^ 48) {hLat hLng : Pre p}
    (H1 : PrecomputeHint64 L (Lat : ZMod p) hLat) (H2 : PrecomputeHint64 L (Lng : ZMod p) hLng) (hn : n ≤ 15) (hfar : ∀ F ∈ H3.faceGeo, (20 / 2 ^ 49) ^ 2 < H3.sqd F φ l)
    (hcond : ∀ a c d m, Encodes f64 hLng.alpha a → Encodes f64 hLng.gamma c → Encodes f64 hLng.delta d → Ieee.Mul F64 a d m → m = c ∨ NextAway F64 m c ∨ NextAway F64 c m) :
    ∃ i j k : ℤ, (precomputeCircuit64 hLat hLng (Lat : ZMod p) (Lng : ZMod p) (n : ZMod p) (i : ZMod p) (j : ZMod p) (k : ZMod p)).run b = some () ∧
      H3.CellAt (64 * (1 / 2 ^ 49)) (768 * (1 / 2 ^ 49) * Real.sqrt 7 ^ n) n φ l i j k :=
  C75_location_complete64_partial G (C74_correctly_rounded_accurate hL) (by norm_num) hφ hl hφ1 hl1 (.inr (.inr hL.cos)) (.inr (.inr hL.cos)) H1 H2 (by norm_num) (by norm_num)
    (by norm_num) hn (fun F h => by have := hfar F h; rwa [← mul_one_div] at this) hcond

/-! ### A longitude for which the second check fails -/

/-- The longitude `1.0082174…`. -/
noncomputable def badLng : ℝ := 4540607922824695 / 2 ^ 52

theorem badLng_pattern : PatternOf f64 0x3ff021a8aa4de5f7 badLng :=
  ⟨by decide, false, _, exactBits_decode (E := 11) (M := 52) (neg := false) (num := 4540607922824695) (den := 2 ^ 52) (by decide +kernel), by norm_num [signed, badLng]⟩

theorem bad_sin : |583944108872795516057261 / 2 ^ 80 - Real.sin (badLng / 2)| ≤ 1 / 2 ^ 72 := by
  have h : trigCheck imPow (4540607922824695 * 2 ^ 27) 583944108872795516057261 80 40 72 = true := by decide +kernel
  have := trigCheck_sin h
  rw [show (((4540607922824695 * 2 ^ 27 : ℤ)) : ℝ) / 2 ^ 80 = badLng / 2 by unfold badLng; push_cast; norm_num] at this
  push_cast at this
  exact this
theorem bad_cos : |1058541881572788623529630 / 2 ^ 80 - Real.cos (badLng / 2)| ≤ 1 / 2 ^ 72 := by
  have h : trigCheck rePow (4540607922824695 * 2 ^ 27) 1058541881572788623529630 80 40 72 = true := by decide +kernel
  have := trigCheck_cos h
  rw [show (((4540607922824695 * 2 ^ 27 : ℤ)) : ℝ) / 2 ^ 80 = badLng / 2 by unfold badLng; push_cast; norm_num] at this
  push_cast at this
  exact this

theorem bad_repr : Representable F64 (badLng / 2) := ⟨4540607922824695, -53, by norm_num, by rw [qmin64]; norm_num, by unfold badLng; rw [zpow_neg]; norm_num⟩

theorem bad_sin_rne : IsRNE F64 (Real.sin (badLng / 2)) (8701445294511251 / 2 ^ 54) := by
  have := abs_le.1 bad_sin
  exact_mod_cast rne64 (n := 8701445294511251) (e := 54) (by norm_num) (by norm_num) (by norm_num) (by rw [abs_lt]; constructor <;> norm_num at * <;> linarith)
theorem bad_cos_rne : IsRNE F64 (Real.cos (badLng / 2)) (7886751603877460 / 2 ^ 53) := by
  have := abs_le.1 bad_cos
  exact_mod_cast rne64 (n := 7886751603877460) (e := 53) (by norm_num) (by norm_num) (by norm_num) (by rw [abs_lt]; constructor <;> norm_num at * <;> linarith)
theorem bad_tan_rne : IsRNE F64 (Real.tan (badLng / 2)) (4968817043341297 / 2 ^ 53) := by
  have s1 := abs_le.1 bad_sin
  have s2 := abs_le.1 bad_cos
  have hc : 0 < Real.cos (badLng / 2) := by norm_num at *; linarith
  suffices h : |Real.tan (badLng / 2) - (4968817043341297 : ℕ) / 2 ^ 53| < 1 / 2 ^ 53 / 2 by
    exact_mod_cast rne64 (n := 4968817043341297) (e := 53) (by norm_num) (by norm_num) (by norm_num) h
  push_cast
  rw [Real.tan_eq_sin_div_cos, div_sub' hc.ne', abs_div, abs_of_pos hc, div_lt_iff₀ hc, abs_lt]
  constructor <;> norm_num at * <;> linarith
theorem bad_mul_rne : IsRNE F64 (4968817043341297 / 2 ^ 53 * (7886751603877460 / 2 ^ 53)) (8701445294511253 / 2 ^ 54) :=
  mod_cast rne64 (n := 8701445294511253) (e := 54) (by norm_num) (by norm_num) (by norm_num) (by rw [abs_lt]; constructor <;> norm_num)

theorem lt_huge {r : ℝ} (h : r ≤ 4) : r < 2 ^ (F64.bias + 1) := by
  rw [bias64]
  refine lt_of_le_of_lt (h.trans (show (4:ℝ) ≤ 2 ^ (2:ℤ) by norm_num)) (zpow_lt_zpow_right₀ (by norm_num) (by norm_num))

theorem RoundsTo.eq_fin {s : Bool} {v r : ℝ} {d : Datum} (h : RoundsTo F64 s v d) (hr : IsRNE F64 v r) (h4 : r ≤ 4) : d = .fin s r := by
  obtain ⟨r', h1, h2, _⟩ := h
  obtain rfl := h1.unique hr
  exact h2 (lt_huge h4)

/-- The values of the hint function with a correctly rounded library, for an angle whose half has positive sine and cosine. -/
theorem rounded_values (G : Good p b f64) (hL : L.CorrectlyRounded) {V : ℕ} {φ A C D : ℝ} (hV : PatternOf f64 V φ) (hr : Representable F64 (φ / 2)) (hφ : 0 < φ) (hφ2 : φ / 2 ≤ 2)
    (hs : 0 < Real.sin (φ / 2)) (hc : 0 < Real.cos (φ / 2)) (hA : IsRNE F64 (Real.tan (φ / 2)) A) (hC : IsRNE F64 (Real.sin (φ / 2)) C) (hD : IsRNE F64 (Real.cos (φ / 2)) D)
    (hA4 : A ≤ 4) (hC4 : C ≤ 4) (hD4 : D ≤ 4) {h : Pre p} (H : PrecomputeHint64 L (V : ZMod p) h) {a c d : Datum} (ea : Encodes f64 h.alpha a)
    (ec : Encodes f64 h.gamma c) (ed : Encodes f64 h.delta d) : a = .fin false A ∧ c = .fin false C ∧ d = .fin false D := by
  obtain ⟨s, x, e, hx, hxr⟩ := hintArg_eq (f := f64) (by decide) (by decide) (by decide) (pattern_val G hV)
  obtain ⟨x', a', b', c', d', e', ⟨half, twice, q1, rfl, rfl, rfl, q2, q3⟩, w1, w2, w3, w4⟩ := H
  obtain rfl : Datum.fin s x = x' := Option.some.inj (e.symm.trans e')
  have h2 : s = false ∧ x = φ := by
    have := hxr.nonneg
    cases s
    · exact ⟨rfl, by simpa [signed] using hx⟩
    · simp [signed] at hx; linarith
  obtain ⟨rfl, rfl⟩ := h2
  have hhalf : half = .fin false (x / 2) := RoundsTo.eq_fin q1 (by rw [mul_one_div]; exact hr.isRNE) (by linarith)
  subst hhalf
  have ht : 0 < Real.tan (x / 2) := by rw [Real.tan_eq_sin_div_cos]; positivity
  have k1 := ((hL.sin false _ hr hφ2).2 hs.ne')
  have k2 := ((hL.cos false _ hr hφ2).2 hc.ne')
  have k3 := ((hL.tan false _ hr hφ2).2 ht.ne')
  simp only [signed, Bool.false_eq_true, if_false, not_lt.2 hs.le, not_lt.2 hc.le, not_lt.2 ht.le, decide_false, abs_of_pos hs, abs_of_pos hc, abs_of_pos ht] at k1 k2 k3
  exact ⟨(encodes_unique G ea (w1.encodes (by decide) (by decide))).trans (RoundsTo.eq_fin k3 hA hA4),
    (encodes_unique G ec (w3.encodes (by decide) (by decide))).trans (RoundsTo.eq_fin k1 hC hC4),
    (encodes_unique G ed (w4.encodes (by decide) (by decide))).trans (RoundsTo.eq_fin k2 hD hD4)⟩

/-- **C75 (violated)** With a library whose sine, cosine and tangent are correctly rounded, no better values exist, the honest prover of the double-precision circuit fails for
the longitude `0x3ff021a8aa4de5f7`, whatever the latitude, the resolution and the cell. -/
theorem C75_lng_check_fails64 (G : Good p b f64) (hL : L.CorrectlyRounded) {hLat hLng : Pre p} (H : PrecomputeHint64 L ((0x3ff021a8aa4de5f7 : ℕ) : ZMod p) hLng)
    (Lat Resolution I J K : ZMod p) : (precomputeCircuit64 hLat hLng Lat ((0x3ff021a8aa4de5f7 : ℕ) : ZMod p) Resolution I J K).run b = none := by
  by_contra hne
  obtain ⟨u, hrun⟩ := Option.ne_none_iff_exists'.1 hne
  have hrun : (precomputeCircuit64 hLat hLng Lat ((0x3ff021a8aa4de5f7 : ℕ) : ZMod p) Resolution I J K).run b = some () := hrun
  have hb4 : |badLng| ≤ 4 := by unfold badLng; rw [abs_of_pos (by norm_num)]; norm_num
  obtain ⟨a, c, d, m, ea, ec, ed, em, hiff⟩ := (C75_checks_exact64 G (C74_correctly_rounded_accurate hL) (by norm_num) (by norm_num) badLng_pattern hb4
    (.inr (.inl (by unfold badLng; rw [abs_of_pos (by norm_num)]; norm_num))) H).2
  have hchk : (lngChecks64 hLng).run b = some () := by
    unfold precomputeCircuit64 at hrun
    simp only [Circ.bind_eq] at hrun
    obtain ⟨_, _, h'1⟩ := run_some_bind hrun
    obtain ⟨_, _, h'2⟩ := run_some_bind h'1
    obtain ⟨_, _, h'3⟩ := run_some_bind h'2
    obtain ⟨_, e1, h'4⟩ := run_some_bind h'3
    obtain ⟨_, e2, h'5⟩ := run_some_bind h'4
    obtain rfl := precompute_run e1
    obtain rfl := precompute_run e2
    unfold preTail at h'5
    simp only [Circ.bind_eq] at h'5
    obtain ⟨_, _, h'6⟩ := run_some_bind h'5
    obtain ⟨_, e3, _⟩ := run_some_bind h'6
    exact e3
  have hm := hiff.1 hchk
  have s1 := abs_le.1 bad_sin
  have s2 := abs_le.1 bad_cos
  obtain ⟨rfl, rfl, rfl⟩ := rounded_values G hL badLng_pattern bad_repr (by unfold badLng; norm_num) (by unfold badLng; norm_num) (by norm_num at *; linarith)
    (by norm_num at *; linarith) bad_tan_rne bad_sin_rne bad_cos_rne (by norm_num) (by norm_num) (by norm_num) H ea ec ed
  rw [RoundsTo.eq_fin em bad_mul_rne (by norm_num)] at hm
  have mid : Representable F64 (8701445294511252 / 2 ^ 54) := ⟨8701445294511252, -54, by norm_num, by rw [qmin64]; norm_num, by rw [zpow_neg]; norm_num⟩
  rcases hm with hm | ⟨t, q, e1, _, ⟨r, e2, h3⟩ | ⟨e2, _⟩⟩ | ⟨t, q, e1, _, ⟨r, e2, h3⟩ | ⟨e2, _⟩⟩
  · norm_num at hm
  · obtain ⟨_, rfl⟩ := Datum.fin.inj e1
    obtain ⟨_, rfl⟩ := Datum.fin.inj e2
    have := h3.1
    norm_num at this
  · cases e2
  · obtain ⟨_, rfl⟩ := Datum.fin.inj e1
    obtain ⟨_, rfl⟩ := Datum.fin.inj e2
    exact h3.2 _ mid ⟨by norm_num, by norm_num⟩
  · cases e2

/-! ### The hint functions deliver values -/

theorem isDouble_nan : IsDouble .nan := ⟨0x7ff8000000000000, by norm_num, by unfold decodeBits; norm_num⟩
theorem isDouble_inf (s : Bool) : IsDouble (.inf s) := by
  cases s
  · exact ⟨0x7ff0000000000000, by norm_num, by unfold decodeBits; norm_num; decide⟩
  · exact ⟨0xfff0000000000000, by norm_num, by unfold decodeBits; norm_num; decide⟩
theorem isDouble_rounds {s : Bool} {v : ℝ} {d : Datum} (h : RoundsTo F64 s v d) : IsDouble d := roundsTo_decode (by norm_num) h

/-- Products exist. -/
theorem mul_exists {x y : Datum} (hx : IsDouble x) (hy : IsDouble y) : ∃ d, Ieee.Mul F64 x y d ∧ IsDouble d := by
  cases x with
  | nan => exact ⟨.nan, by cases y <;> rfl, isDouble_nan⟩
  | inf s =>
    cases y with
    | nan => exact ⟨.nan, rfl, isDouble_nan⟩
    | inf t => exact ⟨_, rfl, isDouble_inf _⟩
    | fin t c =>
      by_cases h : c = 0
      · exact ⟨.nan, ⟨fun _ => rfl, fun h' => absurd h h'⟩, isDouble_nan⟩
      · exact ⟨.inf (xor s t), ⟨fun h' => absurd h' h, fun _ => rfl⟩, isDouble_inf _⟩
  | fin s a =>
    cases y with
    | nan => exact ⟨.nan, rfl, isDouble_nan⟩
    | inf t =>
      by_cases h : a = 0
      · exact ⟨.nan, ⟨fun _ => rfl, fun h' => absurd h h'⟩, isDouble_nan⟩
      · exact ⟨.inf (xor s t), ⟨fun h' => absurd h' h, fun _ => rfl⟩, isDouble_inf _⟩
    | fin t c =>
      obtain ⟨d, h⟩ := roundsTo_exists (F := F64) (by norm_num) (xor s t) (mul_nonneg hx.repr.nonneg hy.repr.nonneg)
      exact ⟨d, h, isDouble_rounds h⟩

theorem isDouble_repr {s : Bool} {a : ℝ} (h : Representable F64 a) (h4 : a ≤ 4) : IsDouble (.fin s a) :=
  isDouble_rounds (s := s) (v := a) ⟨a, h.isRNE, fun _ => rfl, fun h' => absurd (lt_huge h4) (not_lt.2 h')⟩

theorem quad_exists (L : Libm) {x : Datum} (hx : IsDouble x) : ∃ a b c d, Quad L x a b c d ∧ IsDouble a ∧ IsDouble b ∧ IsDouble c ∧ IsDouble d := by
  have one : IsDouble (.fin false (1 / 2)) := isDouble_repr ⟨1, -1, by norm_num, by rw [qmin64]; norm_num, by norm_num⟩ (by norm_num)
  have two : IsDouble (.fin false 2) := isDouble_repr ⟨1, 1, by norm_num, by rw [qmin64]; norm_num, by norm_num⟩ (by norm_num)
  obtain ⟨half, h1, h2⟩ := mul_exists hx one
  obtain ⟨twice, h3, h4⟩ := mul_exists two (L.sin_double half)
  obtain ⟨b, h5, h6⟩ := mul_exists h4 (L.cos_double half)
  exact ⟨_, b, _, _, ⟨half, twice, h1, rfl, rfl, rfl, h3, h5⟩, L.tan_double _, h6, L.sin_double _, L.cos_double _⟩

theorem IsDouble.wires {d : Datum} (h : IsDouble d) : ∃ x : FloatVar p, Wires f64 d x := by
  obtain ⟨n, h1, h2⟩ := h
  exact ⟨_, n, h1, h2, rfl⟩

theorem f32_nan : decodeBits F32 0x7fc00000 = .nan := by unfold decodeBits; norm_num
theorem f32_inf : decodeBits F32 0x7f800000 = .inf false ∧ decodeBits F32 0xff800000 = .inf true := by
  constructor <;> (unfold decodeBits; norm_num; decide)

theorem narrow_exists {d : Datum} (h : IsDouble d) : ∃ y, Narrow d y ∧ ∃ x : FloatVar p, Wires f32 y x := by
  cases d with
  | nan => exact ⟨.nan, rfl, _, 0x7fc00000, by decide, f32_nan, rfl⟩
  | inf s =>
    refine ⟨.inf s, rfl, ?_⟩
    cases s
    · exact ⟨_, 0x7f800000, by decide, f32_inf.1, rfl⟩
    · exact ⟨_, 0xff800000, by decide, f32_inf.2, rfl⟩
  | fin s a =>
    obtain ⟨y, hy⟩ := roundsTo_exists (F := F32) (by norm_num) s h.repr.nonneg
    obtain ⟨n, h1, h2⟩ := roundsTo_decode (by norm_num) hy
    exact ⟨y, hy, _, n, h1, h2, rfl⟩

/-- **C74** `PrecomputeHint64` delivers values for every finite number, whatever the library. -/
theorem C74_hint_exists64 (G : Good p b f64) (L : Libm) {V : ℕ} {φ : ℝ} (hV : PatternOf f64 V φ) : ∃ h : Pre p, PrecomputeHint64 L (V : ZMod p) h := by
  obtain ⟨s, x, e, _, _⟩ := hintArg_eq (f := f64) (by decide) (by decide) (by decide) (pattern_val G hV)
  have hx : IsDouble (.fin s x) := by
    unfold hintArg at e
    obtain ⟨n, _, h⟩ := Option.map_eq_some_iff.1 e
    exact ⟨_, Nat.mod_lt _ (by positivity), h⟩
  obtain ⟨a, b, c, d, q, ha, hb, hc, hd⟩ := quad_exists L hx
  obtain ⟨wa, ha⟩ := ha.wires (p := p)
  obtain ⟨wb, hb⟩ := hb.wires (p := p)
  obtain ⟨wc, hc⟩ := hc.wires (p := p)
  obtain ⟨wd, hd⟩ := hd.wires (p := p)
  exact ⟨⟨wa, wb, wc, wd⟩, _, a, b, c, d, e, q, ha, hb, hc, hd⟩

/-- **C74** The same for `PrecomputeHint32` and angles. -/
theorem C74_hint_exists32 (G : Good p b f32) (L : Libm) {V : ℕ} {φ : ℝ} (hV : PatternOf f32 V φ) (hφ : |φ| ≤ 4) : ∃ h : Pre p, PrecomputeHint32 L (V : ZMod p) h := by
  obtain ⟨s, x, e, rfl, hr⟩ := hintArg_eq (f := f32) (by decide) (by decide) (by decide) (pattern_val G hV)
  rw [abs_signed, abs_of_nonneg hr.nonneg] at hφ
  obtain ⟨a, b, c, d, q, ha, hb, hc, hd⟩ := quad_exists L (isDouble_repr (s := s) (repr_widen hr) hφ)
  obtain ⟨a', ka, wa, ha⟩ := narrow_exists (p := p) ha
  obtain ⟨b', kb, wb, hb⟩ := narrow_exists (p := p) hb
  obtain ⟨c', kc, wc, hc⟩ := narrow_exists (p := p) hc
  obtain ⟨d', kd, wd, hd⟩ := narrow_exists (p := p) hd
  exact ⟨⟨wa, wb, wc, wd⟩, _, a, b, c, d, a', b', c', d', e, q, ka, kb, kc, kd, ha, hb, hc, hd⟩

/-- A function with values that a `float64` can hold, for every real function. -/
theorem nearest_exists (r : ℝ → ℝ) : ∃ g : Datum → Datum, (∀ x, IsDouble (g x)) ∧ Nearest g r := by
  have key : ∀ x : Datum, ∃ y, IsDouble y ∧ ∀ s a, x = .fin s a → (r (signed s a) = 0 → y = .fin s 0) ∧
      (r (signed s a) ≠ 0 → RoundsTo F64 (decide (r (signed s a) < 0)) |r (signed s a)| y) := by
    intro x
    cases x with
    | nan => exact ⟨.nan, isDouble_nan, fun _ _ h => by cases h⟩
    | inf s => exact ⟨.nan, isDouble_nan, fun _ _ h => by cases h⟩
    | fin s a =>
      by_cases h : r (signed s a) = 0
      · refine ⟨.fin s 0, isDouble_repr ⟨0, F64.qmin, by positivity, le_rfl, by simp⟩ (by norm_num), ?_⟩
        intro s' a' e
        obtain ⟨rfl, rfl⟩ := Datum.fin.inj e
        exact ⟨fun _ => rfl, fun h' => absurd h h'⟩
      · obtain ⟨y, hy⟩ := roundsTo_exists (F := F64) (by norm_num) (decide (r (signed s a) < 0)) (abs_nonneg (r (signed s a)))
        refine ⟨y, isDouble_rounds hy, ?_⟩
        intro s' a' e
        obtain ⟨rfl, rfl⟩ := Datum.fin.inj e
        exact ⟨fun h' => absurd h' h, fun _ => hy⟩
  choose g h1 h2 using key
  exact ⟨g, h1, fun s a _ _ => h2 _ s a rfl⟩

/-- **C74** A correctly rounded library is possible. -/
theorem C74_libm_exists : ∃ L : Libm, L.CorrectlyRounded := by
  obtain ⟨g1, a1, b1⟩ := nearest_exists Real.sin
  obtain ⟨g2, a2, b2⟩ := nearest_exists Real.cos
  obtain ⟨g3, a3, b3⟩ := nearest_exists Real.tan
  exact ⟨⟨g1, g2, g3, a1, a2, a3⟩, b1, b2, b3⟩

/-! ### Concrete cases -/

theorem zero_pattern32 : PatternOf f32 0 0 :=
  ⟨by decide, false, 0, by unfold decodeBits; norm_num [f32], by simp [signed]⟩
theorem zero_pattern64 : PatternOf f64 0 0 :=
  ⟨by decide, false, 0, by unfold decodeBits; norm_num [f64], by simp [signed]⟩

/-- Single precision at the deployed width: for every longitude on the equator the honest prover, with the values of the hint function of a correctly rounded library, proves a cell, and it contains the
location. The hypotheses of `C74_hint_exists32`, `C74_hint_near32`, `C74_checks_pass32`, `C74_location_complete32` and `C74_location_correct32` are met. -/
example {Lng : ℕ} {l : ℝ} (hl : PatternOf f32 Lng l) (hl1 : |l| ≤ 13176795 / 2 ^ 22) : ∃ L : Libm, L.CorrectlyRounded ∧ ∃ hLat hLng : Pre bn254, PrecomputeHint32 L ((0 : ℕ) : ZMod bn254) hLat ∧
    PrecomputeHint32 L (Lng : ZMod bn254) hLng ∧ ∃ i j k : ℤ,
      (precomputeCircuit32 hLat hLng ((0 : ℕ) : ZMod bn254) (Lng : ZMod bn254) ((15 : ℕ) : ZMod bn254) (i : ZMod bn254) (j : ZMod bn254) (k : ZMod bn254)).run 9 = some () ∧
      H3.CellAt (64 / 2 ^ 20) (768 / 2 ^ 20 * Real.sqrt 7 ^ 15) 15 0 l i j k := by
  have G := good_bn254_f32 (b := 9) ⟨by norm_num, by norm_num⟩
  obtain ⟨L, hL⟩ := C74_libm_exists
  obtain ⟨hLat, H1⟩ := C74_hint_exists32 G L zero_pattern32 (by norm_num)
  obtain ⟨hLng, H2⟩ := C74_hint_exists32 G L hl (hl1.trans (by norm_num))
  obtain ⟨i, j, k, hr, _⟩ := C74_location_complete32 (n := 15) G (C74_correctly_rounded_accurate hL) (by norm_num) (by norm_num) zero_pattern32 hl (by norm_num) hl1 H1 H2 le_rfl
    (fun F hF => (by norm_num : (20 / 2 ^ 20 : ℝ) ^ 2 < 1 / 1000).trans_le (equator_far F hF _))
  obtain ⟨i', j', k', e1, e2, e3, hc⟩ := C74_location_correct32 (n := 15) G (C74_correctly_rounded_accurate hL) (by norm_num) (by norm_num) zero_pattern32 hl (by norm_num)
    (hl1.trans (by norm_num)) H1 H2 le_rfl hr
  exact ⟨L, hL, hLat, hLng, H1, H2, i', j', k', by rw [← e1, ← e2, ← e3]; exact hr, hc⟩

/-- Double precision, longitude `77/32`. -/
noncomputable def goodLng : ℝ := 77 / 32

theorem goodLng_pattern : PatternOf f64 0x4003400000000000 goodLng :=
  ⟨by decide, false, _, exactBits_decode (E := 11) (M := 52) (neg := false) (num := 77) (den := 32) (by decide +kernel), by norm_num [signed, goodLng]⟩

theorem good_sin : |1128129560796133939948150 / 2 ^ 80 - Real.sin (goodLng / 2)| ≤ 1 / 2 ^ 72 := by
  have h : trigCheck imPow (77 * 2 ^ 74) 1128129560796133939948150 80 40 72 = true := by decide +kernel
  have := trigCheck_sin h
  rw [show (((77 * 2 ^ 74 : ℤ)) : ℝ) / 2 ^ 80 = goodLng / 2 by unfold goodLng; push_cast; norm_num] at this
  push_cast at this
  exact this
theorem good_cos : |434540367962315849581653 / 2 ^ 80 - Real.cos (goodLng / 2)| ≤ 1 / 2 ^ 72 := by
  have h : trigCheck rePow (77 * 2 ^ 74) 434540367962315849581653 80 40 72 = true := by decide +kernel
  have := trigCheck_cos h
  rw [show (((77 * 2 ^ 74 : ℤ)) : ℝ) / 2 ^ 80 = goodLng / 2 by unfold goodLng; push_cast; norm_num] at this
  push_cast at this
  exact this

theorem good_sin_rne : IsRNE F64 (Real.sin (goodLng / 2)) (8405220216483876 / 2 ^ 53) := by
  have := abs_le.1 good_sin
  exact_mod_cast rne64 (n := 8405220216483876) (e := 53) (by norm_num) (by norm_num) (by norm_num) (by rw [abs_lt]; constructor <;> norm_num at * <;> linarith)
theorem good_cos_rne : IsRNE F64 (Real.cos (goodLng / 2)) (6475156068240342 / 2 ^ 54) := by
  have := abs_le.1 good_cos
  exact_mod_cast rne64 (n := 6475156068240342) (e := 54) (by norm_num) (by norm_num) (by norm_num) (by rw [abs_lt]; constructor <;> norm_num at * <;> linarith)
theorem good_tan_rne : IsRNE F64 (Real.tan (goodLng / 2)) (5845997569169124 / 2 ^ 51) := by
  have s1 := abs_le.1 good_sin
  have s2 := abs_le.1 good_cos
  have hc : 0 < Real.cos (goodLng / 2) := by norm_num at *; linarith
  suffices h : |Real.tan (goodLng / 2) - (5845997569169124 : ℕ) / 2 ^ 51| < 1 / 2 ^ 51 / 2 by
    exact_mod_cast rne64 (n := 5845997569169124) (e := 51) (by norm_num) (by norm_num) (by norm_num) h
  push_cast
  rw [Real.tan_eq_sin_div_cos, div_sub' hc.ne', abs_div, abs_of_pos hc, div_lt_iff₀ hc, abs_lt]
  constructor <;> norm_num at * <;> linarith
theorem good_mul_rne : IsRNE F64 (5845997569169124 / 2 ^ 51 * (6475156068240342 / 2 ^ 54)) (8405220216483876 / 2 ^ 53) :=
  mod_cast rne64 (n := 8405220216483876) (e := 53) (by norm_num) (by norm_num) (by norm_num) (by rw [abs_lt]; constructor <;> norm_num)

/-- The equator at longitude `77/32`, every width, a correctly rounded library: there are hint values, and a cell is accepted. -/
theorem goodLng_runs (G : Good p b f64) {L : Libm} (hL : L.CorrectlyRounded) {n : ℕ} (hn : n ≤ 15) : ∃ hLat hLng : Pre p, PrecomputeHint64 L ((0 : ℕ) : ZMod p) hLat ∧
    PrecomputeHint64 L ((0x4003400000000000 : ℕ) : ZMod p) hLng ∧ ∃ i j k : ZMod p,
      (precomputeCircuit64 hLat hLng ((0 : ℕ) : ZMod p) ((0x4003400000000000 : ℕ) : ZMod p) (n : ZMod p) i j k).run b = some () := by
  obtain ⟨hLat, H1⟩ := C74_hint_exists64 G L zero_pattern64
  obtain ⟨hLng, H2⟩ := C74_hint_exists64 G L goodLng_pattern
  have s1 := abs_le.1 good_sin
  have s2 := abs_le.1 good_cos
  have ha : |goodLng| = 77 / 32 := by unfold goodLng; rw [abs_of_pos (by norm_num)]
  obtain ⟨i, j, k, hr, _⟩ := C75_location_complete_rounded64_partial G hL zero_pattern64 goodLng_pattern (by norm_num)
    (by rw [ha]; norm_num) H1 H2 hn (fun F hF => (by norm_num : (20 / 2 ^ 49 : ℝ) ^ 2 < 1 / 1000).trans_le (equator_far F hF _)) (by
      intro a c d m ea ec ed em
      obtain ⟨rfl, rfl, rfl⟩ := rounded_values G hL goodLng_pattern ⟨77, -6, by norm_num, by rw [qmin64]; norm_num, by unfold goodLng; rw [zpow_neg]; norm_num⟩
        (by unfold goodLng; norm_num) (by unfold goodLng; norm_num) (by norm_num at *; linarith)
        (by norm_num at *; linarith) good_tan_rne good_sin_rne good_cos_rne (by norm_num) (by norm_num) (by norm_num) H2 ea ec ed
      exact .inl (RoundsTo.eq_fin em good_mul_rne (by norm_num)))
  exact ⟨hLat, hLng, H1, H2, _, _, _, hr⟩

/-- At the deployed width. -/
theorem goodLng_accepts {L : Libm} (hL : L.CorrectlyRounded) {n : ℕ} (hn : n ≤ 15) : ∃ hLat hLng : Pre bn254, PrecomputeHint64 L ((0 : ℕ) : ZMod bn254) hLat ∧
    PrecomputeHint64 L ((0x4003400000000000 : ℕ) : ZMod bn254) hLng ∧ ∃ i j k : ZMod bn254,
      (precomputeCircuit64 hLat hLng ((0 : ℕ) : ZMod bn254) ((0x4003400000000000 : ℕ) : ZMod bn254) (n : ZMod bn254) i j k).run 11 = some () :=
  goodLng_runs (good_bn254_f64 (b := 11) ⟨by norm_num, by norm_num⟩) hL hn

/-- The hypotheses of `C75_location_complete_rounded64_partial`, `C75_location_complete64_partial`, `C74_location_correct64`, `C74_hint_exists64` and `C75_checks_exact64` are met: the equator at longitude `77/32`, the deployed width, a correctly rounded
library and the smallest tolerance. -/
example {L : Libm} (hL : L.CorrectlyRounded) (n : ℕ) (hn : n ≤ 15) : ∃ hLat hLng : Pre bn254, PrecomputeHint64 L ((0 : ℕ) : ZMod bn254) hLat ∧
    PrecomputeHint64 L ((0x4003400000000000 : ℕ) : ZMod bn254) hLng ∧ ∃ i j k : ℤ,
      (precomputeCircuit64 hLat hLng ((0 : ℕ) : ZMod bn254) ((0x4003400000000000 : ℕ) : ZMod bn254) (n : ZMod bn254) (i : ZMod bn254) (j : ZMod bn254) (k : ZMod bn254)).run 11 = some () ∧
      H3.CellAt (64 * (16 / 2 ^ 53)) (768 * (16 / 2 ^ 53) * Real.sqrt 7 ^ n) n 0 goodLng i j k := by
  have G := good_bn254_f64 (b := 11) ⟨by norm_num, by norm_num⟩
  obtain ⟨hLat, hLng, H1, H2, i, j, k, hr⟩ := goodLng_accepts hL hn
  have ha : |goodLng| = 77 / 32 := by unfold goodLng; rw [abs_of_pos (by norm_num)]
  obtain ⟨i', j', k', e1, e2, e3, hc⟩ := C74_location_correct64 G (C74_correctly_rounded_accurate hL) (τ := 16 / 2 ^ 53) (by norm_num) zero_pattern64 goodLng_pattern (by norm_num)
    (by rw [ha]; norm_num) H1 H2 (by norm_num) le_rfl (by norm_num) hn hr
  exact ⟨hLat, hLng, H1, H2, i', j', k', by rw [← e1, ← e2, ← e3]; exact hr, hc⟩

/-- The hypotheses of `C75_lng_check_fails64` are met: such hint values exist. -/
example : ∃ L : Libm, L.CorrectlyRounded ∧ ∃ h : Pre bn254, PrecomputeHint64 L ((0x3ff021a8aa4de5f7 : ℕ) : ZMod bn254) h := by
  obtain ⟨L, hL⟩ := C74_libm_exists
  exact ⟨L, hL, C74_hint_exists64 (good_bn254_f64 (b := 11) ⟨by norm_num, by norm_num⟩) L badLng_pattern⟩

end ZkLoc.Hints
