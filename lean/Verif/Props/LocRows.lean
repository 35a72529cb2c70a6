import Verif.Props.LocVectors

/-!
# Property C70, continued: a line of the repository's table on which `TestLoc2Index32` fails

Lines 139 to 144 of /repo/data/f32/loc2index32.txt are `3F35CD0B 3F13A4DD F 179BA4 0 16EDD5`. The listed cell is right, but single precision is too coarse for resolution 15: with
correctly rounded sines and cosines the circuit obtains the cell next to it.
-/

namespace ZkLoc.Vectors
open ZkLoc.Bench ZkLoc.Text _root_.Text _root_.Vectors Ieee

/-- The values of the hint for the angle `φ` are correctly rounded: `β` the sine, `γ` and `δ` the sine and cosine of half the angle. (`PrecomputeHint32` computes them in double
precision, `β` as `2γδ`, and rounds to single precision.) -/
structure HintRounded (f : Fmt) (φ : ℝ) (h : Pre bn254) : Prop where
  beta : ∃ a, Encodes f h.beta (.fin false a) ∧ IsRNE ⟨f.E, f.M⟩ (Real.sin φ) a
  gamma : ∃ a, Encodes f h.gamma (.fin false a) ∧ IsRNE ⟨f.E, f.M⟩ (Real.sin (φ / 2)) a
  delta : ∃ a, Encodes f h.delta (.fin false a) ∧ IsRNE ⟨f.E, f.M⟩ (Real.cos (φ / 2)) a

theorem rne_near {y : ℝ} {n V e : ℕ} (hy : |(V : ℝ) / 2 ^ 40 - y| ≤ 1 / 2 ^ 36) (he : e ≤ 149) (hn : n ≤ 2 ^ 24) (hn1 : 2 ^ 23 < n)
    (hc : |(V : ℝ) / 2 ^ 40 - n / 2 ^ e| + 1 / 2 ^ 36 < 1 / 2 ^ e / 2) : IsRNE ⟨8, 23⟩ y (n / 2 ^ e) := by
  have hd : |y - n / 2 ^ e| < 1 / 2 ^ e / 2 := by
    refine lt_of_le_of_lt (abs_sub_le _ ((V : ℝ) / 2 ^ 40) _) ?_
    rw [abs_sub_comm y]
    linarith
  have e1 : (2:ℝ) ^ (-(e : ℤ)) = 1 / 2 ^ e := by rw [zpow_neg, zpow_natCast, one_div]
  have hn2 : ((2 ^ 23 + 1 : ℕ) : ℝ) ≤ n := by exact_mod_cast hn1
  have h0 : (0:ℝ) < 1 / 2 ^ e := by positivity
  have key := isRNE_of_quantum (F := ⟨8, 23⟩) (by norm_num) (v := y) (n := n) (k := -(e : ℤ))
    (by norm_num [Format.qmin, Format.emin, Format.bias]; omega) hn (by rw [e1, mul_one_div]; exact hd.le)
    (fun h => by rw [e1, mul_one_div] at h; linarith) (.inr (by
      rw [e1]
      have := (abs_lt.1 hd).1
      have h3 := mul_le_mul_of_nonneg_right hn2 h0.le
      rw [mul_one_div (n:ℝ)] at h3
      generalize (n:ℝ) / 2 ^ e = q at *
      generalize (1:ℝ) / 2 ^ e = d at *
      push_cast at h3
      simp only
      norm_num at h3 ⊢
      linarith))
  rwa [e1, mul_one_div] at key

theorem rounded_wires {v : FloatVar bn254} {y : ℝ} (h : ∃ a, Encodes f32 v (.fin false a) ∧ IsRNE ⟨f32.E, f32.M⟩ y a) {n V e pat : ℕ} (hy : |(V : ℝ) / 2 ^ 40 - y| ≤ 1 / 2 ^ 36)
    (he : e ≤ 149) (hn : n ≤ 2 ^ 24) (hn1 : 2 ^ 23 < n) (hc : |(V : ℝ) / 2 ^ 40 - n / 2 ^ e| + 1 / 2 ^ 36 < 1 / 2 ^ e / 2) (hpat : pat < 2 ^ 32)
    (hx : exactBits 8 23 false n (2 ^ e) pat = true) : v = newConstant f32 pat := by
  obtain ⟨a, h1, h2⟩ := h
  have h3 := IsRNE.unique h2 (rne_near hy he hn hn1 hc)
  have h4 := newConstant_encodes (p := bn254) (f := f32) (v := pat) (by decide) (by decide) hpat
  rw [show decodeBits ⟨f32.E, f32.M⟩ pat = .fin false (n / (2 ^ e : ℕ)) from exactBits_decode hx] at h4
  have e2 : ((2 ^ e : ℕ) : ℝ) = 2 ^ e := by push_cast; rfl
  rw [e2, ← h3] at h4
  obtain ⟨x, hx, hxd, rfl⟩ := encodes_iff.1 h1
  obtain ⟨z, hz, hzd, hze⟩ := encodes_iff.1 h4
  have G : Good bn254 9 f32 := goodField_bn254.1 9 ⟨by norm_num, by norm_num⟩
  rw [hze, (datum_inj G hx hz (hxd.trans hzd.symm)).2 (by rw [hxd]; simp)]

/-- The latitude and longitude of the line. -/
noncomputable def rowLat : ℝ := 0xB5CD0B / 2 ^ 24
noncomputable def rowLng : ℝ := 0x93A4DD / 2 ^ 24

theorem rowLat_pattern : PatternOf f32 0x3F35CD0B rowLat :=
  ⟨by decide, false, _, exactBits_decode (E := 8) (M := 23) (neg := false) (num := 0xB5CD0B) (den := 2 ^ 24) (by decide +kernel), by norm_num [signed, rowLat]⟩
theorem rowLng_pattern : PatternOf f32 0x3F13A4DD rowLng :=
  ⟨by decide, false, _, exactBits_decode (E := 8) (M := 23) (neg := false) (num := 0x93A4DD) (den := 2 ^ 24) (by decide +kernel), by norm_num [signed, rowLng]⟩

theorem sin_of {X V : ℤ} {k n t : ℕ} {x w : ℝ} (h : trigCheck imPow X V k n t = true) (hx : (X : ℝ) / 2 ^ k = x) (hw : (V : ℝ) / 2 ^ k = w) : |w - Real.sin x| ≤ 1 / 2 ^ t := by
  rw [← hx, ← hw]; exact trigCheck_sin h
theorem cos_of {X V : ℤ} {k n t : ℕ} {x w : ℝ} (h : trigCheck rePow X V k n t = true) (hx : (X : ℝ) / 2 ^ k = x) (hw : (V : ℝ) / 2 ^ k = w) : |w - Real.cos x| ≤ 1 / 2 ^ t := by
  rw [← hx, ← hw]; exact trigCheck_cos h

/-- The correctly rounded hint values. -/
theorem rounded_lat {h : Pre bn254} (H : HintRounded f32 rowLat h) :
    h.beta = newConstant f32 0x3f26e687 ∧ h.gamma = newConstant f32 0x3eb20132 ∧ h.delta = newConstant f32 0x3f7007c7 := by
  refine ⟨rounded_wires H.beta (n := 10937991) (V := 716832178364) (e := 24) ?_ (by norm_num) (by norm_num) (by norm_num) ?_ (by norm_num) (by decide +kernel),
    rounded_wires H.gamma (n := 11665714) (V := 382262101360) (e := 25) ?_ (by norm_num) (by norm_num) (by norm_num) ?_ (by norm_num) (by decide +kernel),
    rounded_wires H.delta (n := 15730631) (V := 1030922647670) (e := 24) ?_ (by norm_num) (by norm_num) (by norm_num) ?_ (by norm_num) (by decide +kernel)⟩
  · exact sin_of (X := 0xB5CD0B * 2 ^ 16) (V := 716832178364) (k := 40) (n := 30) (by decide +kernel) (by norm_num [rowLat]) (by norm_num)
  · norm_num [abs_lt]
  · exact sin_of (X := 0xB5CD0B * 2 ^ 15) (V := 382262101360) (k := 40) (n := 30) (by decide +kernel) (by norm_num [rowLat]) (by norm_num)
  · norm_num [abs_lt]
  · exact cos_of (X := 0xB5CD0B * 2 ^ 15) (V := 1030922647670) (k := 40) (n := 30) (by decide +kernel) (by norm_num [rowLat]) (by norm_num)
  · norm_num [abs_lt]

theorem rounded_lng {h : Pre bn254} (H : HintRounded f32 rowLng h) :
    h.beta = newConstant f32 0x3f0b9817 ∧ h.gamma = newConstant f32 0x3e919b33 ∧ h.delta = newConstant f32 0x3f756dfc := by
  refine ⟨rounded_wires H.beta (n := 9148439) (V := 599552076449) (e := 24) ?_ (by norm_num) (by norm_num) (by norm_num) ?_ (by norm_num) (by decide +kernel),
    rounded_wires H.gamma (n := 9542451) (V := 312687040645) (e := 25) ?_ (by norm_num) (by norm_num) (by norm_num) ?_ (by norm_num) (by decide +kernel),
    rounded_wires H.delta (n := 16084476) (V := 1054112249349) (e := 24) ?_ (by norm_num) (by norm_num) (by norm_num) ?_ (by norm_num) (by decide +kernel)⟩
  · exact sin_of (X := 0x93A4DD * 2 ^ 16) (V := 599552076449) (k := 40) (n := 30) (by decide +kernel) (by norm_num [rowLng]) (by norm_num)
  · norm_num [abs_lt]
  · exact sin_of (X := 0x93A4DD * 2 ^ 15) (V := 312687040645) (k := 40) (n := 30) (by decide +kernel) (by norm_num [rowLng]) (by norm_num)
  · norm_num [abs_lt]
  · exact cos_of (X := 0x93A4DD * 2 ^ 15) (V := 1054112249349) (k := 40) (n := 30) (by decide +kernel) (by norm_num [rowLng]) (by norm_num)
  · norm_num [abs_lt]

/-! ### The cell that the circuit obtains -/

/-- What the checks do not concern. -/
def tailCell (f : Fmt) (g : GeoConsts) (R : ZMod bn254) (v w : Pre bn254) : Circ bn254 (ZMod bn254 × ZMod bn254 × ZMod bn254) := do
  let cosLat ← preCos f v
  let cosLng ← preCos f w
  locCell f g v.beta cosLat w.beta cosLng R

theorem tailCell_of {b : ℕ} {f : Fmt} {g : GeoConsts} {cLat cLng : Pre bn254 → Circ bn254 Unit} {R I J K : ZMod bn254} {v w : Pre bn254}
    (h : (preTail f g cLat cLng R I J K v w).run b = some ()) : (tailCell f g R v w).run b = some (I, J, K) := by
  unfold preTail at h
  simp only [Circ.bind_eq] at h
  obtain ⟨u1, e1, h⟩ := run_some_bind h
  obtain ⟨u2, e2, h⟩ := run_some_bind h
  obtain ⟨u3, e3, h⟩ := run_some_bind h
  obtain ⟨u4, e4, h⟩ := run_some_bind h
  obtain ⟨c, e5, h⟩ := run_some_bind h
  unfold tailCell
  simp only [Circ.bind_eq, Circ.run_bind, e3, e4, e5, Option.bind_some]
  rw [sat_assertCell (Circ.sat_of_run (st := true) _ _ h)]

theorem row_cell : (tailCell f32 geo32 15 (preOf f32 0 0x3f26e687 0x3eb20132 0x3f7007c7) (preOf f32 0 0x3f0b9817 0x3e919b33 0x3f756dfc)).run 9 =
    some (1547171, 0, 1502676) := by decide +kernel

/-- **C70** (violated) `TestLoc2Index32` fails on lines 139 to 144 of the repository's table, for every hint function that delivers the correctly rounded sines and cosines. -/
theorem C70_repository_row_fails32 {hint : ℤ → Pre bn254} (h1 : HintRounded f32 rowLat (hint 0x3F35CD0B)) (h2 : HintRounded f32 rowLng (hint 0x3F13A4DD)) {text : List Char}
    (hl : "3F35CD0B 3F13A4DD F 179BA4 0 16EDD5".toList ∈ scanLines text) : ¬ locTest32 hint (some text) := by
  intro ht
  have h := ht _ hl
  have row : Row6 32 ["3F35CD0B".toList, "3F13A4DD".toList, "F".toList, "179BA4".toList, "0".toList, "16EDD5".toList] 0x3F35CD0B 0x3F13A4DD 15 0x179BA4 0 0x16EDD5 := by
    refine ⟨wordCheck (by decide), by decide, _, _, _, _, _, _, [], rfl, ?_, ?_, ?_, ?_, ?_, ?_⟩ <;> exact hex_of (by decide) (by decide)
  rw [show "3F35CD0B 3F13A4DD F 179BA4 0 16EDD5".toList =
    [' '].intercalate ["3F35CD0B".toList, "3F13A4DD".toList, "F".toList, "179BA4".toList, "0".toList, "16EDD5".toList] by decide, locLine32_iff row] at h
  unfold precomputeCircuit32 at h
  simp only [Circ.bind_eq] at h
  obtain ⟨_, _, h⟩ := run_some_bind h
  obtain ⟨_, e1, h⟩ := run_some_bind h
  obtain ⟨_, e2, h⟩ := run_some_bind h
  obtain rfl := precompute_run e1
  obtain rfl := precompute_run e2
  have h' := tailCell_of h
  obtain ⟨a1, a2, a3⟩ := rounded_lat h1
  obtain ⟨b1, b2, b3⟩ := rounded_lng h2
  have e : tailCell f32 geo32 ((15 : ℕ) : ZMod bn254) (hint ((0x3F35CD0B : ℕ) : ℤ)) (hint ((0x3F13A4DD : ℕ) : ℤ)) =
      tailCell f32 geo32 15 (preOf f32 0 0x3f26e687 0x3eb20132 0x3f7007c7) (preOf f32 0 0x3f0b9817 0x3e919b33 0x3f756dfc) := by
    unfold tailCell preCos preOf
    simp only [Nat.cast_ofNat]
    rw [a1, a2, a3, b1, b2, b3]
  rw [e, row_cell] at h'
  exact absurd h' (by decide +kernel)

theorem encodes_nearest {y : ℝ} {n V e pat : ℕ} (hy : |(V : ℝ) / 2 ^ 40 - y| ≤ 1 / 2 ^ 36) (he : e ≤ 149) (hn : n ≤ 2 ^ 24) (hn1 : 2 ^ 23 < n)
    (hc : |(V : ℝ) / 2 ^ 40 - n / 2 ^ e| + 1 / 2 ^ 36 < 1 / 2 ^ e / 2) (hpat : pat < 2 ^ 32) (hx : exactBits 8 23 false n (2 ^ e) pat = true) :
    ∃ a, Encodes f32 (newConstant f32 pat : FloatVar bn254) (.fin false a) ∧ IsRNE ⟨f32.E, f32.M⟩ y a := by
  have h4 := newConstant_encodes (p := bn254) (f := f32) (v := pat) (by decide) (by decide) hpat
  rw [show decodeBits ⟨f32.E, f32.M⟩ pat = .fin false (n / (2 ^ e : ℕ)) from exactBits_decode hx] at h4
  have e2 : ((2 ^ e : ℕ) : ℝ) = 2 ^ e := by push_cast; rfl
  rw [e2] at h4
  exact ⟨_, h4, rne_near hy he hn hn1 hc⟩

/-- The hypotheses of `C70_repository_row_fails32` are met. -/
example : ∃ hint : ℤ → Pre bn254, HintRounded f32 rowLat (hint 0x3F35CD0B) ∧ HintRounded f32 rowLng (hint 0x3F13A4DD) := by
  refine ⟨fun v => if v = 0x3F35CD0B then preOf f32 0x3ebdd8fd 0x3f26e687 0x3eb20132 0x3f7007c7 else preOf f32 0x3e97e099 0x3f0b9817 0x3e919b33 0x3f756dfc, ?_, ?_⟩
  · simp only [if_pos]
    refine ⟨encodes_nearest (n := 10937991) (V := 716832178364) (e := 24) ?_ (by norm_num) (by norm_num) (by norm_num) ?_ (by norm_num) (by decide +kernel),
      encodes_nearest (n := 11665714) (V := 382262101360) (e := 25) ?_ (by norm_num) (by norm_num) (by norm_num) ?_ (by norm_num) (by decide +kernel),
      encodes_nearest (n := 15730631) (V := 1030922647670) (e := 24) ?_ (by norm_num) (by norm_num) (by norm_num) ?_ (by norm_num) (by decide +kernel)⟩
    · exact sin_of (X := 0xB5CD0B * 2 ^ 16) (V := 716832178364) (k := 40) (n := 30) (by decide +kernel) (by norm_num [rowLat]) (by norm_num)
    · norm_num [abs_lt]
    · exact sin_of (X := 0xB5CD0B * 2 ^ 15) (V := 382262101360) (k := 40) (n := 30) (by decide +kernel) (by norm_num [rowLat]) (by norm_num)
    · norm_num [abs_lt]
    · exact cos_of (X := 0xB5CD0B * 2 ^ 15) (V := 1030922647670) (k := 40) (n := 30) (by decide +kernel) (by norm_num [rowLat]) (by norm_num)
    · norm_num [abs_lt]
  · simp only [show ¬ ((0x3F13A4DD : ℤ) = 0x3F35CD0B) by decide, if_false]
    refine ⟨encodes_nearest (n := 9148439) (V := 599552076449) (e := 24) ?_ (by norm_num) (by norm_num) (by norm_num) ?_ (by norm_num) (by decide +kernel),
      encodes_nearest (n := 9542451) (V := 312687040645) (e := 25) ?_ (by norm_num) (by norm_num) (by norm_num) ?_ (by norm_num) (by decide +kernel),
      encodes_nearest (n := 16084476) (V := 1054112249349) (e := 24) ?_ (by norm_num) (by norm_num) (by norm_num) ?_ (by norm_num) (by decide +kernel)⟩
    · exact sin_of (X := 0x93A4DD * 2 ^ 16) (V := 599552076449) (k := 40) (n := 30) (by decide +kernel) (by norm_num [rowLng]) (by norm_num)
    · norm_num [abs_lt]
    · exact sin_of (X := 0x93A4DD * 2 ^ 15) (V := 312687040645) (k := 40) (n := 30) (by decide +kernel) (by norm_num [rowLng]) (by norm_num)
    · norm_num [abs_lt]
    · exact cos_of (X := 0x93A4DD * 2 ^ 15) (V := 1054112249349) (k := 40) (n := 30) (by decide +kernel) (by norm_num [rowLng]) (by norm_num)
    · norm_num [abs_lt]

/-! ### The listed cell is right -/

/-- Double-precision hint values for the two angles. -/
def wideLat : Pre bn254 := ⟨newConstant f64 0x3fd7bb1f951f7593, newConstant f64 0x3fe4dcd0e01789d7, newConstant f64 0x3fd64026315bf9c4, newConstant f64 0x3fee00f8e70eba11⟩
def wideLng : Pre bn254 := ⟨newConstant f64 0x3fd2fc132bf7c10f, newConstant f64 0x3fe17302d55424eb, newConstant f64 0x3fd233666621407d, newConstant f64 0x3feeadbf8ec09b44⟩

theorem wideLat_near : HintNear f64 (1 / 2 ^ 49) rowLat wideLat where
  beta := ⟨5872289205160407 / 2 ^ 53, num_exact (E := 11) (M := 52) (neg := false) (num := 5872289205160407) (den := 2 ^ 53) (by norm_num) (by norm_num) (by decide)
    (by decide +kernel) (by norm_num [signed]), (sin_of (X := 0xB5CD0B * 2 ^ 36) (V := 5872289205160407 * 2 ^ 7) (k := 60) (n := 30) (t := 52) (by decide +kernel) (by norm_num [rowLat])
    (by norm_num)).trans (by norm_num)⟩
  gamma := ⟨6262982268680644 / 2 ^ 54, num_exact (E := 11) (M := 52) (neg := false) (num := 6262982268680644) (den := 2 ^ 54) (by norm_num) (by norm_num) (by decide)
    (by decide +kernel) (by norm_num [signed]), (sin_of (X := 0xB5CD0B * 2 ^ 35) (V := 6262982268680644 * 2 ^ 6) (k := 60) (n := 30) (t := 52) (by decide +kernel) (by norm_num [rowLat])
    (by norm_num)).trans (by norm_num)⟩
  delta := ⟨8445318329711121 / 2 ^ 53, num_exact (E := 11) (M := 52) (neg := false) (num := 8445318329711121) (den := 2 ^ 53) (by norm_num) (by norm_num) (by decide)
    (by decide +kernel) (by norm_num [signed]), (cos_of (X := 0xB5CD0B * 2 ^ 35) (V := 8445318329711121 * 2 ^ 7) (k := 60) (n := 30) (t := 52) (by decide +kernel) (by norm_num [rowLat])
    (by norm_num)).trans (by norm_num)⟩

theorem wideLng_near : HintNear f64 (1 / 2 ^ 49) rowLng wideLng where
  beta := ⟨4911530610271467 / 2 ^ 53, num_exact (E := 11) (M := 52) (neg := false) (num := 4911530610271467) (den := 2 ^ 53) (by norm_num) (by norm_num) (by decide)
    (by decide +kernel) (by norm_num [signed]), (sin_of (X := 0x93A4DD * 2 ^ 36) (V := 4911530610271467 * 2 ^ 7) (k := 60) (n := 30) (t := 52) (by decide +kernel) (by norm_num [rowLng])
    (by norm_num)).trans (by norm_num)⟩
  gamma := ⟨5123064473927805 / 2 ^ 54, num_exact (E := 11) (M := 52) (neg := false) (num := 5123064473927805) (den := 2 ^ 54) (by norm_num) (by norm_num) (by decide)
    (by decide +kernel) (by norm_num [signed]), (sin_of (X := 0x93A4DD * 2 ^ 35) (V := 5123064473927805 * 2 ^ 6) (k := 60) (n := 30) (t := 52) (by decide +kernel) (by norm_num [rowLng])
    (by norm_num)).trans (by norm_num)⟩
  delta := ⟨8635287546665796 / 2 ^ 53, num_exact (E := 11) (M := 52) (neg := false) (num := 8635287546665796) (den := 2 ^ 53) (by norm_num) (by norm_num) (by decide)
    (by decide +kernel) (by norm_num [signed]), (cos_of (X := 0x93A4DD * 2 ^ 35) (V := 8635287546665796 * 2 ^ 7) (k := 60) (n := 30) (t := 52) (by decide +kernel) (by norm_num [rowLng])
    (by norm_num)).trans (by norm_num)⟩

theorem row_run64 : (precomputeCircuit64 wideLat wideLng 0x3fe6b9a160000000 0x3fe2749ba0000000 15 0x179BA4 0 0x16EDD5).run 11 = some () := by decide +kernel

/-- **C70** The listed cell is right: the exact projection of the location (the very numbers `3F35CD0B` and `3F13A4DD` denote) lies in its hexagon, enlarged by less than `2^-18` of
the grid unit. (Proved with the double-precision circuit.) -/
theorem C70_repository_row_right32 : PatternOf f32 0x3F35CD0B rowLat ∧ PatternOf f32 0x3F13A4DD rowLng ∧
    H3.CellAt (64 * (1 / 2 ^ 49)) (768 * (1 / 2 ^ 49) * Real.sqrt 7 ^ 15) 15 rowLat rowLng 0x179BA4 0 0x16EDD5 ∧ 768 * (1 / 2 ^ 49) * Real.sqrt 7 ^ 15 < 1 / 2 ^ 18 := by
  refine ⟨rowLat_pattern, rowLng_pattern, ?_, ?_⟩
  · have h := (C49_precompute_numbers64 (b := 11) (n := 15) (goodField_bn254.2 11 ⟨by norm_num, by norm_num⟩) (by norm_num) (by norm_num) wideLat_near wideLng_near (by norm_num)
      (by exact_mod_cast row_run64)).1
    have e1 : (0x179BA4 : ZMod bn254).val = 0x179BA4 := by decide +kernel
    have e2 : (0x16EDD5 : ZMod bn254).val = 0x16EDD5 := by decide +kernel
    rw [e1, e2, ZMod.val_zero] at h
    exact_mod_cast h
  · have := (sqrt7_pow (n := 15) (by norm_num)).2
    norm_num at *
    linarith

end ZkLoc.Vectors
