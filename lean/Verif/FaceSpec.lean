import Verif.HexReal

/-!
# Helper lemmas: the closest face
-/

namespace ZkLoc

variable {p : ℕ} [Fact p.Prime] {b : ℕ} {f : Fmt} {m : Prover} {g : GeoConsts}

/-- The record the loop keeps for a face. -/
def faceData (f : Fmt) (c : Face) (d : FloatVar p) : FaceData p :=
  ⟨d, newConstant f c.sinLat, newConstant f c.cosLat, newConstant f c.sinLng, newConstant f c.cosLng, newConstant f c.sinAz,
    newConstant f c.cosAz, newConstant f c.sinAzRot, newConstant f c.cosAzRot⟩

/-- A coordinate of a face centre: a finite constant of magnitude at most one. -/
def UnitConst (p : ℕ) (f : Fmt) (v : ℕ) : Prop :=
  Num f (newConstant f v : FloatVar p) (Ieee.patternVal ⟨f.E, f.M⟩ v) ∧ |Ieee.patternVal ⟨f.E, f.M⟩ v| ≤ 1

/-- The centre of the face. -/
structure FaceOk (p : ℕ) (f : Fmt) (c : Face) : Prop where
  px : UnitConst p f c.px
  py : UnitConst p f c.py
  pz : UnitConst p f c.pz

/-- The distance from a face centre. -/
abbrev FaceDist (f : Fmt) (x y z : ℝ) (c : Face) (d : ℝ) : Prop :=
  H3.SquareDist (Rn f) (Ieee.patternVal ⟨f.E, f.M⟩ c.px) (Ieee.patternVal ⟨f.E, f.M⟩ c.py) (Ieee.patternVal ⟨f.E, f.M⟩ c.pz) x y z d

theorem faceDist_ok (G : Good p b f) (hm : m.Fits b f) {c : Face} (hc : FaceOk p f c) {x2 y2 z2 : FloatVar p} {x y z : ℝ} (hx : Num f x2 x)
    (hy : Num f y2 y) (hz : Num f z2 z) (bx : |x| ≤ 2 ^ 10) (bY : |y| ≤ 2 ^ 10) (bz : |z| ≤ 2 ^ 10) :
    Ok m b (faceDist f c x2 y2 z2) (fun r => ∃ d, Num f r d ∧ FaceDist f x y z c d ∧ 0 ≤ d ∧ d ≤ 2 ^ 24) := by
  have hbig := big_ge G
  unfold faceDist
  simp only [Circ.bind_eq]
  have diff : ∀ {v : ℕ} (_ : UnitConst p f v) {t : ℝ}, |t| ≤ 2 ^ 10 → |Ieee.patternVal ⟨f.E, f.M⟩ v - t| ≤ 2 ^ 11 := by
    intro v hv t ht
    have := abs_sub (Ieee.patternVal ⟨f.E, f.M⟩ v) t
    have := hv.2
    linarith
  have sq : ∀ {d : ℝ}, |d| ≤ 2 ^ 11 → |d * d| ≤ 2 ^ 22 := by
    intro d hd
    rw [abs_mul]
    calc |d| * |d| ≤ 2 ^ 11 * 2 ^ 11 := mul_le_mul hd hd (abs_nonneg _) (by positivity)
      _ = 2 ^ 22 := by norm_num
  refine (ok_sub G hm hc.px.1 hx (by linarith [hc.px.2]) (by linarith [diff hc.px bx])).bind ?_
  rintro d1 ⟨v1, n1, r1⟩
  have b1 := r1.abs_le_pow G 11 (diff hc.px bx)
  refine (ok_mul G hm n1 n1 (by linarith [sq b1])).bind ?_
  rintro s1 ⟨w1, m1, q1⟩
  have c1 := q1.abs_le_pow G 22 (sq b1)
  have z1 : 0 ≤ w1 := q1.pos (mul_self_nonneg _)
  rw [abs_of_nonneg z1] at c1
  refine (ok_sub G hm hc.py.1 hy (by linarith [hc.py.2]) (by linarith [diff hc.py bY])).bind ?_
  rintro d2 ⟨v2, n2, r2⟩
  have b2 := r2.abs_le_pow G 11 (diff hc.py bY)
  refine (ok_mul G hm n2 n2 (by linarith [sq b2])).bind ?_
  rintro s2 ⟨w2, m2, q2⟩
  have c2 := q2.abs_le_pow G 22 (sq b2)
  have z2 : 0 ≤ w2 := q2.pos (mul_self_nonneg _)
  rw [abs_of_nonneg z2] at c2
  refine (ok_sub G hm hc.pz.1 hz (by linarith [hc.pz.2]) (by linarith [diff hc.pz bz])).bind ?_
  rintro d3 ⟨v3, n3, r3⟩
  have b3 := r3.abs_le_pow G 11 (diff hc.pz bz)
  refine (ok_mul G hm n3 n3 (by linarith [sq b3])).bind ?_
  rintro s3 ⟨w3, m3, q3⟩
  have c3 := q3.abs_le_pow G 22 (sq b3)
  have z3 : 0 ≤ w3 := q3.pos (mul_self_nonneg _)
  rw [abs_of_nonneg z3] at c3
  have h12 : |w1 + w2| ≤ 2 ^ 23 := by rw [abs_of_nonneg (by linarith)]; linarith
  refine (ok_add G hm m1 m2 (by rw [abs_of_nonneg z1]; linarith) (by linarith)).bind ?_
  rintro t ⟨w4, m4, q4⟩
  have c4 := q4.abs_le_pow G 23 h12
  have z4 : 0 ≤ w4 := q4.pos (by linarith)
  rw [abs_of_nonneg z4] at c4
  have h43 : |w4 + w3| ≤ 2 ^ 24 := by rw [abs_of_nonneg (by linarith)]; linarith
  refine (ok_add G hm m4 m3 (by rw [abs_of_nonneg z4]; linarith) (by linarith)).mono ?_
  rintro d ⟨w5, m5, q5⟩
  have z5 : 0 ≤ w5 := q5.pos (by linarith)
  have c5 := q5.abs_le_pow G 24 h43
  rw [abs_of_nonneg z5] at c5
  exact ⟨w5, m5, ⟨v1, w1, v2, w2, v3, w3, w4, r1, q1, r2, q2, r3, q3, q4, q5⟩, z5, c5⟩

open Classical in
theorem faceStep_ok (G : Good p b f) (hm : m.Fits b f) {c : Face} (hc : FaceOk p f c) {x2 y2 z2 : FloatVar p} {x y z : ℝ} (hx : Num f x2 x)
    (hy : Num f y2 y) (hz : Num f z2 z) (bx : |x| ≤ 2 ^ 10) (bY : |y| ≤ 2 ^ 10) (bz : |z| ≤ 2 ^ 10) {s : FaceData p} {D : ℝ} (hs : Num f s.sqDist D) :
    Ok m b (faceStep f c x2 y2 z2 s) (fun s' => ∃ d, FaceDist f x y z c d ∧ 0 ≤ d ∧ d ≤ 2 ^ 24 ∧
      ((d < D ∧ Num f s'.sqDist d ∧ s' = faceData f c s'.sqDist) ∨ (D ≤ d ∧ s' = s))) := by
  unfold faceStep
  simp only [Circ.bind_eq, Circ.pure_eq]
  refine (faceDist_ok G hm hc hx hy hz bx bY bz).bind ?_
  rintro t ⟨d, hd, hD, h0, h24⟩
  refine (ok_gt G hs hd).bind ?_
  rintro _ rfl
  refine (Ok.fSelect _ _ _).bind ?_
  rintro _ rfl
  refine (Ok.fSelect _ _ _).bind ?_
  rintro _ rfl
  refine (Ok.fSelect _ _ _).bind ?_
  rintro _ rfl
  refine (Ok.fSelect _ _ _).bind ?_
  rintro _ rfl
  refine (Ok.fSelect _ _ _).bind ?_
  rintro _ rfl
  refine (Ok.fSelect _ _ _).bind ?_
  rintro _ rfl
  refine (Ok.fSelect _ _ _).bind ?_
  rintro _ rfl
  refine (Ok.fSelect _ _ _).bind ?_
  rintro _ rfl
  refine (Ok.fSelect _ _ _).bind ?_
  rintro _ rfl
  refine .pure ⟨d, hD, h0, h24, ?_⟩
  by_cases h : d < D
  · left
    simp only [h, decide_true, if_true]
    exact ⟨trivial, hd, rfl⟩
  · right
    simp only [h, decide_false, Bool.false_eq_true, if_false]
    exact ⟨not_lt.1 h, trivial⟩

/-- The loop over the faces finds the first smallest distance below the start value. -/
theorem faceLoop_ok (G : Good p b f) (hm : m.Fits b f) {x2 y2 z2 : FloatVar p} {x y z : ℝ} (hx : Num f x2 x)
    (hy : Num f y2 y) (hz : Num f z2 z) (bx : |x| ≤ 2 ^ 10) (bY : |y| ≤ 2 ^ 10) (bz : |z| ≤ 2 ^ 10) (cs : List Face) (hcs : ∀ c ∈ cs, FaceOk p f c) :
    ∀ {s : FaceData p} {D : ℝ}, Num f s.sqDist D →
    Ok m b (faceLoop f x2 y2 z2 cs s) (fun s' => ∃ ds, List.Forall₂ (FaceDist f x y z) cs ds ∧ (∀ d ∈ ds, 0 ≤ d) ∧
      (((∀ d ∈ ds, D ≤ d) ∧ s' = s) ∨
        ∃ k c d, cs[k]? = some c ∧ H3.FirstMin ds k d ∧ d < D ∧ d ≤ 2 ^ 24 ∧ Num f s'.sqDist d ∧ s' = faceData f c s'.sqDist)) := by
  induction cs with
  | nil => intro s D hs; exact .pure ⟨[], .nil, by simp, .inl ⟨by simp, rfl⟩⟩
  | cons c cs ih =>
    intro s D hs
    unfold faceLoop
    simp only [Circ.bind_eq]
    refine (faceStep_ok G hm (hcs c (by simp)) hx hy hz bx bY bz hs).bind ?_
    rintro s1 ⟨d0, hd0, h0, h24, h | h⟩
    · obtain ⟨hlt, hn, he⟩ := h
      refine (ih (fun c hc => hcs c (List.mem_cons_of_mem _ hc)) hn).mono ?_
      rintro s' ⟨ds, hds, hnn, h | ⟨k, c', d, h1, h2, h3, h4, h5⟩⟩
      · refine ⟨d0 :: ds, .cons hd0 hds, by simpa using ⟨h0, hnn⟩, .inr ⟨0, c, d0, rfl, ⟨rfl, ?_, by simp⟩, hlt, h24, ?_, ?_⟩⟩
        · simpa using h.1
        · rw [h.2]; exact hn
        · rw [h.2]; exact he
      · refine ⟨d0 :: ds, .cons hd0 hds, by simpa using ⟨h0, hnn⟩, .inr ⟨k + 1, c', d, by simpa using h1, ⟨by simpa using h2.at_k, ?_, ?_⟩,
          by linarith, h4, h5⟩⟩
        · intro e he
          rcases List.mem_cons.1 he with rfl | he
          · exact h3.le
          · exact h2.least e he
        · intro i e hi hie
          cases i with
          | zero => simp at hie; rw [← hie]; exact h3
          | succ i => exact h2.first i e (by omega) (by simpa using hie)
    · obtain ⟨hge, rfl⟩ := h
      refine (ih (fun c hc => hcs c (List.mem_cons_of_mem _ hc)) hs).mono ?_
      rintro s' ⟨ds, hds, hnn, h | ⟨k, c', d, h1, h2, h3, h4, h5⟩⟩
      · exact ⟨d0 :: ds, .cons hd0 hds, by simpa using ⟨h0, hnn⟩, .inl ⟨by simpa using ⟨hge, h.1⟩, h.2⟩⟩
      · refine ⟨d0 :: ds, .cons hd0 hds, by simpa using ⟨h0, hnn⟩, .inr ⟨k + 1, c', d, by simpa using h1, ⟨by simpa using h2.at_k, ?_, ?_⟩,
          h3, h4, h5⟩⟩
        · intro e he
          rcases List.mem_cons.1 he with rfl | he
          · linarith
          · exact h2.least e he
        · intro i e hi hie
          cases i with
          | zero => simp at hie; rw [← hie]; linarith
          | succ i => exact h2.first i e (by omega) (by simpa using hie)

/-! ### The tables -/

/-- Integer test: a finite bit pattern of magnitude at most one. -/
def unitBits (E M v : ℕ) : Bool := decide (v < 2 ^ (1 + E + M)) && decide (v / 2 ^ M % 2 ^ E < 2 ^ (E - 1) - 1)

theorem unitBits_ok (hE : 2 ≤ f.E) (h64 : 1 + f.E + f.M ≤ 64) {v : ℕ} (h : unitBits f.E f.M v = true) : UnitConst p f v := by
  simp only [unitBits, Bool.and_eq_true, decide_eq_true_eq] at h
  obtain ⟨h1, h2⟩ := h
  have h2E : 2 ^ f.E = 2 * 2 ^ (f.E - 1) := by rw [← pow_succ']; congr 1; omega
  refine ⟨num_const hE h64 h1 (by omega), ?_⟩
  have hm : v % 2 ^ f.M < 2 ^ f.M := Nat.mod_lt _ (by positivity)
  have hmr : ((v % 2 ^ f.M : ℕ) : ℝ) < 2 ^ f.M := by exact_mod_cast hm
  unfold Ieee.patternVal Ieee.decodeBits
  simp only
  have hbias : Ieee.Format.bias ⟨f.E, f.M⟩ = ((2 ^ (f.E - 1) : ℕ) : ℤ) - 1 := by unfold Ieee.Format.bias; push_cast; rfl
  split_ifs with h3 h4 h5
  · simp
  · simp
  · simp only [Ieee.abs_signed]
    rw [abs_of_nonneg (by positivity)]
    have : (2:ℝ) ^ (Ieee.Format.qmin ⟨f.E, f.M⟩) ≤ 2 ^ (-(f.M:ℤ)) := by
      refine zpow_le_zpow_right₀ (by norm_num) ?_
      unfold Ieee.Format.qmin Ieee.Format.emin
      rw [hbias]
      have : 2 ^ 1 ≤ 2 ^ (f.E - 1) := Nat.pow_le_pow_right (by norm_num) (by omega)
      simp only
      omega
    calc ((v % 2 ^ f.M : ℕ) : ℝ) * 2 ^ (Ieee.Format.qmin ⟨f.E, f.M⟩) ≤ 2 ^ f.M * 2 ^ (-(f.M:ℤ)) :=
          mul_le_mul hmr.le this (by positivity) (by positivity)
      _ = 1 := by rw [zpow_neg, zpow_natCast]; field_simp
  · simp only [Ieee.abs_signed]
    rw [abs_of_nonneg (by positivity)]
    have : (2:ℝ) ^ (((v / 2 ^ f.M % 2 ^ f.E : ℕ) : ℤ) - Ieee.Format.bias ⟨f.E, f.M⟩ - f.M) ≤ 2 ^ (-(f.M:ℤ) - 1) := by
      refine zpow_le_zpow_right₀ (by norm_num) ?_
      rw [hbias]
      omega
    calc _ ≤ ((2:ℝ) ^ f.M + 2 ^ f.M) * 2 ^ (-(f.M:ℤ) - 1) := mul_le_mul (by linarith) this (by positivity) (by positivity)
      _ = 1 := by rw [zpow_sub_one₀ (by norm_num), zpow_neg, zpow_natCast]; field_simp; ring

theorem faceOk32 : ∀ c ∈ geo32.faces, FaceOk p f32 c := by
  have h : ∀ c ∈ geo32.faces, unitBits 8 23 c.px = true ∧ unitBits 8 23 c.py = true ∧ unitBits 8 23 c.pz = true := by decide +kernel
  intro c hc
  obtain ⟨h1, h2, h3⟩ := h c hc
  exact ⟨unitBits_ok (f := f32) (by decide) (by decide) h1, unitBits_ok (f := f32) (by decide) (by decide) h2,
    unitBits_ok (f := f32) (by decide) (by decide) h3⟩

theorem faceOk64 : ∀ c ∈ geo64.faces, FaceOk p f64 c := by
  have h : ∀ c ∈ geo64.faces, unitBits 11 52 c.px = true ∧ unitBits 11 52 c.py = true ∧ unitBits 11 52 c.pz = true := by decide +kernel
  intro c hc
  obtain ⟨h1, h2, h3⟩ := h c hc
  exact ⟨unitBits_ok (f := f64) (by decide) (by decide) h1, unitBits_ok (f := f64) (by decide) (by decide) h2,
    unitBits_ok (f := f64) (by decide) (by decide) h3⟩

end ZkLoc
