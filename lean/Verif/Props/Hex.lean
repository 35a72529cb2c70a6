import Verif.HexReal
import Verif.Props.Forgery

/-!
# Property theorems C37, C38: hexagon coordinates as in H3
-/

namespace ZkLoc

variable {p : ℕ} [Fact p.Prime] {b : ℕ} {f : Fmt} {g : GeoConsts}

/-- A triple of integers as field elements. -/
def castIJK (p : ℕ) (t : ℤ × ℤ × ℤ) : ZMod p × ZMod p × ZMod p := ((t.1 : ZMod p), (t.2.1 : ZMod p), (t.2.2 : ZMod p))

/-- An integer from its sign and magnitude. -/
def ofSign (neg : Bool) (mag : ℕ) : ℤ := if neg then -(mag : ℤ) else mag

theorem signMag_ofSign (neg : Bool) (mag : ℕ) : SignMag (ofSign neg mag) neg mag := ⟨by omega, rfl⟩

/-- **C37** Whatever the prover does, `NormalizeIJK` returns H3's normal form of the hexagon given by signs and magnitudes (also when a zero carries
a minus sign, and at ties, where the sign hints are free). -/
theorem C37_normalize_every_prover (hb : Width b) (ni nj nk : Bool) (i j k : ℕ) (hp : 4 * (i + j + k) + 2 ^ 48 ≤ p) {st : Bool}
    {r : ZMod p × ZMod p × ZMod p}
    (h : (normalizeIJK (if ni then 1 else 0) (i : ZMod p) (if nj then 1 else 0) (j : ZMod p) (if nk then 1 else 0) (k : ZMod p)).Sat b st r) :
    ∃ t, H3.NormalForm (ofSign ni i) (ofSign nj j) (ofSign nk k) t ∧ r = castIJK p t := by
  refine ⟨_, H3.ijkNormalize_normalForm _ _ _, ?_⟩
  have h' : (normalizeIJK (B ni) ((i:ℤ) : ZMod p) (B nj) ((j:ℤ) : ZMod p) (B nk) ((k:ℤ) : ZMod p)).Sat b st r := by
    simp only [Int.cast_natCast]; exact h
  exact normalizeIJK_sat hb (signMag_ofSign ni i) (signMag_ofSign nj j) (signMag_ofSign nk k) (by exact_mod_cast hp) h'

/-- **C37** The honest prover succeeds when the sum of the magnitudes is below `2^30`. -/
theorem C37_normalize_complete (hb : Width b) (ni nj nk : Bool) (i j k : ℕ) (hp : 2 ^ 50 ≤ p) (hs : i + j + k < 2 ^ 30) :
    ∃ t, H3.NormalForm (ofSign ni i) (ofSign nj j) (ofSign nk k) t ∧
      (normalizeIJK (if ni then 1 else 0) (i : ZMod p) (if nj then 1 else 0) (j : ZMod p) (if nk then 1 else 0) (k : ZMod p)).run b =
        some (castIJK p t) := by
  obtain ⟨r, h⟩ := normalizeIJK_run (p := p) hb (ni := ni) (nj := nj) (nk := nk) (i := i) (j := j) (k := k) (by omega) (by omega) (by omega) hp
    (by omega)
  have h' : (normalizeIJK (if ni then 1 else 0) (i : ZMod p) (if nj then 1 else 0) (j : ZMod p) (if nk then 1 else 0) (k : ZMod p)).run b =
      some r := by simpa [B] using h
  obtain ⟨t, h1, rfl⟩ := C37_normalize_every_prover hb ni nj nk i j k (by omega) (Circ.sat_of_run (st := true) _ _ h')
  exact ⟨t, h1, h'⟩

/-- `(-3, 5, -1)` normalises to `(0, 8, 2)`. -/
example : (normalizeIJK 1 3 0 5 1 1 : Circ bn254 _).run 8 = some (castIJK bn254 (0, 8, 2)) ∧
    H3.NormalForm (ofSign true 3) (ofSign false 5) (ofSign true 1) (0, 8, 2) :=
  ⟨by decide +kernel, by refine ⟨by decide, by decide, by decide⟩⟩

/-- Numbers other than negative zero: the sign wire tells `< 0`. -/
def NoNegZero {p : ℕ} (x : FloatVar p) (u : ℝ) : Prop := u = 0 → x.sign = 0

theorem sign_iff {x : FloatVar p} {u : ℝ} {s : Bool} (hx : Num f x u) (hz : NoNegZero x u) (hs : x.sign = B s) : (s = true ↔ u < 0) := by
  obtain ⟨s', e, h1, h2⟩ := hx.sign
  rw [hs] at e
  obtain rfl := B_inj.1 e
  constructor
  · intro h
    rcases lt_trichotomy u 0 with h3 | h3 | h3
    · exact h3
    · have := hz h3
      rw [hs, h] at this
      simp [B] at this
    · rw [h2 h3] at h; simp at h
  · exact h1

theorem hexcell (G : Good p b f) {s60 third twoThirds : ℝ} (ht : twoThirds ≤ 3 / 4) {x y : FloatVar p} {u v : ℝ}
    (hx : Num f x u) (hy : Num f y v) (hz : NoNegZero x u) {x1 x2 : ℝ} {i j : ℤ} {sx sy : Bool} (hsx : x.sign = B sx) (hsy : y.sign = B sy)
    (h1 : H3.Skew (Rn f) s60 |u| |v| x1 x2) (h2 : H3.Pick (Rn f) third twoThirds x1 x2 ⌊x1⌋ ⌊x2⌋ i j) :
    H3.Hex2d (Rn f) s60 third twoThirds u v (H3.ijkNormalize (H3.fold sx sy i j).1 (H3.fold sx sy i j).2 0) := by
  classical
  refine ⟨x1, x2, i, j, h1, h2, sx, decide (v < 0), sign_iff hx hz hsx, by simp, ?_⟩
  by_cases hv : v = 0
  · subst hv
    rw [abs_zero] at h1
    obtain rfl := pick_zero G h1 ht (Int.floor_le x1) h2
    cases sx <;> cases sy <;> simp [H3.fold]
  · rw [show decide (v < 0) = sy from ?_]
    rw [Bool.eq_iff_iff, decide_eq_true_eq]
    exact (sign_iff hy (fun h => absurd h hv) hsy).symm

/-- **C38** For plane points up to `2^25` (H3's are below `2^23` at resolution 15) the honest prover's cell is the one H3's `_hex2dToCoordIJK`
computes in the arithmetic of the format, at every table width. `x` may be any zero but `-0`. -/
theorem C38_hex_complete (G : Good p b f) {s60 third twoThirds : ℝ} (K : HexConsts p f g s60 third twoThirds) {x y : FloatVar p} {u v : ℝ}
    (hx : Num f x u) (hy : Num f y v) (hz : NoNegZero x u) (hu : |u| ≤ 2 ^ 25) (hv : |v| ≤ 2 ^ 25) :
    ∃ t, H3.Hex2d (Rn f) s60 third twoThirds u v t ∧ (hex2dToCoordIJK f g x y).run b = some (castIJK p t) := by
  obtain ⟨r, hr, x1, x2, m1, m2, i, j, sx, sy, h1, h2, h3, h4, h5, h6, h7⟩ := hex2d_ok (m := .honest) G (.inl rfl) K hx hy hu hv
  have hx1 : 0 ≤ x1 := by
    obtain ⟨e1, t, e2, e3⟩ := h3
    have := K.sin60_ge
    exact e3.pos (add_nonneg (abs_nonneg _) (e2.pos (div_nonneg (e1.pos (by positivity)) (by norm_num))))
  have hx2 : 0 ≤ x2 := by
    obtain ⟨e1, t, e2, e3⟩ := h3
    have := K.sin60_ge
    exact e1.pos (by positivity)
  have e1 : (m1 : ℤ) = ⌊x1⌋ := by
    rcases h4 with rfl | ⟨h, _⟩
    · exact natCast_floor_eq_intCast_floor hx1 |> fun h => by exact_mod_cast h
    · exact absurd rfl h
  have e2 : (m2 : ℤ) = ⌊x2⌋ := by
    rcases h5 with rfl | ⟨h, _⟩
    · exact natCast_floor_eq_intCast_floor hx2 |> fun h => by exact_mod_cast h
    · exact absurd rfl h
  rw [e1, e2] at h6
  exact ⟨_, hexcell G K.twoThirds_le hx hy hz h1 h2 h3 h6, by rw [hr, h7]; rfl⟩

/-- **C38** For every prover when the table width divides the lookup size: the cell is computed by H3's rules from integral parts `m1`, `m2` of the
skewed coordinates which are the floors, except that for a coordinate between one and two the prover may take zero. Without that exception the
cell is H3's. -/
theorem C38_hex_sound_partial (G : Good p b f) (hb : b ∣ f.pow2Size) {s60 third twoThirds : ℝ} (K : HexConsts p f g s60 third twoThirds)
    {x y : FloatVar p} {u v : ℝ} (hx : Num f x u) (hy : Num f y v) (hz : NoNegZero x u) (hu : |u| ≤ 2 ^ 25) (hv : |v| ≤ 2 ^ 25) {st : Bool}
    {r : ZMod p × ZMod p × ZMod p} (h : (hex2dToCoordIJK f g x y).Sat b st r) :
    ∃ x1 x2 : ℝ, H3.Skew (Rn f) s60 |u| |v| x1 x2 ∧
      ((∃ t, H3.Hex2d (Rn f) s60 third twoThirds u v t ∧ r = castIJK p t) ∨
        (((1 ≤ x1 ∧ x1 < 2) ∨ (1 ≤ x2 ∧ x2 < 2)) ∧ ∃ (m1 m2 i j : ℤ) (sx sy : Bool), x.sign = B sx ∧ y.sign = B sy ∧
          (m1 = ⌊x1⌋ ∨ (1 ≤ x1 ∧ x1 < 2 ∧ m1 = 0)) ∧ (m2 = ⌊x2⌋ ∨ (1 ≤ x2 ∧ x2 < 2 ∧ m2 = 0)) ∧
          H3.Pick (Rn f) third twoThirds x1 x2 m1 m2 i j ∧
          r = castIJK p (H3.ijkNormalize (H3.fold sx sy i j).1 (H3.fold sx sy i j).2 0))) := by
  obtain ⟨x1, x2, m1, m2, i, j, sx, sy, h1, h2, h3, h4, h5, h6, h7⟩ := hex2d_ok (m := .any st) G (.inr hb) K hx hy hu hv r h
  have hx1 : 0 ≤ x1 := by
    obtain ⟨e1, t, e2, e3⟩ := h3
    have := K.sin60_ge
    exact e3.pos (add_nonneg (abs_nonneg _) (e2.pos (div_nonneg (e1.pos (by positivity)) (by norm_num))))
  have hx2 : 0 ≤ x2 := by
    obtain ⟨e1, t, e2, e3⟩ := h3
    have := K.sin60_ge
    exact e1.pos (by positivity)
  refine ⟨x1, x2, h3, ?_⟩
  have e1 : (m1 : ℤ) = ⌊x1⌋ ∨ (1 ≤ x1 ∧ x1 < 2 ∧ (m1:ℤ) = 0) := by
    rcases h4 with rfl | ⟨_, h, h', rfl⟩
    · left; exact natCast_floor_eq_intCast_floor hx1 |> fun h => by exact_mod_cast h
    · right; exact ⟨h, h', rfl⟩
  have e2 : (m2 : ℤ) = ⌊x2⌋ ∨ (1 ≤ x2 ∧ x2 < 2 ∧ (m2:ℤ) = 0) := by
    rcases h5 with rfl | ⟨_, h, h', rfl⟩
    · left; exact natCast_floor_eq_intCast_floor hx2 |> fun h => by exact_mod_cast h
    · right; exact ⟨h, h', rfl⟩
  by_cases hc : (1 ≤ x1 ∧ x1 < 2) ∨ (1 ≤ x2 ∧ x2 < 2)
  · right
    exact ⟨hc, m1, m2, i, j, sx, sy, h1, h2, e1, e2, h6, h7⟩
  · left
    rw [e1.resolve_right (fun h => hc (.inl ⟨h.1, h.2.1⟩)), e2.resolve_right (fun h => hc (.inr ⟨h.1, h.2.1⟩))] at h6
    exact ⟨_, hexcell G K.twoThirds_le hx hy hz h1 h2 h3 h6, h7⟩

/-- **C38** The constants of both packages satisfy the hypotheses. -/
theorem C38_constants : HexConsts p f32 geo32 (Ieee.patternVal ⟨8, 23⟩ geo32.sin60) (Ieee.patternVal ⟨8, 23⟩ geo32.third)
      (Ieee.patternVal ⟨8, 23⟩ geo32.twoThirds) ∧
    HexConsts p f64 geo64 (Ieee.patternVal ⟨11, 52⟩ geo64.sin60) (Ieee.patternVal ⟨11, 52⟩ geo64.third)
      (Ieee.patternVal ⟨11, 52⟩ geo64.twoThirds) := ⟨hexConsts32, hexConsts64⟩

/-- `(3.25, -5.5)`: hexagon `(6, 0, 6)`. -/
example : (hex2dToCoordIJK f32 geo32 (w32 0x40500000) (w32 0xc0b00000)).run 8 = some (castIJK bn254 (6, 0, 6)) := by decide +kernel

theorem num_w32 {v : ℕ} (hv : v < 2 ^ 32) {neg : Bool} {num den : ℕ} (h : exactBits 8 23 neg num den v = true) {x : ℝ}
    (hx : Ieee.signed neg (num / den) = x) : Num f32 (w32 v) x := by
  refine ⟨neg, _, ?_, hx⟩
  have := w32_encodes hv
  rwa [exactBits_decode h] at this

/-- The hypotheses of `C38_hex_sound_partial` are met by `(3.25, -5.5)` at width 8. -/
example : Num f32 (w32 0x40500000) (13 / 4) ∧ Num f32 (w32 0xc0b00000) (-(11 / 2)) ∧ NoNegZero (w32 0x40500000) (13 / 4) ∧ 8 ∣ f32.pow2Size :=
  ⟨num_w32 (num := 13) (den := 4) (neg := false) (by decide) (by decide +kernel) (by simp [Ieee.signed]),
    num_w32 (num := 11) (den := 2) (neg := true) (by decide) (by decide +kernel) (by simp [Ieee.signed]), fun h => by norm_num at h, by decide⟩

/-- **C38** (violated) A prover can have another cell accepted than H3's: for the point `(1.75, 0)`, whose cell is `(2, 0, 0)` for H3 and the honest
prover, the cell `(1, 0, 0)` is accepted as well, by answering `Floor(1.75) = 0` (C26). -/
theorem C38_cell_forgeable (st : Bool) :
    (hex2dToCoordIJK f32 geo32 (w32 0x3fe00000) (w32 0)).Sat 8 st (castIJK bn254 (1, 0, 0)) ∧
    Num f32 (w32 0x3fe00000) (7 / 4) ∧ Num f32 (w32 0) 0 ∧
    ∀ t, H3.Hex2d (Rn f32) (Ieee.patternVal ⟨8, 23⟩ geo32.sin60) (Ieee.patternVal ⟨8, 23⟩ geo32.third) (Ieee.patternVal ⟨8, 23⟩ geo32.twoThirds)
      (7 / 4) 0 t → castIJK bn254 t = castIJK bn254 (2, 0, 0) := by
  have hx : Num f32 (w32 0x3fe00000) (7 / 4) :=
    num_w32 (num := 7) (den := 4) (neg := false) (by decide) (by decide +kernel) (by simp [Ieee.signed])
  have hy : Num f32 (w32 0) 0 := by
    refine ⟨false, 0, ?_, by simp [Ieee.signed]⟩
    have := w32_encodes (v := 0) (by decide)
    rwa [show Ieee.decodeBits ⟨8, 23⟩ 0 = .fin false 0 by simp [Ieee.decodeBits]] at this
  refine ⟨Circ.sat_of_forge (vs := cheat 42 0) (by decide +kernel), hx, hy, fun t ht => ?_⟩
  obtain ⟨t', h1, h2⟩ := C38_hex_complete good8 (hexConsts32 (p := bn254)) hx hy (fun h => by norm_num at h)
    (by rw [abs_of_pos] <;> norm_num) (by norm_num)
  have e := H3.Hex2d.unique (rn := Rn f32) (fun _ _ _ h h' => Ieee.Rounds.unique h h') ht h1
  rw [e]
  have h3 : (hex2dToCoordIJK f32 geo32 (w32 0x3fe00000) (w32 0)).run 8 = some (castIJK bn254 (2, 0, 0)) := by decide +kernel
  rw [h2, Option.some.injEq] at h3
  exact h3

/-- **C38** (violated for negative zero) The code looks at the sign bit where H3 compares with zero: the points `(-0, sin60)` and `(+0, sin60)`,
equal for H3, get different cells. -/
theorem C38_negative_zero_differs :
    (hex2dToCoordIJK f32 geo32 (w32 0x80000000) (w32 0x3f5db3d7)).run 8 = some (castIJK bn254 (0, 1, 0)) ∧
    (hex2dToCoordIJK f32 geo32 (w32 0x00000000) (w32 0x3f5db3d7)).run 8 = some (castIJK bn254 (1, 1, 0)) ∧
    Num f32 (w32 0x80000000) 0 ∧ Num f32 (w32 0x00000000) 0 := by
  refine ⟨by decide +kernel, by decide +kernel, ?_, ?_⟩
  · refine ⟨true, 0, ?_, by simp [Ieee.signed]⟩
    have := w32_encodes (v := 0x80000000) (by decide)
    rwa [show Ieee.decodeBits ⟨8, 23⟩ 0x80000000 = .fin true 0 by
      unfold Ieee.decodeBits; simp only
      rw [show Nat.testBit 0x80000000 (8 + 23) = true by decide]; norm_num] at this
  · refine ⟨false, 0, ?_, by simp [Ieee.signed]⟩
    have := w32_encodes (v := 0) (by decide)
    rwa [show Ieee.decodeBits ⟨8, 23⟩ 0 = .fin false 0 by simp [Ieee.decodeBits]] at this

end ZkLoc
