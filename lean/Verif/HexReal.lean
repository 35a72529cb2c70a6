import Verif.Prover

/-!
# Helper lemmas: `hex2dToCoordIJK` follows H3's quadrant logic
-/

namespace ZkLoc

variable {p : ℕ} [Fact p.Prime] {b : ℕ} {f : Fmt} {m : Prover} {g : GeoConsts}

/-- The constants of the quadrant logic encode these numbers. -/
structure HexConsts (p : ℕ) (f : Fmt) (g : GeoConsts) (s60 third' twoThirds' : ℝ) : Prop where
  half : Num f (newConstant f g.half : FloatVar p) (1 / 2)
  one : Num f (newConstant f g.one : FloatVar p) 1
  two : Num f (newConstant f g.two : FloatVar p) 2
  third : Num f (newConstant f g.third : FloatVar p) third'
  twoThirds : Num f (newConstant f g.twoThirds : FloatVar p) twoThirds'
  sin60 : Num f (newConstant f g.sin60 : FloatVar p) s60
  sin60_ge : 1 / 2 ≤ s60
  twoThirds_le : twoThirds' ≤ 3 / 4

/-- The integral part a prover can use: the floor; an arbitrary prover may use zero for numbers between one and two. -/
def Part (m : Prover) (x : ℝ) (n : ℕ) : Prop := n = ⌊x⌋₊ ∨ (m ≠ .honest ∧ 1 ≤ x ∧ x < 2 ∧ n = 0)

theorem Part.frac {x : ℝ} {n : ℕ} (h : Part m x n) (hx : 0 ≤ x) : 0 ≤ x - n ∧ x - n < 2 := by
  rcases h with rfl | ⟨_, h1, h2, rfl⟩
  · have h1 := Nat.floor_le hx
    have h2 := Nat.lt_floor_add_one x
    constructor <;> linarith
  · push_cast; constructor <;> linarith

theorem Part.le {x : ℝ} {n : ℕ} (h : Part m x n) (hx : 0 ≤ x) : (n : ℝ) ≤ x := by have := h.frac hx; linarith

theorem Rn.nonneg {e w : ℝ} (h : Rn f e w) (he : 0 ≤ e) : 0 ≤ w := h.pos he

theorem cast_ite_nat (c : Bool) (x y : ℕ) : (if c then (x : ZMod p) else (y : ZMod p)) = ((if c then x else y : ℕ) : ZMod p) := by
  cases c <;> rfl

theorem Ok.select_nat (c : Bool) {x y : ZMod p} (u v : ℕ) (hx : x = (u : ZMod p)) (hy : y = (v : ZMod p)) :
    Ok m b (ZkLoc.select (B c) x y) (fun r => r = ((if c then u else v : ℕ) : ZMod p)) :=
  (Ok.select c x y).mono (fun r hr => by rw [hr, hx, hy]; cases c <;> rfl)

theorem quadrantIJ_ok (G : Good p b f) (hm : m.Fits b f) {s60 third twoThirds : ℝ} (K : HexConsts p f g s60 third twoThirds)
    {x y : FloatVar p} {u v : ℝ} (hx : Num f x u) (hy : Num f y v) (hu : |u| ≤ 2 ^ 25) (hv : |v| ≤ 2 ^ 25) :
    Ok m b (quadrantIJ f g x y) (fun r => ∃ (x1 x2 : ℝ) (m1 m2 i j : ℕ), H3.Skew (Rn f) s60 |u| |v| x1 x2 ∧ Part m x1 m1 ∧ Part m x2 m2 ∧
      H3.Pick (Rn f) third twoThirds x1 x2 m1 m2 i j ∧ i ≤ m1 + 1 ∧ j ≤ m2 + 1 ∧ m1 ≤ 2 ^ 26 ∧ m2 ≤ 2 ^ 26 ∧ r = ((i : ZMod p), (j : ZMod p))) := by
  have hbig := big_ge G
  have hsz : 2 ^ 27 ≤ 2 ^ f.pow2Size := Nat.pow_le_pow_right (by norm_num) (by unfold Fmt.pow2Size; have := G.hME; omega)
  have hs60 := K.sin60_ge
  unfold quadrantIJ
  simp only [Circ.bind_eq, Circ.pure_eq]
  have hd : |(|v| / s60)| ≤ 2 ^ 26 := by
    rw [abs_of_nonneg (by positivity), div_le_iff₀ (by linarith)]
    nlinarith
  refine (ok_div G hm hy.abs K.sin60 (by linarith) (by linarith)).bind ?_
  rintro x2 ⟨w2, n2, e2⟩
  have b2 := e2.abs_le_pow G 26 hd
  have p2 : 0 ≤ w2 := e2.pos (by positivity)
  rw [abs_of_nonneg p2] at b2
  have ht : |w2 / 2| ≤ 2 ^ 25 := by rw [abs_of_nonneg (by positivity)]; linarith
  refine (ok_div G hm n2 K.two (by norm_num) (by linarith)).bind ?_
  rintro tmp ⟨wt, nt, et⟩
  have bt := et.abs_le_pow G 25 ht
  have pt : 0 ≤ wt := et.pos (by positivity)
  rw [abs_of_nonneg pt] at bt
  have h1 : |(|u| + wt)| ≤ 2 ^ 26 := by rw [abs_of_nonneg (by positivity)]; linarith
  refine (ok_add G hm hx.abs nt (by rw [abs_abs]; linarith) (by linarith)).bind ?_
  rintro x1 ⟨w1, n1, e1⟩
  have b1 := e1.abs_le_pow G 26 h1
  have p1 : 0 ≤ w1 := e1.pos (by positivity)
  rw [abs_of_nonneg p1] at b1
  refine (ok_floor G hm n1 p1).bind ?_
  rintro fm1 ⟨m1, nm1, hm1⟩
  refine (ok_floor G hm n2 p2).bind ?_
  rintro fm2 ⟨m2, nm2, hm2⟩
  change Part m w1 m1 at hm1
  change Part m w2 m2 at hm2
  have lm1 : m1 ≤ 2 ^ 26 := by
    have := hm1.le p1
    have : (m1:ℝ) ≤ ((2 ^ 26 : ℕ) : ℝ) := by push_cast; linarith
    exact_mod_cast this
  have lm2 : m2 ≤ 2 ^ 26 := by
    have := hm2.le p2
    have : (m2:ℝ) ≤ ((2 ^ 26 : ℕ) : ℝ) := by push_cast; linarith
    exact_mod_cast this
  refine (ok_toInt G hm nm1 (by omega)).bind ?_
  rintro _ rfl
  refine (ok_toInt G hm nm2 (by omega)).bind ?_
  rintro _ rfl
  have f1 := hm1.frac p1
  have f2 := hm2.frac p2
  refine (ok_sub G hm n1 nm1 (by rw [abs_of_nonneg p1]; linarith) (by rw [abs_of_nonneg f1.1]; linarith)).bind ?_
  rintro r1 ⟨v1, nr1, er1⟩
  have q1 : 0 ≤ v1 := er1.pos f1.1
  have c1 := er1.abs_le_pow G 1 (by rw [abs_of_nonneg f1.1]; linarith)
  rw [abs_of_nonneg q1, pow_one] at c1
  refine (ok_sub G hm n2 nm2 (by rw [abs_of_nonneg p2]; linarith) (by rw [abs_of_nonneg f2.1]; linarith)).bind ?_
  rintro r2 ⟨v2, nr2, er2⟩
  have q2 : 0 ≤ v2 := er2.pos f2.1
  have c2 := er2.abs_le_pow G 1 (by rw [abs_of_nonneg f2.1]; linarith)
  rw [abs_of_nonneg q2, pow_one] at c2
  have a1 : |v1| < big f := by rw [abs_of_nonneg q1]; linarith
  refine (ok_add G hm nr1 nr1 a1 (by rw [abs_of_nonneg (by positivity)]; linarith)).bind ?_
  rintro dbl ⟨vd, nd, ed⟩
  rw [← two_mul] at ed
  have cd := ed.abs_le_pow G 2 (by rw [abs_of_nonneg (by positivity)]; linarith)
  have qd : 0 ≤ vd := ed.pos (by positivity)
  rw [abs_of_nonneg qd] at cd
  refine (ok_lt G nr1 K.half).bind ?_
  rintro _ rfl
  refine (ok_lt G nr1 K.third).bind ?_
  rintro _ rfl
  refine (ok_lt G nr1 K.twoThirds).bind ?_
  rintro _ rfl
  refine (ok_sub G hm K.one nr1 (by rw [abs_one]; linarith) (by rw [abs_le]; constructor <;> linarith)).bind ?_
  rintro om ⟨vo, no, eo⟩
  refine (ok_le G no nr2).bind ?_
  rintro _ rfl
  refine (ok_gt G nd nr2).bind ?_
  rintro _ rfl
  refine (ok_sub G hm nd K.one (by rw [abs_of_nonneg qd]; linarith) (by rw [abs_le]; constructor <;> linarith)).bind ?_
  rintro dom ⟨vdo, ndo, edo⟩
  refine (ok_gt G nr2 ndo).bind ?_
  rintro _ rfl
  refine (ok_gt G no nr2).bind ?_
  rintro _ rfl
  have cast1 : ∀ n : ℕ, (n : ZMod p) + 1 = ((n + 1 : ℕ) : ZMod p) := fun n => by push_cast; rfl
  refine (Ok.select_nat _ (m1 + 1) m1 (cast1 _) rfl).bind ?_
  rintro _ rfl
  refine (Ok.select_nat _ _ m1 rfl rfl).bind ?_
  rintro _ rfl
  refine (Ok.select_nat _ m1 _ rfl rfl).bind ?_
  rintro _ rfl
  refine (Ok.select_nat _ m1 (m1 + 1) rfl (cast1 _)).bind ?_
  rintro _ rfl
  refine (Ok.select_nat _ _ (m1 + 1) rfl (cast1 _)).bind ?_
  rintro _ rfl
  refine (Ok.select_nat _ _ (m1 + 1) rfl (cast1 _)).bind ?_
  rintro _ rfl
  refine (Ok.select_nat _ _ _ rfl rfl).bind ?_
  rintro _ rfl
  refine (ok_add G hm nr1 K.one a1 (by rw [abs_of_nonneg (by positivity)]; linarith)).bind ?_
  rintro op ⟨vop, nop, eop⟩
  have cop := eop.abs_le_pow G 2 (by rw [abs_of_nonneg (by positivity)]; linarith)
  rw [add_comm] at eop
  refine (ok_div G hm nop K.two (by norm_num) (by rw [abs_div, abs_two]; linarith)).bind ?_
  rintro pa ⟨vpa, npa, epa⟩
  refine (ok_div G hm nr1 K.two (by norm_num) (by rw [abs_div, abs_two]; linarith)).bind ?_
  rintro pb ⟨vpb, npb, epb⟩
  refine (ok_gt G npa nr2).bind ?_
  rintro _ rfl
  refine (ok_gt G no nr2).bind ?_
  rintro _ rfl
  refine (ok_gt G npb nr2).bind ?_
  rintro _ rfl
  refine (Ok.select_nat _ m2 (m2 + 1) rfl (cast1 _)).bind ?_
  rintro _ rfl
  refine (Ok.select_nat _ m2 (m2 + 1) rfl (cast1 _)).bind ?_
  rintro _ rfl
  refine (Ok.select_nat _ _ _ rfl rfl).bind ?_
  rintro _ rfl
  refine (Ok.select_nat _ m2 (m2 + 1) rfl (cast1 _)).bind ?_
  rintro _ rfl
  refine (Ok.select_nat _ m2 (m2 + 1) rfl (cast1 _)).bind ?_
  rintro _ rfl
  refine (Ok.select_nat _ _ _ rfl rfl).bind ?_
  rintro _ rfl
  refine (Ok.select_nat _ _ _ rfl rfl).bind ?_
  rintro _ rfl
  refine .pure ⟨w1, w2, m1, m2, _, _, ⟨e2, wt, et, e1⟩, hm1, hm2, ⟨v1, v2, vd, vdo, vo, vop, vpa, vpb, ?_, ?_, ed, edo, eo, eop, epa, epb,
    ?_, ?_, ?_, ?_⟩, ?_, ?_, lm1, lm2, rfl⟩
  · simpa using er1
  · simpa using er2
  · intro h1 h2
    simp only [decide_eq_true_eq, if_pos h1, if_pos h2, true_and]
    constructor <;> intro h3
    · rw [if_pos h3]
    · rw [if_neg (not_lt.2 h3)]; push_cast; rfl
  · intro h1 h2
    simp only [decide_eq_true_eq, if_pos h1, if_neg (not_lt.2 h2)]
    refine ⟨fun h3 => ?_, fun h3 => ?_, fun h3 => ?_, fun h3 => ?_⟩
    · rw [if_pos h3]
    · rw [if_neg (not_lt.2 h3)]; push_cast; rfl
    · rw [if_pos h3.1, if_pos h3.2]; push_cast; rfl
    · by_cases h4 : vo ≤ v2
      · rw [if_pos h4, if_neg (fun h5 => h3 ⟨h4, h5⟩)]
      · rw [if_neg h4]
  · intro h1 h2
    simp only [decide_eq_true_eq, if_neg (not_lt.2 h1), if_pos h2]
    refine ⟨fun h3 => ?_, fun h3 => ?_, fun h3 => ?_, fun h3 => ?_⟩
    · rw [if_pos h3]
    · rw [if_neg (not_lt.2 h3)]; push_cast; rfl
    · rw [if_pos h3.1, if_pos h3.2]
    · by_cases h4 : vdo < v2
      · rw [if_pos h4, if_neg (fun h5 => h3 ⟨h4, h5⟩)]; push_cast; rfl
      · rw [if_neg h4]; push_cast; rfl
  · intro h1 h2
    simp only [decide_eq_true_eq, if_neg (not_lt.2 h1), if_neg (not_lt.2 h2)]
    refine ⟨by push_cast; rfl, fun h3 => ?_, fun h3 => ?_⟩
    · rw [if_pos h3]
    · rw [if_neg (not_lt.2 h3)]; push_cast; rfl
  · split_ifs <;> omega
  · split_ifs <;> omega

/-- The sign wire of a float. -/
theorem Num.sign {x : FloatVar p} {v : ℝ} (h : Num f x v) : ∃ s : Bool, x.sign = B s ∧ (v < 0 → s = true) ∧ (0 < v → s = false) := by
  obtain ⟨s, a, h1, h2⟩ := h
  have h0 := encodes_nonneg h1
  obtain ⟨x, hx, hd, rfl⟩ := encodes_iff.1 h1
  obtain ⟨_, rfl, _⟩ := datum_fin_iff.1 hd
  refine ⟨x.sign, rfl, fun h => ?_, fun h => ?_⟩
  · by_contra hs
    simp only [Bool.not_eq_true] at hs
    rw [hs] at h2
    simp [Ieee.signed] at h2; linarith
  · by_contra hs
    simp only [Bool.not_eq_false] at hs
    rw [hs] at h2
    simp [Ieee.signed] at h2; linarith

theorem foldNormalize_ok (hb : Width b) (hp : 2 ^ (32 + 18) ≤ p) {sx sy : Bool} {i j : ℕ} (hs : i + j < 2 ^ 29) :
    Ok m b (foldNormalize (B sx) (B sy) (i : ZMod p) (j : ZMod p)) (fun r =>
      r = (((H3.ijkNormalize (H3.fold sx sy i j).1 (H3.fold sx sy i j).2 0).1 : ZMod p),
      ((H3.ijkNormalize (H3.fold sx sy i j).1 (H3.fold sx sy i j).2 0).2.1 : ZMod p),
      ((H3.ijkNormalize (H3.fold sx sy i j).1 (H3.fold sx sy i j).2 0).2.2 : ZMod p))) := by
  have hsat : ∀ {st r}, (foldNormalize (B sx) (B sy) (i : ZMod p) (j : ZMod p)).Sat b st r → _ := fun {st r} h => by
    have hp' : 8 * ((i:ℤ) + j) + 2 ^ 48 ≤ p := by
      have : (2:ℤ) ^ 50 ≤ p := by exact_mod_cast hp
      omega
    have h' : (foldNormalize (B sx) (B sy) ((i:ℤ) : ZMod p) ((j:ℤ) : ZMod p)).Sat b st r := by simpa using h
    exact foldNormalize_sat hb (by omega) (by omega) hp' h'
  cases m with
  | honest =>
    obtain ⟨r, h⟩ := foldNormalize_run (p := p) hb (sx := sx) (sy := sy) (i := i) (j := j) (by omega) (by omega) hp (by omega)
    have h' : (foldNormalize (B sx) (B sy) (i : ZMod p) (j : ZMod p)).run b = some r := by simpa using h
    exact ⟨r, h', hsat (Circ.sat_of_run (st := true) _ _ h')⟩
  | any st => exact fun r hr => hsat hr

/-- `hex2dToCoordIJK` for a prover. -/
theorem hex2d_ok (G : Good p b f) (hm : m.Fits b f) {s60 third twoThirds : ℝ} (K : HexConsts p f g s60 third twoThirds)
    {x y : FloatVar p} {u v : ℝ} (hx : Num f x u) (hy : Num f y v) (hu : |u| ≤ 2 ^ 25) (hv : |v| ≤ 2 ^ 25) :
    Ok m b (hex2dToCoordIJK f g x y) (fun r => ∃ (x1 x2 : ℝ) (m1 m2 i j : ℕ) (sx sy : Bool), x.sign = B sx ∧ y.sign = B sy ∧
      H3.Skew (Rn f) s60 |u| |v| x1 x2 ∧ Part m x1 m1 ∧ Part m x2 m2 ∧ H3.Pick (Rn f) third twoThirds x1 x2 m1 m2 i j ∧
      r = (((H3.ijkNormalize (H3.fold sx sy i j).1 (H3.fold sx sy i j).2 0).1 : ZMod p),
      ((H3.ijkNormalize (H3.fold sx sy i j).1 (H3.fold sx sy i j).2 0).2.1 : ZMod p),
      ((H3.ijkNormalize (H3.fold sx sy i j).1 (H3.fold sx sy i j).2 0).2.2 : ZMod p))) := by
  obtain ⟨sx, hsx, _⟩ := hx.sign
  obtain ⟨sy, hsy, _⟩ := hy.sign
  rw [hex2dToCoordIJK_eq, hsx, hsy]
  refine (quadrantIJ_ok G hm K hx hy hu hv).bind ?_
  rintro _ ⟨x1, x2, m1, m2, i, j, h1, h2, h3, h4, h5, h6, h7, h8, rfl⟩
  refine (foldNormalize_ok (p := p) (i := i) (j := j) G.width (G.pow_le (by have := G.hME; have := G.hEM; omega)) (by omega)).mono ?_
  rintro r hr
  exact ⟨x1, x2, m1, m2, i, j, sx, sy, rfl, rfl, h1, h2, h3, h4, hr⟩

theorem hexConsts32 : HexConsts p f32 geo32 (Ieee.patternVal ⟨8, 23⟩ geo32.sin60) (Ieee.patternVal ⟨8, 23⟩ geo32.third)
    (Ieee.patternVal ⟨8, 23⟩ geo32.twoThirds) where
  half := num_exact (E := 8) (M := 23) (neg := false) (num := 1) (den := 2) (by norm_num) (by norm_num) (by decide) (by decide +kernel) (by simp [Ieee.signed])
  one := num_exact (E := 8) (M := 23) (neg := false) (num := 1) (den := 1) (by norm_num) (by norm_num) (by decide) (by decide +kernel) (by simp [Ieee.signed])
  two := num_exact (E := 8) (M := 23) (neg := false) (num := 2) (den := 1) (by norm_num) (by norm_num) (by decide) (by decide +kernel) (by simp [Ieee.signed])
  third := num_const (f := f32) (by decide) (by decide) (by decide) (by decide)
  twoThirds := num_const (f := f32) (by decide) (by decide) (by decide) (by decide)
  sin60 := num_const (f := f32) (by decide) (by decide) (by decide) (by decide)
  sin60_ge := by
    rw [patternVal_exact (neg := false) (num := 0xddb3d7) (den := 2 ^ 24) (by decide +kernel)]
    simp only [Ieee.signed]; norm_num
  twoThirds_le := by
    rw [patternVal_exact (neg := false) (num := 0xaaaaab) (den := 2 ^ 24) (by decide +kernel)]
    simp only [Ieee.signed]; norm_num

theorem hexConsts64 : HexConsts p f64 geo64 (Ieee.patternVal ⟨11, 52⟩ geo64.sin60) (Ieee.patternVal ⟨11, 52⟩ geo64.third)
    (Ieee.patternVal ⟨11, 52⟩ geo64.twoThirds) where
  half := num_exact (E := 11) (M := 52) (neg := false) (num := 1) (den := 2) (by norm_num) (by norm_num) (by decide) (by decide +kernel) (by simp [Ieee.signed])
  one := num_exact (E := 11) (M := 52) (neg := false) (num := 1) (den := 1) (by norm_num) (by norm_num) (by decide) (by decide +kernel) (by simp [Ieee.signed])
  two := num_exact (E := 11) (M := 52) (neg := false) (num := 2) (den := 1) (by norm_num) (by norm_num) (by decide) (by decide +kernel) (by simp [Ieee.signed])
  third := num_const (f := f64) (by decide) (by decide) (by decide) (by decide)
  twoThirds := num_const (f := f64) (by decide) (by decide) (by decide) (by decide)
  sin60 := num_const (f := f64) (by decide) (by decide) (by decide) (by decide)
  sin60_ge := by
    rw [patternVal_exact (neg := false) (num := 0x1bb67ae8584caa) (den := 2 ^ 53) (by decide +kernel)]
    simp only [Ieee.signed]; norm_num
  twoThirds_le := by
    rw [patternVal_exact (neg := false) (num := 0x15555555555555) (den := 2 ^ 53) (by decide +kernel)]
    simp only [Ieee.signed]; norm_num

theorem Rn.ge {e w q : ℝ} (h : Rn f e w) (hq : Ieee.Representable ⟨f.E, f.M⟩ q) (he : q ≤ e) : q ≤ w := by
  have h0 := hq.nonneg
  have h1 := h.rne
  rw [abs_of_nonneg (by linarith), abs_of_nonneg (h.pos (by linarith))] at h1
  exact h1.ge_of_ge hq he

theorem quarterRepr (G : Good p b f) : Ieee.Representable ⟨f.E, f.M⟩ (1 / 4) := by
  refine ⟨1, -2, Nat.one_lt_two_pow (by simp), ?_, by norm_num⟩
  unfold Ieee.Format.qmin Ieee.Format.emin Ieee.Format.bias
  have h1 : (2:ℤ) ^ 3 ≤ 2 ^ (f.E - 1) := pow_le_pow_right₀ (by norm_num) (by have := G.hE; omega)
  simp only
  omega

theorem Rn.of_zero {w : ℝ} (h : Rn f 0 w) : w = 0 := h.unique .zero

/-- With second coordinate zero the sign of `y` does not matter. -/
theorem pick_zero (G : Good p b f) {s60 third twoThirds a x1 x2 : ℝ} {m1 i j : ℤ} (hs : H3.Skew (Rn f) s60 a 0 x1 x2) (ht : twoThirds ≤ 3 / 4)
    (hm1 : (m1:ℝ) ≤ x1) (h : H3.Pick (Rn f) third twoThirds x1 x2 m1 ⌊x2⌋ i j) : j = 0 := by
  obtain ⟨h1, _⟩ := hs
  rw [zero_div] at h1
  obtain rfl := h1.of_zero
  rw [Int.floor_zero] at h
  obtain ⟨r1, r2, d, dm, om, op, ho, ha, e1, e2, e3, e4, e5, e6, e7, e8, b1, b2, b3, b4⟩ := h
  rw [Int.cast_zero, sub_zero] at e2
  obtain rfl := e2.of_zero
  have hq := quarterRepr G
  rcases lt_or_ge r1 (1 / 2) with c1 | c1
  · rcases lt_or_ge r1 third with c2 | c2
    · refine (b1 c1 c2).2.1 ?_
      have h0 : 0 ≤ r1 := e1.pos (by linarith)
      have h3 := e6.ge (by simpa using powRepr G 0) (q := 1) (by linarith)
      have := e7.ge hq (by linarith)
      linarith
    · refine (b2 c1 c2).1 ?_
      have := e5.ge hq (by linarith)
      linarith
  · rcases lt_or_ge r1 twoThirds with c2 | c2
    · refine (b3 c1 c2).1 ?_
      have := e5.ge hq (by linarith)
      linarith
    · refine (b4 c1 c2).2.1 ?_
      have := e8.ge hq (by linarith)
      linarith

end ZkLoc
