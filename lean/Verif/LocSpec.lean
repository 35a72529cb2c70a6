import Verif.LocNear
import Verif.ScaleSpec

/-!
# Helper lemmas: radius and plane point of the location circuits
-/

namespace ZkLoc

variable {p : ℕ} [Fact p.Prime] {b : ℕ} {f : Fmt} {m : Prover} {g : GeoConsts}

/-- What is used of the constants of a location circuit. -/
structure CellConsts (p : ℕ) [Fact p.Prime] (f : Fmt) (g : GeoConsts) : Prop where
  table : FaceTable p f g
  unit : ∀ c ∈ g.faces, FaceUnit p f c
  near : List.Forall₂ (FaceNear f (5 * ulpHalf f)) g.faces H3.faceGeo
  hex : ∃ s60 third twoThirds, HexConsts p f g s60 third twoThirds ∧ |s60 - Real.sqrt 3 / 2| ≤ ulpHalf f ∧ |third - 1 / 3| ≤ ulpHalf f ∧
    |twoThirds - 2 / 3| ≤ ulpHalf f
  scale : ∃ q0 q1 q2 q3, ScaleConsts p f g q0 q1 q2 q3 ∧
    ∀ n < 16, ∀ μ, H3.ScaleLoop (Rn f) (H3.bitsOf 4 n) [q0, q1, q2, q3] 1 μ → |μ - Real.sqrt 7 ^ n| ≤ 16 * ulpHalf f * Real.sqrt 7 ^ n
  two : Num f (newConstant f g.two : FloatVar p) 2
  four : Num f (newConstant f g.four : FloatVar p) 4
  res : ∃ rc, Num f (newConstant f g.resConst : FloatVar p) rc ∧ |rc - H3.res0| ≤ ulpHalf f
  fine : Fine f
  size : (f.pow2Size : ℤ) ≤ 2 ^ (f.E - 1)

theorem sqrt7_le {n : ℕ} (hn : n < 16) : 1 ≤ Real.sqrt 7 ^ n ∧ Real.sqrt 7 ^ n ≤ 2 ^ 22 := by
  have h1 : 1 ≤ Real.sqrt 7 := Real.le_sqrt_of_sq_le (by norm_num)
  have h2 : Real.sqrt 7 ≤ 2.65 := Real.sqrt_le_iff.2 ⟨by norm_num, by norm_num⟩
  refine ⟨one_le_pow₀ h1, ?_⟩
  calc Real.sqrt 7 ^ n ≤ Real.sqrt 7 ^ 15 := pow_le_pow_right₀ h1 (by omega)
    _ ≤ 2.65 ^ 15 := pow_le_pow_left₀ (by linarith) h2 15
    _ ≤ 2 ^ 22 := by norm_num

/-- `calculateR`. -/
theorem calculateR_ok (G : Good p b f) (hm : m.Fits b f) (K : CellConsts p f g) {s : FloatVar p} {d : ℝ} (hd : Num f s d) (h0 : 0 ≤ d) (h1 : d ≤ 0.95)
    {res : ZMod p} (hres : m = .honest → res.val < 16) :
    Ok m b (calculateR f g s res) (fun r => ∃ n : ℕ, n < 16 ∧ res = (n : ZMod p) ∧ ∃ w, Num f r w ∧
      |w - Real.sqrt 7 ^ n * (gno d / H3.res0)| ≤ 120 * ulpHalf f * Real.sqrt 7 ^ n) := by
  have hbig := big_ge G
  have hu := K.fine.hu
  have u0 := ulpHalf_pos (f := f)
  have hη := K.fine.eta_le
  obtain ⟨rc, nrc, erc⟩ := K.res
  obtain ⟨q0, q1, q2, q3, KS, acc⟩ := K.scale
  obtain ⟨c1, c2⟩ := res0_bounds
  obtain ⟨g1, g2, g3⟩ := gno_le h0 h1
  have h1R : Ieee.Representable ⟨f.E, f.M⟩ 1 := by simpa using powRepr G 0
  have h1' := h1
  norm_num at h1 hbig hu hη c1 c2 g3
  unfold calculateR
  simp only [Circ.bind_eq]
  refine (ok_sub G hm K.four hd (by norm_num; linarith) (by rw [abs_of_nonneg (by linarith)]; linarith)).bind ?_
  rintro x1 ⟨a, na, ra⟩
  have a0 : 0 ≤ a := ra.pos (by linarith)
  have a1 : a ≤ 4 := by
    have := ra.abs_le_pow G 2 (by rw [abs_of_nonneg (by linarith)]; linarith)
    rw [abs_of_nonneg a0] at this; linarith
  have had : a * d ≤ 4 := by nlinarith
  refine (ok_mul G hm na hd (by rw [abs_of_nonneg (by positivity)]; linarith)).bind ?_
  rintro x2 ⟨n, nn, rn⟩
  have n0 : 0 ≤ n := rn.pos (by positivity)
  have n1 : n ≤ 4 := by
    have := rn.abs_le_pow G 2 (by rw [abs_of_nonneg (by positivity)]; linarith)
    rw [abs_of_nonneg n0] at this; linarith
  refine (ok_sub G hm K.two hd (by norm_num; linarith) (by rw [abs_of_nonneg (by linarith)]; linarith)).bind ?_
  rintro x3 ⟨e, ne, re⟩
  have e1 : 1 ≤ e := re.ge h1R (by linarith)
  refine (ok_sqrt G hm nn n0 (by linarith)).bind ?_
  rintro x4 ⟨t, nt, rt⟩
  have t0 : 0 ≤ t := rt.pos (Real.sqrt_nonneg _)
  have t1 : t ≤ 2 := by
    have : Real.sqrt n ≤ 2 := Real.sqrt_le_iff.2 ⟨by norm_num, by linarith⟩
    have := rt.abs_le_pow G 1 (by rw [abs_of_nonneg (Real.sqrt_nonneg _)]; linarith)
    rw [abs_of_nonneg t0] at this; linarith
  have hte : t / e ≤ 2 := by rw [div_le_iff₀ (by linarith)]; linarith
  refine (ok_div G hm nt ne (by linarith) (by rw [abs_of_nonneg (by positivity)]; linarith)).bind ?_
  rintro x5 ⟨q, nq, rq⟩
  have q0' : 0 ≤ q := rq.pos (by positivity)
  have q1' : q ≤ 2 := by
    have := rq.abs_le_pow G 1 (by rw [abs_of_nonneg (by positivity)]; linarith)
    rw [abs_of_nonneg q0'] at this; linarith
  have rc1 : 0.38 ≤ rc := by have := (abs_le.1 erc).1; linarith
  have hqr : q / rc ≤ 8 := by rw [div_le_iff₀ (by linarith)]; linarith
  refine (ok_div G hm nq nrc (by linarith) (by rw [abs_of_nonneg (by positivity)]; linarith)).bind ?_
  rintro x6 ⟨r0, nr, rr⟩
  have hr0 : |r0| ≤ 2 ^ 6 := by
    have := rr.abs_le_pow G 3 (by rw [abs_of_nonneg (by positivity)]; linarith)
    linarith
  refine (scaleR_ok G hm KS nr hr0 hres).mono ?_
  rintro x7 ⟨k, hk, hres', μ, w, _, _, hl, rw', nw⟩
  refine ⟨k, hk, hres', w, nw, ?_⟩
  have hg : gno d / H3.res0 ≤ 4.27 := by
    rw [div_le_iff₀ (by linarith)]
    norm_num
    linarith
  exact scaled_err K.fine (div_nonneg g2 (by linarith)) hg (radius_err K.fine h0 h1' ra rn re e1 rt rq erc rr) (sqrt7_le hk).1 (acc k hk μ hl) rw'

theorem num_near {x : FloatVar p} {a A ε : ℝ} (h : Num f x a) (h' : |a - A| ≤ ε) : Near f x A ε := ⟨a, h, h'⟩

/-- The face `c` of the table is the face `F`. -/
structure Same (p : ℕ) (f : Fmt) (τ : ℝ) (c : Face) (F : H3.FaceGeo) : Prop where
  unit : FaceUnit p f c
  near : FaceNear f τ c F

theorem H3.north_le (F : H3.FaceGeo) (φ l : ℝ) : |H3.north F φ l| ≤ 1 := by
  refine abs_le_of_sq_le_sq ?_ zero_le_one
  nlinarith [H3.frame_norm F φ l, sq_nonneg (H3.east F φ l), sq_nonneg (H3.up F φ l)]

theorem H3.east_le (F : H3.FaceGeo) (φ l : ℝ) : |H3.east F φ l| ≤ 1 := by
  refine abs_le_of_sq_le_sq ?_ zero_le_one
  nlinarith [H3.frame_norm F φ l, sq_nonneg (H3.north F φ l), sq_nonneg (H3.up F φ l)]

theorem head_bit {n : ℕ} (hn : n < 16) : ((H3.bitsOf 4 n).map (fun c => (B c : ZMod p))).headD 0 = B (decide (n % 2 = 1)) := by
  interval_cases n <;> rfl

/-- What `calculateHex2d` yields: the plane point with an error, or abnormal numbers near the face centre. -/
def PlaneOr (f : Fmt) (τ : ℝ) (F : H3.FaceGeo) (n : ℕ) (φ l : ℝ) (uv : FloatVar p × FloatVar p) : Prop :=
  (∃ u v, Num f uv.1 u ∧ Num f uv.2 v ∧ |u - (H3.plane F n φ l).1| ≤ 480 * τ * Real.sqrt 7 ^ n ∧ |v - (H3.plane F n φ l).2| ≤ 480 * τ * Real.sqrt 7 ^ n ∧
    |u| ≤ 8 * Real.sqrt 7 ^ n ∧ |v| ≤ 8 * Real.sqrt 7 ^ n) ∨
  (H3.north F φ l ^ 2 + H3.east F φ l ^ 2 ≤ (15 * τ) ^ 2 ∧ Abn f uv.1 ∧ Abn f uv.2)

set_option maxHeartbeats 1000000 in
theorem calculateHex2d_ok (G : Good p b f) (hm : m.Fits b f) (H : Fine f) {τ : ℝ} (hτ : Unit' f τ) {φ l : ℝ} {sinLat cosLat sinLng cosLng : FloatVar p}
    (h1 : Near f sinLat (Real.sin φ) τ) (h2 : Near f cosLat (Real.cos φ) τ) (h3 : Near f sinLng (Real.sin l) τ) (h4 : Near f cosLng (Real.cos l) τ)
    {c : Face} {F : H3.FaceGeo} (hc : Same p f τ c F) {d r : FloatVar p} {R : ℝ} {n : ℕ} (hn : n < 16) (hr : Num f r R)
    (hW : 0.54 ≤ H3.up F φ l)
    (hR : |R - Real.sqrt 7 ^ n * (Real.sqrt (H3.north F φ l ^ 2 + H3.east F φ l ^ 2) / H3.up F φ l / H3.res0)| ≤ 131 * τ * Real.sqrt 7 ^ n) :
    Ok m b (calculateHex2d f sinLat cosLat sinLng cosLng (faceData f c d) r (n : ZMod p)) (PlaneOr f τ F n φ l) := by
  have hbig := big_ge G
  have τ0 := hτ.pos
  have hτ1 := hτ.ge
  have hτ2 := hτ.le
  have u0 := ulpHalf_pos (f := f)
  have hp : 2 ^ 4 ≤ p := (Nat.pow_le_pow_right (by norm_num) (by omega)).trans G.hp
  have hval : ((n : ℕ) : ZMod p).val = n := ZMod.val_natCast_of_lt (by omega)
  obtain ⟨T1, T2⟩ := sqrt7_le hn
  obtain ⟨c1, c2⟩ := res0_bounds
  have aF := Real.abs_sin_le_one
  have aC := Real.abs_cos_le_one
  have hN := H3.north_le F φ l
  have hE := H3.east_le F φ l
  have hfr := H3.frame_norm F φ l
  have hsd : |Real.sin l * Real.cos F.lng - Real.cos l * Real.sin F.lng| ≤ 1 := by rw [← Real.sin_sub]; exact aF _
  have hcd : |Real.cos l * Real.cos F.lng + Real.sin l * Real.sin F.lng| ≤ 1 := by rw [← Real.cos_sub]; exact aC _
  have mul1 : ∀ {a c : ℝ}, |a| ≤ 1 → |c| ≤ 1 → |a * c| ≤ 1 := by
    intro a c ha hc; rw [abs_mul]; exact mul_le_one₀ ha (abs_nonneg _) hc
  unfold calculateHex2d
  simp only [Circ.bind_eq, Circ.pure_eq, faceData]
  refine (toBinary_ok (n : ZMod p) 4 hp (fun _ => by rw [hval]; omega)).bind ?_
  rintro _ ⟨-, rfl⟩
  rw [hval, head_bit hn]
  have k1 : Near f (newConstant f c.cosLng : FloatVar p) (Real.cos F.lng) τ := num_near hc.unit.cosLng.1 hc.near.cosLng
  have k2 : Near f (newConstant f c.sinLng : FloatVar p) (Real.sin F.lng) τ := num_near hc.unit.sinLng.1 hc.near.sinLng
  have k3 : Near f (newConstant f c.cosLat : FloatVar p) (Real.cos F.lat) τ := num_near hc.unit.cosLat.1 hc.near.cosLat
  have k4 : Near f (newConstant f c.sinLat : FloatVar p) (Real.sin F.lat) τ := num_near hc.unit.sinLat.1 hc.near.sinLat
  refine (near_mul G hm H hτ h3 k1 (aF _) (aC _) (by linarith) (by linarith) (δ := 2.25 * τ) (by linarith)).bind ?_
  intro m1 hm1
  refine (near_mul G hm H hτ h4 k2 (aC _) (aF _) (by linarith) (by linarith) (δ := 2.25 * τ) (by linarith)).bind ?_
  intro m2 hm2
  refine (near_sub G hm H hτ hm1 hm2 (mul1 (aF _) (aC _)) (mul1 (aC _) (aF _)) (by linarith) (by linarith) (δ := 5 * τ) (by linarith)).bind ?_
  intro s1 hs1
  refine (near_mul G hm H hτ h2 hs1 (aC _) hsd (by linarith) (by linarith) (δ := 8 * τ) (by linarith)).bind ?_
  rintro y ⟨Y, nY, eY⟩
  refine (near_mul G hm H hτ k3 h1 (aC _) (aF _) (by linarith) (by linarith) (δ := 2.25 * τ) (by linarith)).bind ?_
  intro m3 hm3
  refine (near_mul G hm H hτ k4 h2 (aF _) (aC _) (by linarith) (by linarith) (δ := 2.25 * τ) (by linarith)).bind ?_
  intro m4 hm4
  refine (near_mul G hm H hτ h4 k1 (aC _) (aC _) (by linarith) (by linarith) (δ := 2.25 * τ) (by linarith)).bind ?_
  intro m5 hm5
  refine (near_mul G hm H hτ h3 k2 (aF _) (aF _) (by linarith) (by linarith) (δ := 2.25 * τ) (by linarith)).bind ?_
  intro m6 hm6
  refine (near_add G hm H hτ hm5 hm6 (mul1 (aC _) (aC _)) (mul1 (aF _) (aF _)) (by linarith) (by linarith) (δ := 5 * τ) (by linarith)).bind ?_
  intro a1 ha1
  refine (near_mul G hm H hτ hm4 ha1 (mul1 (aF _) (aC _)) hcd (by linarith) (by linarith) (δ := 7.5 * τ) (by linarith)).bind ?_
  intro m7 hm7
  refine (near_sub G hm H hτ hm3 hm7 (mul1 (aC _) (aF _)) (mul1 (mul1 (aF _) (aC _)) hcd) (by linarith) (by linarith) (δ := 12 * τ) (by linarith)).bind ?_
  rintro x ⟨X, nX, eX⟩
  change |X - H3.north F φ l| ≤ _ at eX
  change |Y - H3.east F φ l| ≤ _ at eY
  have hplane := H3.plane_eq F n φ l
  -- the axis
  obtain ⟨sA, cA, nsA, ncA, esA, ecA⟩ : ∃ sA cA : ℝ, Num f (if decide (n % 2 = 1) then newConstant f c.sinAzRot else newConstant f c.sinAz : FloatVar p) sA ∧
      Num f (if decide (n % 2 = 1) then newConstant f c.cosAzRot else newConstant f c.cosAz : FloatVar p) cA ∧
      |sA - Real.sin (H3.axis F n)| ≤ τ ∧ |cA - Real.cos (H3.axis F n)| ≤ τ := by
    unfold H3.axis
    by_cases h : n % 2 = 1
    · simp only [h, decide_true, if_true]
      exact ⟨_, _, hc.unit.sinAzRot.1, hc.unit.cosAzRot.1, hc.near.sinAzRot, hc.near.cosAzRot⟩
    · simp only [h, decide_false, if_false, sub_zero, Bool.false_eq_true]
      exact ⟨_, _, hc.unit.sinAz.1, hc.unit.cosAz.1, hc.near.sinAz, hc.near.cosAz⟩
  have sA1 := aF (H3.axis F n)
  have cA1 := aC (H3.axis F n)
  have sc := Real.sin_sq_add_cos_sq (H3.axis F n)
  generalize Real.sin (H3.axis F n) = S at *
  generalize Real.cos (H3.axis F n) = Cc at *
  refine (Ok.fSelect _ _ _).bind ?_
  rintro _ rfl
  refine (Ok.fSelect _ _ _).bind ?_
  rintro _ rfl
  unfold PlaneOr
  rw [hplane]
  clear hplane hm1 hm2 hs1 hm3 hm4 hm5 hm6 hm7 ha1 k1 k2 k3 k4 h1 h2 h3 h4 hsd hcd hc
  simp only
  generalize (if decide (n % 2 = 1) then newConstant f c.sinAzRot else newConstant f c.sinAz : FloatVar p) = sinAz at *
  generalize (if decide (n % 2 = 1) then newConstant f c.cosAzRot else newConstant f c.cosAz : FloatVar p) = cosAz at *
  generalize H3.north F φ l = N at *
  generalize H3.east F φ l = Ea at *
  generalize H3.up F φ l = W at *
  generalize Real.sqrt 7 ^ n = T at *
  have hρ0 := Real.sqrt_nonneg (N ^ 2 + Ea ^ 2)
  have hρ := Real.sq_sqrt (show 0 ≤ N ^ 2 + Ea ^ 2 by positivity)
  generalize Real.sqrt (N ^ 2 + Ea ^ 2) = ρ at *
  have tri : ∀ {a c δ : ℝ}, |a - c| ≤ δ → |a| ≤ |c| + δ := by
    intro a c δ h
    have := abs_add_le (a - c) c
    rw [sub_add_cancel] at this; linarith
  have hτ3 := hτ2
  norm_num at hτ3 hbig
  have bX : |X| ≤ 1.01 := by have := tri eX; linarith
  have bY : |Y| ≤ 1.01 := by have := tri eY; linarith
  have sq2 : ∀ {t : ℝ}, |t| ≤ 1.01 → |t * t| ≤ 2 := by
    intro t ht
    rw [abs_mul]
    have := mul_le_mul ht ht (abs_nonneg _) (by norm_num)
    linarith
  refine (ok_mul G hm nX nX (by linarith [sq2 bX])).bind ?_
  rintro _ ⟨xx, nxx, rxx⟩
  refine (ok_mul G hm nY nY (by linarith [sq2 bY])).bind ?_
  rintro _ ⟨yy, nyy, ryy⟩
  have bxx : |xx| ≤ 2 := by simpa using rxx.abs_le_pow G 1 (by linarith [sq2 bX])
  have byy : |yy| ≤ 2 := by simpa using ryy.abs_le_pow G 1 (by linarith [sq2 bY])
  have bxy : |xx + yy| ≤ 4 := (abs_add_le _ _).trans (by linarith)
  refine (ok_add G hm nxx nyy (by linarith) (by linarith)).bind ?_
  rintro _ ⟨zz, nzz, rzz⟩
  have bzz : |zz| ≤ 4 := by
    have := rzz.abs_le_pow G 2 (by linarith)
    linarith
  have xx0 : 0 ≤ xx := rxx.pos (mul_self_nonneg _)
  have yy0 : 0 ≤ yy := ryy.pos (mul_self_nonneg _)
  have zz0 : 0 ≤ zz := rzz.pos (by linarith)
  rw [abs_of_nonneg zz0] at bzz
  refine (ok_sqrt G hm nzz zz0 (by linarith)).bind ?_
  rintro _ ⟨z, nz, rz⟩
  by_cases hz : zz = 0
  · -- the centre of the face
    subst hz
    rw [Real.sqrt_zero] at rz
    obtain rfl := rz.of_zero
    obtain ⟨l1, l2⟩ := length_zero H rxx ryy rzz
    have hcen : N ^ 2 + Ea ^ 2 ≤ (15 * τ) ^ 2 := by
      have t1 : |N| ≤ 12.2 * τ := by rw [abs_sub_comm] at eX; have := tri eX; linarith
      have t2 : |Ea| ≤ 8.2 * τ := by rw [abs_sub_comm] at eY; have := tri eY; linarith
      have s1 : N ^ 2 ≤ (12.2 * τ) ^ 2 := by rw [← sq_abs]; exact pow_le_pow_left₀ (abs_nonneg _) t1 2
      have s2 : Ea ^ 2 ≤ (8.2 * τ) ^ 2 := by rw [← sq_abs]; exact pow_le_pow_left₀ (abs_nonneg _) t2 2
      nlinarith
    refine (abn_div_zero G hm nY nz).bind ?_
    intro sinP aP
    refine (abn_div_zero G hm nX nz).bind ?_
    intro cosP aQ
    refine (abn_mul G hm (.inr aQ) nsA.enc aQ.enc).bind ?_
    intro n1 a1
    refine (abn_mul G hm (.inr aP) ncA.enc aP.enc).bind ?_
    intro n2 a2
    refine (abn_sub G hm (.inl a1) a1.enc a2.enc).bind ?_
    intro sn a3
    refine (abn_mul G hm (.inr aQ) ncA.enc aQ.enc).bind ?_
    intro n3 a4
    refine (abn_mul G hm (.inr aP) nsA.enc aP.enc).bind ?_
    intro n4 a5
    refine (abn_add G hm (.inl a4) a4.enc a5.enc).bind ?_
    intro cs a6
    refine (abn_mul G hm (.inl a6) a6.enc hr.enc).bind ?_
    intro u a7
    refine (abn_mul G hm (.inl a3) a3.enc hr.enc).bind ?_
    intro v a8
    exact .pure (.inr ⟨hcen, a7, a8⟩)
  obtain ⟨z0, hxz, hyz, hzl⟩ := length_err H rxx ryy rzz hz rz
  refine (ok_div G hm nY nz z0.ne' (by linarith)).bind ?_
  rintro _ ⟨q2, nq2, rq2⟩
  refine (ok_div G hm nX nz z0.ne' (by linarith)).bind ?_
  rintro _ ⟨q1, nq1, rq1⟩
  have b1 := quot_le H hxz rq1
  have b2 := quot_le H hyz rq2
  have bs : |sA| ≤ 1.01 := by have := tri esA; linarith
  have bc : |cA| ≤ 1.01 := by have := tri ecA; linarith
  have pr : ∀ {a q : ℝ}, |a| ≤ 1.01 → |q| ≤ 1.31 → |a * q| ≤ 2 := by
    intro a q ha hq
    rw [abs_mul]
    have := mul_le_mul ha hq (abs_nonneg _) (by norm_num)
    linarith
  have pr2 : ∀ {a q t : ℝ}, |a| ≤ 1.01 → |q| ≤ 1.31 → Rn f (a * q) t → |t| ≤ 2 := by
    intro a q t ha hq ht
    simpa using ht.abs_le_pow G 1 (by linarith [pr ha hq])
  refine (ok_mul G hm nsA nq1 (by linarith [pr bs b1])).bind ?_
  rintro _ ⟨n1, nn1, rn1⟩
  refine (ok_mul G hm ncA nq2 (by linarith [pr bc b2])).bind ?_
  rintro _ ⟨n2, nn2, rn2⟩
  have bn1 := pr2 bs b1 rn1
  have bn2 := pr2 bc b2 rn2
  refine (ok_sub G hm nn1 nn2 (by linarith) (by have := abs_sub n1 n2; linarith)).bind ?_
  rintro _ ⟨sn, nsn, rsn⟩
  refine (ok_mul G hm ncA nq1 (by linarith [pr bc b1])).bind ?_
  rintro _ ⟨n3, nn3, rn3⟩
  refine (ok_mul G hm nsA nq2 (by linarith [pr bs b2])).bind ?_
  rintro _ ⟨n4, nn4, rn4⟩
  have bn3 := pr2 bc b1 rn3
  have bn4 := pr2 bs b2 rn4
  have bn34 : |n3 + n4| ≤ 4 := by have := abs_add_le n3 n4; linarith
  have bn12 : |n1 - n2| ≤ 4 := by have := abs_sub n1 n2; linarith
  refine (ok_add G hm nn3 nn4 (by linarith) (by linarith)).bind ?_
  rintro _ ⟨cs, ncs, rcs⟩
  have bcs : |cs| ≤ 4 := by have := rcs.abs_le_pow G 2 (by linarith); linarith
  have bsn : |sn| ≤ 4 := by have := rsn.abs_le_pow G 2 (by linarith); linarith
  have hρ1 : ρ ≤ 1 := by
    refine abs_le_of_sq_le_sq' ?_ (by norm_num) |>.2
    nlinarith [sq_nonneg W]
  have hW0 : 0 < W := by norm_num at hW; linarith
  have bR : |R| ≤ 8 * T := by
    have t := tri hR
    have k0 : 0 < H3.res0 := by norm_num at c1; linarith
    rw [abs_of_nonneg (show 0 ≤ T * (ρ / W / H3.res0) by positivity)] at t
    have t2 : ρ / W / H3.res0 ≤ 7 := by
      rw [div_div, div_le_iff₀ (by positivity)]
      have : 0.54 * 0.3819 ≤ W * H3.res0 := mul_le_mul hW c1 (by norm_num) (by linarith)
      norm_num at this
      linarith
    have t3 : T * (ρ / W / H3.res0) ≤ T * 7 := mul_le_mul_of_nonneg_left t2 (by linarith)
    have t4 : 131 * τ * T ≤ 1 * T := mul_le_mul_of_nonneg_right (by linarith) (by linarith)
    linarith
  have pr3 : ∀ {a : ℝ}, |a| ≤ 4 → |a * R| ≤ 536870912 := by
    intro a ha
    rw [abs_mul]
    have := mul_le_mul ha bR (abs_nonneg _) (by norm_num)
    norm_num at T2
    linarith
  refine (ok_mul G hm ncs hr (by linarith [pr3 bcs])).bind ?_
  rintro _ ⟨u, nu, ru⟩
  refine (ok_mul G hm nsn hr (by linarith [pr3 bsn])).bind ?_
  rintro _ ⟨v, nv, rv⟩
  have hfr' : ρ ^ 2 + W ^ 2 = 1 := by rw [hρ]; exact hfr
  obtain ⟨u1, u2⟩ := point_err H hτ1 hτ2 hρ.symm hρ0 hfr' hW eX eY (by linarith : Cc ^ 2 + S ^ 2 = 1) z0 hzl hxz hyz rq1 rq2
    (rotate_err H hτ1 hτ2 ecA esA cA1 sA1 b1 b2 rn3 rn4 rcs) T1 hR ru
  obtain ⟨v1, v2⟩ := point_err H hτ1 hτ2 hρ.symm hρ0 hfr' hW eX eY (by rw [neg_sq]; exact sc : S ^ 2 + (-Cc) ^ 2 = 1) z0 hzl hxz hyz rq1 rq2
    (rotate_err_sub H hτ1 hτ2 esA ecA sA1 cA1 b1 b2 rn1 rn2 rsn) T1 hR rv
  refine .pure (.inl ⟨u, v, nu, nv, u1, ?_, u2, v2⟩)
  rw [show S * N - Cc * Ea = S * N + -Cc * Ea by ring]
  exact v1

end ZkLoc
