import Verif.TrigBound
import Verif.FaceTable
import Verif.GnomonicMath
import Mathlib.Analysis.SpecialFunctions.Trigonometric.Bounds

/-!
# Helper lemmas: the tables of the location code agree with H3's faces
-/

namespace ZkLoc

variable {p : ℕ} [Fact p.Prime] {f : Fmt}

/-- The constants of the face `c` are those of the face `F` of the icosahedron, up to `ε`. -/
structure FaceNear (f : Fmt) (ε : ℝ) (c : Face) (F : H3.FaceGeo) : Prop where
  px : |Ieee.patternVal ⟨f.E, f.M⟩ c.px - Real.cos F.lng * Real.cos F.lat| ≤ ε
  py : |Ieee.patternVal ⟨f.E, f.M⟩ c.py - Real.sin F.lng * Real.cos F.lat| ≤ ε
  pz : |Ieee.patternVal ⟨f.E, f.M⟩ c.pz - Real.sin F.lat| ≤ ε
  sinLat : |Ieee.patternVal ⟨f.E, f.M⟩ c.sinLat - Real.sin F.lat| ≤ ε
  cosLat : |Ieee.patternVal ⟨f.E, f.M⟩ c.cosLat - Real.cos F.lat| ≤ ε
  sinLng : |Ieee.patternVal ⟨f.E, f.M⟩ c.sinLng - Real.sin F.lng| ≤ ε
  cosLng : |Ieee.patternVal ⟨f.E, f.M⟩ c.cosLng - Real.cos F.lng| ≤ ε
  sinAz : |Ieee.patternVal ⟨f.E, f.M⟩ c.sinAz - Real.sin F.az| ≤ ε
  cosAz : |Ieee.patternVal ⟨f.E, f.M⟩ c.cosAz - Real.cos F.az| ≤ ε
  sinAzRot : |Ieee.patternVal ⟨f.E, f.M⟩ c.sinAzRot - Real.sin (F.az - H3.ap7rot)| ≤ ε
  cosAzRot : |Ieee.patternVal ⟨f.E, f.M⟩ c.cosAzRot - Real.cos (F.az - H3.ap7rot)| ≤ ε

/-- The trigonometric constants of the face are finite numbers of magnitude at most one. -/
structure FaceUnit (p : ℕ) (f : Fmt) (c : Face) : Prop where
  sinLat : UnitConst p f c.sinLat
  cosLat : UnitConst p f c.cosLat
  sinLng : UnitConst p f c.sinLng
  cosLng : UnitConst p f c.cosLng
  sinAz : UnitConst p f c.sinAz
  cosAz : UnitConst p f c.cosAz
  sinAzRot : UnitConst p f c.sinAzRot
  cosAzRot : UnitConst p f c.cosAzRot

theorem faceUnit32 : ∀ c ∈ geo32.faces, FaceUnit p f32 c := by
  have h : ∀ c ∈ geo32.faces, [c.sinLat, c.cosLat, c.sinLng, c.cosLng, c.sinAz, c.cosAz, c.sinAzRot, c.cosAzRot].all (unitBits 8 23) = true := by
    decide +kernel
  intro c hc
  have h := h c hc
  simp only [List.all_cons, Bool.and_eq_true] at h
  obtain ⟨h1, h2, h3, h4, h5, h6, h7, h8, _⟩ := h
  constructor <;> exact unitBits_ok (f := f32) (by decide) (by decide) (by assumption)

theorem faceUnit64 : ∀ c ∈ geo64.faces, FaceUnit p f64 c := by
  have h : ∀ c ∈ geo64.faces, [c.sinLat, c.cosLat, c.sinLng, c.cosLng, c.sinAz, c.cosAz, c.sinAzRot, c.cosAzRot].all (unitBits 11 52) = true := by
    decide +kernel
  intro c hc
  have h := h c hc
  simp only [List.all_cons, Bool.and_eq_true] at h
  obtain ⟨h1, h2, h3, h4, h5, h6, h7, h8, _⟩ := h
  constructor <;> exact unitBits_ok (f := f64) (by decide) (by decide) (by assumption)

/-- The value of the series, times `2^k`, rounded down. -/
def trigVal (s : ℕ → ℤ) (X : ℤ) (k n : ℕ) : ℤ := trigNum s X k n n * 2 ^ k / (n.factorial * 2 ^ (k * n))

/-- `10^-18 d` times `2^k`, rounded down. -/
def decX (k : ℕ) (d : ℤ) : ℤ := d * 2 ^ k / 10 ^ 18

theorem decX_err (k : ℕ) (d : ℤ) : |(decX k d : ℝ) / 2 ^ k - d / 10 ^ 18| ≤ 1 / 2 ^ k := by
  have h1 := Int.ediv_mul_add_emod (d * 2 ^ k) (10 ^ 18)
  have h2 := Int.emod_nonneg (d * 2 ^ k) (b := 10 ^ 18) (by norm_num)
  have h3 := Int.emod_lt_of_pos (d * 2 ^ k) (b := 10 ^ 18) (by norm_num)
  change decX k d * 10 ^ 18 + _ = _ at h1
  generalize (d * 2 ^ k) % 10 ^ 18 = r at *
  have h4 : (decX k d : ℝ) * 10 ^ 18 + r = d * 2 ^ k := by exact_mod_cast h1
  have h5 : (0:ℝ) ≤ r := by exact_mod_cast h2
  have h6 : (r:ℝ) ≤ 10 ^ 18 := by exact_mod_cast h3.le
  have hk : (0:ℝ) < 2 ^ k := by positivity
  generalize (2:ℝ) ^ k = K at *
  have e : (decX k d : ℝ) / K - d / 10 ^ 18 = - (r / 10 ^ 18) / K := by
    field_simp
    linarith
  rw [e, abs_div, abs_of_pos hk, abs_neg, abs_of_nonneg (by positivity)]
  gcongr
  rw [div_le_one (by norm_num)]
  exact h6

/-- The rotation times `2^k`, rounded down. -/
def rotX (k : ℕ) : ℤ := 333473172251832115336090755351601070065900389 * 2 ^ k / 10 ^ 45

theorem rotX_err (k : ℕ) : |(rotX k : ℝ) / 2 ^ k - H3.ap7rot| ≤ 1 / 2 ^ k := by
  unfold H3.ap7rot rotX
  generalize hN : (333473172251832115336090755351601070065900389 : ℤ) = N
  have hN' : (333473172251832115336090755351601070065900389 : ℝ) = N := by rw [← hN]; norm_num
  rw [hN']
  have h1 := Int.ediv_mul_add_emod (N * 2 ^ k) (10 ^ 45)
  have h2 := Int.emod_nonneg (N * 2 ^ k) (b := 10 ^ 45) (by norm_num)
  have h3 := Int.emod_lt_of_pos (N * 2 ^ k) (b := 10 ^ 45) (by norm_num)
  generalize (N * 2 ^ k) % 10 ^ 45 = r at *
  generalize (N * 2 ^ k) / 10 ^ 45 = X at *
  have h4 : (X : ℝ) * 10 ^ 45 + r = N * 2 ^ k := by exact_mod_cast h1
  have h5 : (0:ℝ) ≤ r := by exact_mod_cast h2
  have h6 : (r:ℝ) ≤ 10 ^ 45 := by exact_mod_cast h3.le
  have hk : (0:ℝ) < 2 ^ k := by positivity
  generalize (2:ℝ) ^ k = K at *
  have e : (X : ℝ) / K - N / 10 ^ 45 = - (r / 10 ^ 45) / K := by
    field_simp
    linarith
  rw [e, abs_div, abs_of_pos hk, abs_neg, abs_of_nonneg (by positivity)]
  gcongr
  rw [div_le_one (by norm_num)]
  exact h6

theorem sin_lip (x y : ℝ) : |Real.sin x - Real.sin y| ≤ |x - y| := by
  rw [Real.sin_sub_sin, abs_mul, abs_mul, abs_two]
  have h1 : |Real.sin ((x - y) / 2)| ≤ |x - y| / 2 := Real.abs_sin_le_abs.trans (by rw [abs_div, abs_two])
  have h2 := Real.abs_cos_le_one ((x + y) / 2)
  have h3 := abs_nonneg (Real.sin ((x - y) / 2))
  nlinarith

theorem cos_lip (x y : ℝ) : |Real.cos x - Real.cos y| ≤ |x - y| := by
  rw [Real.cos_sub_cos, abs_mul, abs_mul, abs_neg, abs_two]
  have h1 : |Real.sin ((x - y) / 2)| ≤ |x - y| / 2 := Real.abs_sin_le_abs.trans (by rw [abs_div, abs_two])
  have h2 := Real.abs_sin_le_one ((x + y) / 2)
  have h3 := abs_nonneg (Real.sin ((x - y) / 2))
  nlinarith

/-- The series at `X / 2^k` is evaluated correctly up to `4 · 2^-k`. -/
def trigOk (X : ℤ) (k n : ℕ) : Bool := trigCheck imPow X (trigVal imPow X k n) k n (k - 2) && trigCheck rePow X (trigVal rePow X k n) k n (k - 2)

theorem trigOk_near {X : ℤ} {k n : ℕ} (hk : 2 ≤ k) (h : trigOk X k n = true) {x : ℝ} (hx : |(X:ℝ) / 2 ^ k - x| ≤ 2 / 2 ^ k) :
    |(trigVal imPow X k n : ℝ) / 2 ^ k - Real.sin x| ≤ 6 / 2 ^ k ∧ |(trigVal rePow X k n : ℝ) / 2 ^ k - Real.cos x| ≤ 6 / 2 ^ k := by
  simp only [trigOk, Bool.and_eq_true] at h
  have h1 := trigCheck_sin h.1
  have h2 := trigCheck_cos h.2
  have e : (1:ℝ) / 2 ^ (k - 2) = 4 / 2 ^ k := by
    obtain ⟨j, rfl⟩ : ∃ j, k = j + 2 := ⟨k - 2, by omega⟩
    rw [Nat.add_sub_cancel, pow_add]; field_simp; norm_num
  rw [e] at h1 h2
  have h3 := sin_lip ((X:ℝ) / 2 ^ k) x
  have h4 := cos_lip ((X:ℝ) / 2 ^ k) x
  have e6 : (6:ℝ) / 2 ^ k = 4 / 2 ^ k + 2 / 2 ^ k := by ring
  rw [e6]
  constructor
  · exact (abs_sub_le _ _ _).trans (add_le_add h1 (h3.trans hx))
  · exact (abs_sub_le _ _ _).trans (add_le_add h2 (h4.trans hx))

/-- Integer test for one constant: within `4 · 2^-(M+1)` of `C / 2^k`. -/
def nearInt (E M k v : ℕ) (C : ℤ) : Bool := scalable E M k v && decide ((scaledVal E M k v - C).natAbs * 2 ^ (M + 1) ≤ 4 * 2 ^ k)

theorem nearInt_ok {E M k v : ℕ} {C : ℤ} (h : nearInt E M k v C = true) {y δ : ℝ} (hy : |(C:ℝ) / 2 ^ k - y| ≤ δ) :
    |Ieee.patternVal ⟨E, M⟩ v - y| ≤ 4 / 2 ^ (M + 1) + δ := by
  simp only [nearInt, Bool.and_eq_true, decide_eq_true_eq] at h
  obtain ⟨h1, h2⟩ := h
  rw [patternVal_scaled h1]
  refine (abs_sub_le _ ((C:ℝ) / 2 ^ k) _).trans (add_le_add ?_ hy)
  have h3 : |((scaledVal E M k v - C : ℤ) : ℝ)| * 2 ^ (M + 1) ≤ 4 * 2 ^ k := by
    have : ((((scaledVal E M k v - C).natAbs * 2 ^ (M + 1) : ℕ) : ℤ) : ℝ) ≤ ((4 * 2 ^ k : ℕ) : ℤ) := by exact_mod_cast h2
    push_cast [Nat.cast_natAbs] at this
    simpa using this
  push_cast at h3
  rw [← sub_div, abs_div, abs_of_pos (show (0:ℝ) < 2 ^ k by positivity), div_le_div_iff₀ (by positivity) (by positivity)]
  exact h3

/-- Integer test for one face. -/
def faceNearCheck (E M k n : ℕ) (c : Face) (t : ℤ × ℤ × ℤ) : Bool :=
  let X := decX k t.1
  let Y := decX k t.2.1
  let Z := decX k t.2.2
  trigOk X k n && trigOk Y k n && trigOk Z k n && trigOk (Z - rotX k) k n &&
  (nearInt E M k c.sinLat (trigVal imPow X k n) && nearInt E M k c.cosLat (trigVal rePow X k n) &&
   nearInt E M k c.sinLng (trigVal imPow Y k n) && nearInt E M k c.cosLng (trigVal rePow Y k n) &&
   nearInt E M k c.sinAz (trigVal imPow Z k n) && nearInt E M k c.cosAz (trigVal rePow Z k n) &&
   nearInt E M k c.sinAzRot (trigVal imPow (Z - rotX k) k n) && nearInt E M k c.cosAzRot (trigVal rePow (Z - rotX k) k n) &&
   nearInt E M k c.pz (trigVal imPow X k n) &&
   nearInt E M k c.px (trigVal rePow Y k n * trigVal rePow X k n / 2 ^ k) && nearInt E M k c.py (trigVal imPow Y k n * trigVal rePow X k n / 2 ^ k))

theorem div_pow_err (A : ℤ) (k : ℕ) : |((A / 2 ^ k : ℤ) : ℝ) / 2 ^ k - A / (2 ^ k * 2 ^ k)| ≤ 1 / 2 ^ k := by
  have h1 := Int.ediv_mul_add_emod A (2 ^ k)
  have h2 := Int.emod_nonneg A (b := 2 ^ k) (by positivity)
  have h3 := Int.emod_lt_of_pos A (b := 2 ^ k) (by positivity)
  generalize A % 2 ^ k = r at *
  generalize A / 2 ^ k = X at *
  have h4 : (X : ℝ) * 2 ^ k + r = A := by exact_mod_cast h1
  have h5 : (0:ℝ) ≤ r := by exact_mod_cast h2
  have h6 : (r:ℝ) ≤ 2 ^ k := by exact_mod_cast h3.le
  have hk : (0:ℝ) < 2 ^ k := by positivity
  generalize (2:ℝ) ^ k = K at *
  have e : (X : ℝ) / K - A / (K * K) = - (r / K) / K := by
    field_simp
    linarith
  rw [e, abs_div, abs_of_pos hk, abs_neg, abs_of_nonneg (by positivity)]
  gcongr
  rw [div_le_one hk]
  exact h6

theorem faceNearCheck_ok {k n : ℕ} {c : Face} {t : ℤ × ℤ × ℤ} (hk : f.M + 6 ≤ k) (h : faceNearCheck f.E f.M k n c t = true) :
    FaceNear f (5 * ulpHalf f) c (.ofDecimals t) := by
  simp only [faceNearCheck, Bool.and_eq_true] at h
  obtain ⟨⟨⟨⟨k1, k2⟩, k3⟩, k4⟩, ⟨⟨⟨⟨⟨⟨⟨⟨⟨n1, n2⟩, n3⟩, n4⟩, n5⟩, n6⟩, n7⟩, n8⟩, n9⟩, n10⟩, n11⟩ := h
  have hU : (4:ℝ) / 2 ^ (f.M + 1) + 14 / 2 ^ k ≤ 5 * ulpHalf f := by
    have e : ulpHalf f = 1 / 2 ^ (f.M + 1) := by
      unfold ulpHalf
      rw [show -(f.M:ℤ) - 1 = -((f.M + 1 : ℕ) : ℤ) by push_cast; ring, zpow_neg, zpow_natCast, one_div]
    obtain ⟨j, rfl⟩ : ∃ j, k = f.M + 1 + 4 + j := ⟨k - (f.M + 5), by omega⟩
    have h1 : (1:ℝ) ≤ 2 ^ j := one_le_pow₀ (by norm_num)
    have h2 : (14:ℝ) / 2 ^ (f.M + 1 + 4 + j) ≤ 1 / 2 ^ (f.M + 1) := by
      rw [div_le_div_iff₀ (by positivity) (by positivity), pow_add _ (f.M + 1 + 4) j, pow_add _ (f.M + 1) 4]
      have : (0:ℝ) < 2 ^ (f.M + 1) := by positivity
      nlinarith
    rw [e]
    have : (4:ℝ) / 2 ^ (f.M + 1) = 4 * (1 / 2 ^ (f.M + 1)) := by ring
    rw [this]
    linarith
  have hK : (0:ℝ) < 2 ^ k := by positivity
  have h12 : (1:ℝ) / 2 ^ k ≤ 2 / 2 ^ k := by gcongr; norm_num
  obtain ⟨s1, c1⟩ := trigOk_near (by omega) k1 ((decX_err k t.1).trans h12)
  obtain ⟨s2, c2⟩ := trigOk_near (by omega) k2 ((decX_err k t.2.1).trans h12)
  obtain ⟨s3, c3⟩ := trigOk_near (by omega) k3 ((decX_err k t.2.2).trans h12)
  obtain ⟨s4, c4⟩ := trigOk_near (x := (t.2.2:ℝ) / 10 ^ 18 - H3.ap7rot) (by omega) k4 (by
    push_cast
    rw [sub_div, show ∀ a b c d : ℝ, a - b - (c - d) = (a - c) - (b - d) by intros; ring]
    refine (abs_sub _ _).trans ((add_le_add (decX_err k t.2.2) (rotX_err k)).trans (le_of_eq ?_))
    ring)
  have w : ∀ {v : ℕ} {y : ℝ} {C : ℤ}, nearInt f.E f.M k v C = true → |(C:ℝ) / 2 ^ k - y| ≤ 6 / 2 ^ k →
      |Ieee.patternVal ⟨f.E, f.M⟩ v - y| ≤ 5 * ulpHalf f := by
    intro v y C h h'
    refine (nearInt_ok h h').trans (le_trans ?_ hU)
    gcongr
    norm_num
  have prod : ∀ {v : ℕ} {y z : ℝ} {C D : ℤ}, nearInt f.E f.M k v (C * D / 2 ^ k) = true → |(C:ℝ) / 2 ^ k - y| ≤ 6 / 2 ^ k →
      |(D:ℝ) / 2 ^ k - z| ≤ 6 / 2 ^ k → |y| ≤ 1 → |z| ≤ 1 → |Ieee.patternVal ⟨f.E, f.M⟩ v - y * z| ≤ 5 * ulpHalf f := by
    intro v y z C D h hC hD hy hz
    refine (nearInt_ok h (δ := 14 / 2 ^ k) ?_).trans hU
    have e1 := div_pow_err (C * D) k
    have e2 : ((C * D : ℤ) : ℝ) / (2 ^ k * 2 ^ k) = (C:ℝ) / 2 ^ k * ((D:ℝ) / 2 ^ k) := by push_cast; field_simp
    rw [e2] at e1
    have hk32 : (64:ℝ) * (6 / 2 ^ k) ≤ 6 := by
      rw [mul_div_assoc', div_le_iff₀ hK]
      have : (2:ℝ) ^ 6 ≤ 2 ^ k := pow_le_pow_right₀ (by norm_num) (by omega)
      linarith
    generalize (C:ℝ) / 2 ^ k = a at *
    generalize (D:ℝ) / 2 ^ k = d at *
    have e3 : |a * d - y * z| ≤ 13 / 2 ^ k := by
      have : a * d - y * z = (a - y) * (d - z) + (a - y) * z + y * (d - z) := by ring
      rw [this]
      refine (abs_add_le _ _).trans ((add_le_add (abs_add_le _ _) le_rfl).trans ?_)
      rw [abs_mul, abs_mul, abs_mul]
      have h13 : (13:ℝ) / 2 ^ k = 6 / 2 ^ k + 6 / 2 ^ k + (6 / 2 ^ k) * (1 / 6) := by ring
      rw [h13]
      generalize (6:ℝ) / 2 ^ k = q at *
      have p1 := abs_nonneg (a - y)
      have p2 := abs_nonneg (d - z)
      have p3 := abs_nonneg y
      have p4 := abs_nonneg z
      have q1 : |a - y| * |d - z| ≤ q * (1 / 6) := by
        have : |d - z| ≤ 1 / 6 := by linarith
        exact mul_le_mul hC this p2 (by linarith)
      nlinarith
    refine (abs_sub_le _ (a * d) _).trans ((add_le_add e1 e3).trans (le_of_eq (by ring)))
  unfold H3.FaceGeo.ofDecimals
  constructor
  · exact prod n10 c2 c1 (Real.abs_cos_le_one _) (Real.abs_cos_le_one _)
  · exact prod n11 s2 c1 (Real.abs_sin_le_one _) (Real.abs_cos_le_one _)
  · exact w n9 s1
  · exact w n1 s1
  · exact w n2 c1
  · exact w n3 s2
  · exact w n4 c2
  · exact w n5 s3
  · exact w n6 c3
  · exact w n7 s4
  · exact w n8 c4

/-- Integer test for a list of faces. -/
def facesNearCheck (E M k n : ℕ) : List Face → List (ℤ × ℤ × ℤ) → Bool
  | [], [] => true
  | c :: cs, t :: ts => faceNearCheck E M k n c t && facesNearCheck E M k n cs ts
  | _, _ => false

theorem facesNearCheck_ok {k n : ℕ} (hk : f.M + 6 ≤ k) : ∀ {cs : List Face} {ts : List (ℤ × ℤ × ℤ)}, facesNearCheck f.E f.M k n cs ts = true →
    List.Forall₂ (FaceNear f (5 * ulpHalf f)) cs (ts.map .ofDecimals)
  | [], [], _ => .nil
  | c :: cs, t :: ts, h => by
    simp only [facesNearCheck, Bool.and_eq_true] at h
    exact .cons (faceNearCheck_ok hk h.1) (facesNearCheck_ok hk h.2)
  | [], _ :: _, h => by simp [facesNearCheck] at h
  | _ :: _, [], h => by simp [facesNearCheck] at h

theorem faceNear32 : List.Forall₂ (FaceNear f32 (5 * ulpHalf f32)) geo32.faces H3.faceGeo :=
  facesNearCheck_ok (f := f32) (k := 40) (n := 40) (by decide) (by decide +kernel)

theorem faceNear64 : List.Forall₂ (FaceNear f64 (5 * ulpHalf f64)) geo64.faces H3.faceGeo :=
  facesNearCheck_ok (f := f64) (k := 68) (n := 50) (by decide) (by decide +kernel)

end ZkLoc
