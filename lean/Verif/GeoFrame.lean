import Verif.GeoErr

/-!
# Helper lemmas: the face centres are spread evenly

The centres form a tight frame (the sum of `c cᵀ` is `20/3` times the identity, nearly) and come in antipodal pairs; so every point of the unit
sphere has a face centre at squared distance below one.
-/

namespace ZkLoc

/-- The centre of a face in units of `2^-k`. -/
def centreInt (E M k : ℕ) (c : Face) : ℤ × ℤ × ℤ := (scaledVal E M k c.px, scaledVal E M k c.py, scaledVal E M k c.pz)

/-- The scalar product with a face centre. -/
def dotI (v : ℤ × ℤ × ℤ) (x y z : ℝ) : ℝ := v.1 * x + v.2.1 * y + v.2.2 * z

/-- Sum of the products of two coordinates. -/
def gram (a b : ℤ × ℤ × ℤ → ℤ) (l : List (ℤ × ℤ × ℤ)) : ℤ := (l.map (fun v => a v * b v)).sum

theorem gram_cons (a b : ℤ × ℤ × ℤ → ℤ) (v : ℤ × ℤ × ℤ) (l : List (ℤ × ℤ × ℤ)) : gram a b (v :: l) = a v * b v + gram a b l := by
  simp [gram]

theorem sum_sq_dot (l : List (ℤ × ℤ × ℤ)) (x y z : ℝ) : (l.map (fun v => dotI v x y z ^ 2)).sum =
    gram (·.1) (·.1) l * x ^ 2 + gram (·.2.1) (·.2.1) l * y ^ 2 + gram (·.2.2) (·.2.2) l * z ^ 2 + 2 * gram (·.1) (·.2.1) l * (x * y) +
      2 * gram (·.1) (·.2.2) l * (x * z) + 2 * gram (·.2.1) (·.2.2) l * (y * z) := by
  induction l with
  | nil => simp [gram]
  | cons v l ih =>
    rw [List.map_cons, List.sum_cons, ih]
    simp only [gram_cons, Int.cast_add, Int.cast_mul, dotI]
    ring

/-- Integer test for a list of centres in units of `2^-k`: near the unit sphere, tight frame, antipodal pairs. -/
def frameCheck (k : ℕ) (l : List (ℤ × ℤ × ℤ)) : Bool :=
  decide (l.length = 20) &&
  l.all (fun v => decide (2 ^ 20 * (v.1 ^ 2 + v.2.1 ^ 2 + v.2.2 ^ 2 - 2 ^ (2 * k)).natAbs ≤ 2 ^ (2 * k))) &&
  l.all (fun v => l.any fun w => decide (2 ^ 20 * (v.1 + w.1).natAbs ≤ 2 ^ k) && decide (2 ^ 20 * (v.2.1 + w.2.1).natAbs ≤ 2 ^ k) &&
    decide (2 ^ 20 * (v.2.2 + w.2.2).natAbs ≤ 2 ^ k)) &&
  decide (2 ^ 16 * (3 * gram (·.1) (·.1) l - 20 * 2 ^ (2 * k)).natAbs ≤ 2 ^ (2 * k)) &&
  decide (2 ^ 16 * (3 * gram (·.2.1) (·.2.1) l - 20 * 2 ^ (2 * k)).natAbs ≤ 2 ^ (2 * k)) &&
  decide (2 ^ 16 * (3 * gram (·.2.2) (·.2.2) l - 20 * 2 ^ (2 * k)).natAbs ≤ 2 ^ (2 * k)) &&
  decide (2 ^ 16 * (3 * gram (·.1) (·.2.1) l).natAbs ≤ 2 ^ (2 * k)) && decide (2 ^ 16 * (3 * gram (·.1) (·.2.2) l).natAbs ≤ 2 ^ (2 * k)) &&
  decide (2 ^ 16 * (3 * gram (·.2.1) (·.2.2) l).natAbs ≤ 2 ^ (2 * k))

theorem frame32 : frameCheck 40 (geo32.faces.map (centreInt 8 23 40)) = true := by decide +kernel
theorem frame64 : frameCheck 64 (geo64.faces.map (centreInt 11 52 64)) = true := by decide +kernel

theorem scalable32 : ∀ c ∈ geo32.faces, scalable 8 23 40 c.px = true ∧ scalable 8 23 40 c.py = true ∧ scalable 8 23 40 c.pz = true := by
  decide +kernel
theorem scalable64 : ∀ c ∈ geo64.faces, scalable 11 52 64 c.px = true ∧ scalable 11 52 64 c.py = true ∧ scalable 11 52 64 c.pz = true := by
  decide +kernel

theorem natAbs_real {a : ℤ} {s N : ℕ} (h : 2 ^ s * a.natAbs ≤ N) : |(a : ℝ)| ≤ N / 2 ^ s := by
  rw [le_div_iff₀ (by positivity), mul_comm]
  have : ((2 ^ s * a.natAbs : ℕ) : ℝ) ≤ N := by exact_mod_cast h
  push_cast [Nat.cast_natAbs] at this
  exact this

theorem exists_close {l : List (ℤ × ℤ × ℤ)} {B : ℝ} {g : ℤ × ℤ × ℤ → ℝ} (h : ∀ v ∈ l, g v ≤ B) : (l.map g).sum ≤ l.length * B := by
  induction l with
  | nil => simp
  | cons v l ih =>
    simp only [List.map_cons, List.sum_cons, List.length_cons]
    have h1 := h v (by simp)
    have h2 := ih (fun w hw => h w (List.mem_cons_of_mem _ hw))
    push_cast
    linarith

set_option maxHeartbeats 1000000 in
/-- Every point near the unit sphere has a centre at squared distance at most `0.9` (units of `2^-k`). -/
theorem frame_cover {k : ℕ} {l : List (ℤ × ℤ × ℤ)} (h : frameCheck k l = true) {x y z : ℝ} (hn : |x ^ 2 + y ^ 2 + z ^ 2 - 1| ≤ 1 / 2 ^ 9) :
    ∃ v ∈ l, sqDistR (v.1 / 2 ^ k) (v.2.1 / 2 ^ k) (v.2.2 / 2 ^ k) x y z ≤ 0.9 := by
  simp only [frameCheck, Bool.and_eq_true, decide_eq_true_eq, List.all_eq_true, List.any_eq_true] at h
  obtain ⟨⟨⟨⟨⟨⟨⟨⟨h20, hunit⟩, hanti⟩, g11⟩, g22⟩, g33⟩, g12⟩, g13⟩, g23⟩ := h
  by_contra hcon
  push Not at hcon
  have hK : (0:ℝ) < 2 ^ k := by positivity
  have hK2 : ((2 ^ (2 * k) : ℕ) : ℝ) = (2 ^ k) ^ 2 := by push_cast; rw [← pow_mul, mul_comm]
  have hK2' : (2:ℝ) ^ (2 * k) = (2 ^ k) ^ 2 := by rw [← pow_mul, mul_comm]
  have i11 := natAbs_real g11
  have i22 := natAbs_real g22
  have i33 := natAbs_real g33
  have i12 := natAbs_real g12
  have i13 := natAbs_real g13
  have i23 := natAbs_real g23
  rw [hK2] at i11 i22 i33 i12 i13 i23
  push_cast at i11 i22 i33 i12 i13 i23
  rw [hK2'] at i11 i22 i33
  have hdist : ∀ v ∈ l, 0.9 < sqDistR (v.1 / 2 ^ k) (v.2.1 / 2 ^ k) (v.2.2 / 2 ^ k) x y z := hcon
  have hsum := sum_sq_dot l x y z
  have hub : ∀ v ∈ l, ((v.1:ℝ) ^ 2 + v.2.1 ^ 2 + v.2.2 ^ 2) ≤ (1 + 1 / 2 ^ 20) * (2 ^ k) ^ 2 := by
    intro v hv
    have := natAbs_real (hunit v hv)
    rw [hK2] at this
    push_cast at this
    rw [hK2'] at this
    have := (abs_le.1 this).2
    linarith
  have hanti' : ∀ v ∈ l, ∃ w ∈ l, |((v.1 + w.1 : ℤ) : ℝ)| ≤ 2 ^ k / 2 ^ 20 ∧ |((v.2.1 + w.2.1 : ℤ) : ℝ)| ≤ 2 ^ k / 2 ^ 20 ∧
      |((v.2.2 + w.2.2 : ℤ) : ℝ)| ≤ 2 ^ k / 2 ^ 20 := by
    intro v hv
    obtain ⟨w, hw, ⟨a1, a2⟩, a3⟩ := hanti v hv
    exact ⟨w, hw, by simpa using natAbs_real a1, by simpa using natAbs_real a2, by simpa using natAbs_real a3⟩
  clear hcon hunit hanti g11 g22 g33 g12 g13 g23 hK2 hK2'
  generalize (2:ℝ) ^ k = K at *
  have hd : ∀ v ∈ l, dotI v x y z ≤ 0.552 * K := by
    intro v hv
    have h1 := hdist v hv
    have h2 := hub v hv
    have h3 : sqDistR (v.1 / K) (v.2.1 / K) (v.2.2 / K) x y z = ((v.1:ℝ) ^ 2 + v.2.1 ^ 2 + v.2.2 ^ 2) / K ^ 2 + (x ^ 2 + y ^ 2 + z ^ 2) - 2 * (dotI v x y z / K) := by
      unfold sqDistR dotI; field_simp; ring
    rw [h3] at h1
    have h4 : ((v.1:ℝ) ^ 2 + v.2.1 ^ 2 + v.2.2 ^ 2) / K ^ 2 ≤ 1 + 1 / 2 ^ 20 := by
      rw [div_le_iff₀ (by positivity)]; exact h2
    have h5 := (abs_le.1 hn).2
    have h6 : dotI v x y z / K ≤ 0.552 := by norm_num at h4 h5 ⊢; linarith
    rwa [div_le_iff₀ hK] at h6
  have hcoord : |x| ≤ 1.01 ∧ |y| ≤ 1.01 ∧ |z| ≤ 1.01 := by
    have h5 := (abs_le.1 hn).2
    refine ⟨abs_le_of_sq_le_sq ?_ (by norm_num), abs_le_of_sq_le_sq ?_ (by norm_num), abs_le_of_sq_le_sq ?_ (by norm_num)⟩ <;>
      norm_num at h5 ⊢ <;> nlinarith [sq_nonneg x, sq_nonneg y, sq_nonneg z]
  obtain ⟨hx, hy, hz⟩ := hcoord
  have hsq : ∀ v ∈ l, dotI v x y z ^ 2 ≤ 0.307 * K ^ 2 := by
    intro v hv
    obtain ⟨w, hw, b1, b2, b3⟩ := hanti' v hv
    push_cast at b1 b2 b3
    have h1 := hd v hv
    have h2 := hd w hw
    have h3 : dotI v x y z + dotI w x y z = ((v.1:ℝ) + w.1) * x + ((v.2.1:ℝ) + w.2.1) * y + ((v.2.2:ℝ) + w.2.2) * z := by unfold dotI; ring
    have e : ∀ {a t : ℝ}, |a| ≤ K / 2 ^ 20 → |t| ≤ 1.01 → |a * t| ≤ K / 2 ^ 20 * 1.01 := by
      intro a t ha ht
      rw [abs_mul]
      exact mul_le_mul ha ht (abs_nonneg _) (by positivity)
    have c1 := (abs_le.1 (e b1 hx)).1
    have c2 := (abs_le.1 (e b2 hy)).1
    have c3 := (abs_le.1 (e b3 hz)).1
    have h4 : |dotI v x y z| ≤ 0.553 * K := by
      rw [abs_le]
      constructor
      · norm_num at c1 c2 c3 ⊢; linarith
      · linarith
    have h5 := pow_le_pow_left₀ (abs_nonneg _) h4 2
    rw [sq_abs] at h5
    nlinarith
  have hle := exists_close hsq
  rw [hsum, h20] at hle
  have hlow := (abs_le.1 hn).1
  have sx := sq_nonneg x
  have sy := sq_nonneg y
  have sz := sq_nonneg z
  have hxy : |x * y| ≤ 1.03 := by rw [abs_mul]; nlinarith [abs_nonneg x, abs_nonneg y]
  have hxz : |x * z| ≤ 1.03 := by rw [abs_mul]; nlinarith [abs_nonneg x, abs_nonneg z]
  have hyz : |y * z| ≤ 1.03 := by rw [abs_mul]; nlinarith [abs_nonneg y, abs_nonneg z]
  have e : ∀ {a t : ℝ}, |3 * a| ≤ K ^ 2 / 2 ^ 16 → |t| ≤ 1.03 → -(K ^ 2 / 2 ^ 16 * 1.03) ≤ 3 * a * t := by
    intro a t ha ht
    refine (abs_le.1 ?_).1
    rw [abs_mul]
    exact mul_le_mul ha ht (abs_nonneg _) (by positivity)
  have f12 := e i12 hxy
  have f13 := e i13 hxz
  have f23 := e i23 hyz
  have j11 := mul_le_mul_of_nonneg_right (abs_le.1 i11).1 sx
  have j22 := mul_le_mul_of_nonneg_right (abs_le.1 i22).1 sy
  have j33 := mul_le_mul_of_nonneg_right (abs_le.1 i33).1 sz
  have hK2 : 0 < K ^ 2 := by positivity
  have hfin : K ^ 2 * (20 - 1 / 2 ^ 16) * (x ^ 2 + y ^ 2 + z ^ 2) ≥ K ^ 2 * 19.9 := by
    have : 19.9 ≤ (20 - 1 / 2 ^ 16 : ℝ) * (x ^ 2 + y ^ 2 + z ^ 2) := by norm_num at hlow ⊢; linarith
    calc K ^ 2 * (20 - 1 / 2 ^ 16) * (x ^ 2 + y ^ 2 + z ^ 2) = K ^ 2 * ((20 - 1 / 2 ^ 16) * (x ^ 2 + y ^ 2 + z ^ 2)) := by ring
      _ ≥ K ^ 2 * 19.9 := mul_le_mul_of_nonneg_left this hK2.le
  push_cast at hle
  norm_num at hle f12 f13 f23 j11 j22 j33 hfin
  linarith

end ZkLoc
