import Verif.HexCell
import Verif.FaceNear
import Verif.LocErr2
import Verif.Abn
import Verif.HexReal

/-!
# Helper lemmas: circuits whose results are near a real number; the hexagon a prover can reach
-/

namespace ZkLoc

variable {p : ℕ} [Fact p.Prime] {b : ℕ} {f : Fmt} {m : Prover} {g : GeoConsts} {α β : Type}

/-- As `Ok`, but the honest prover may fail in the exceptional case `C`. -/
def OkOr {p : ℕ} {α : Type} (m : Prover) (b : ℕ) (c : Circ p α) (C : Prop) (Q : α → Prop) : Prop :=
  match m with
  | .honest => (∃ r, c.run b = some r ∧ Q r) ∨ (C ∧ c.run b = none)
  | .any st => ∀ r, c.Sat b st r → Q r

omit [Fact p.Prime] in
theorem Ok.or {c : Circ p α} {C : Prop} {Q : α → Prop} (h : Ok m b c Q) : OkOr m b c C Q := by
  cases m with
  | honest => exact .inl h
  | any st => exact h

omit [Fact p.Prime] in
theorem Fails.or {c : Circ p α} {C : Prop} {Q : α → Prop} (h : Fails m b c) (hC : C) : OkOr m b c C Q := by
  cases m with
  | honest => exact .inr ⟨hC, h⟩
  | any st => exact fun r hr => absurd hr (h r)

omit [Fact p.Prime] in
theorem Ok.bindOr {c : Circ p α} {k : α → Circ p β} {C : Prop} {Q : α → Prop} {R : β → Prop} (h : Ok m b c Q) (hk : ∀ a, Q a → OkOr m b (k a) C R) :
    OkOr m b (Circ.bind c k) C R := by
  cases m with
  | honest =>
    obtain ⟨a, h1, h2⟩ := h
    rcases hk a h2 with ⟨r, h3, h4⟩ | ⟨h3, h4⟩
    · exact .inl ⟨r, by rw [Circ.run_bind, h1]; exact h3, h4⟩
    · exact .inr ⟨h3, by rw [Circ.run_bind, h1]; exact h4⟩
  | any st =>
    intro r hr
    obtain ⟨a, h1, h2⟩ := (Circ.sat_bind _ _ _).1 hr
    exact hk a (h a h1) r h2

/-- The float is within `ε` of `A`. -/
def Near (f : Fmt) (x : FloatVar p) (A ε : ℝ) : Prop := ∃ a, Num f x a ∧ |a - A| ≤ ε

/-- The unit in which errors are measured. -/
structure Unit' (f : Fmt) (τ : ℝ) : Prop where
  ge : 5 * ulpHalf f ≤ τ
  le : τ ≤ 1 / 2 ^ 16

theorem Unit'.pos {τ : ℝ} (h : Unit' f τ) : 0 < τ := by have := h.ge; have := ulpHalf_pos (f := f); linarith

theorem near_mul (G : Good p b f) (hm : m.Fits b f) (H : Fine f) {τ : ℝ} (hτ : Unit' f τ) {x y : FloatVar p} {A B ε ε' : ℝ} (hx : Near f x A ε)
    (hy : Near f y B ε') (hA : |A| ≤ 1) (hB : |B| ≤ 1) (hε : ε ≤ 16 * τ) (hε' : ε' ≤ 16 * τ) {δ : ℝ} (hδ : ε + ε' + τ / 4 ≤ δ) :
    Ok m b (fMul f x y) (fun r => Near f r (A * B) δ) := by
  obtain ⟨a, na, ea⟩ := hx
  obtain ⟨c, nc, ec⟩ := hy
  have hbig := big_ge G
  have h1 := hτ.ge
  have h2 := hτ.le
  have u0 := ulpHalf_pos (f := f)
  have hη := H.eta_le_u
  norm_num at h2 hη hbig
  have ea0 := (abs_nonneg _).trans ea
  have ec0 := (abs_nonneg _).trans ec
  have bc : |c| ≤ 1 + ε' := by
    have := abs_add_le (c - B) B
    rw [sub_add_cancel] at this; linarith
  have e1 : |a * c - A * B| ≤ ε + ε' + ε * ε' := by
    rw [show a * c - A * B = (a - A) * c + A * (c - B) by ring]
    refine (abs_add_le _ _).trans ?_
    rw [abs_mul, abs_mul]
    have := mul_le_mul ea bc (abs_nonneg _) ea0
    have := mul_le_mul hA ec (abs_nonneg _) (by norm_num)
    linarith
  have e2 : ε * ε' ≤ 0.01 * τ := by
    have := mul_le_mul hε hε' ec0 (by linarith)
    nlinarith
  have e3 : |A * B| ≤ 1 := by rw [abs_mul]; exact mul_le_one₀ hA (abs_nonneg _) hB
  have e4 : |a * c| ≤ 1.01 := by
    have := abs_add_le (a * c - A * B) (A * B)
    rw [sub_add_cancel] at this
    linarith
  refine (ok_mul G hm na nc (by linarith)).mono ?_
  rintro r ⟨w, nw, rw'⟩
  refine ⟨w, nw, ?_⟩
  have k := rw'.err2
  have := mul_le_mul_of_nonneg_left e4 u0.le
  refine (abs_sub_le _ (a * c) _).trans ?_
  rw [abs_sub_comm w]
  linarith

theorem near_add (G : Good p b f) (hm : m.Fits b f) (H : Fine f) {τ : ℝ} (hτ : Unit' f τ) {x y : FloatVar p} {A B ε ε' : ℝ} (hx : Near f x A ε)
    (hy : Near f y B ε') (hA : |A| ≤ 1) (hB : |B| ≤ 1) (hε : ε ≤ 16 * τ) (hε' : ε' ≤ 16 * τ) {δ : ℝ} (hδ : ε + ε' + τ / 2 ≤ δ) :
    Ok m b (fAdd f x y) (fun r => Near f r (A + B) δ) := by
  obtain ⟨a, na, ea⟩ := hx
  obtain ⟨c, nc, ec⟩ := hy
  have hbig := big_ge G
  have h1 := hτ.ge
  have h2 := hτ.le
  have u0 := ulpHalf_pos (f := f)
  have hη := H.eta_le_u
  norm_num at h2 hη hbig
  have e1 : |a + c - (A + B)| ≤ ε + ε' := by
    rw [show a + c - (A + B) = (a - A) + (c - B) by ring]
    exact (abs_add_le _ _).trans (by linarith)
  have e4 : |a + c| ≤ 2.01 := by
    have := abs_add_le (a + c - (A + B)) (A + B)
    rw [sub_add_cancel] at this
    have := abs_add_le A B
    linarith
  have e5 : |a| ≤ 1.01 := by
    have := abs_add_le (a - A) A
    rw [sub_add_cancel] at this
    linarith
  refine (ok_add G hm na nc (by linarith) (by linarith)).mono ?_
  rintro r ⟨w, nw, rw'⟩
  refine ⟨w, nw, ?_⟩
  have k := rw'.err2
  have := mul_le_mul_of_nonneg_left e4 u0.le
  refine (abs_sub_le _ (a + c) _).trans ?_
  rw [abs_sub_comm w]
  linarith

theorem near_sub (G : Good p b f) (hm : m.Fits b f) (H : Fine f) {τ : ℝ} (hτ : Unit' f τ) {x y : FloatVar p} {A B ε ε' : ℝ} (hx : Near f x A ε)
    (hy : Near f y B ε') (hA : |A| ≤ 1) (hB : |B| ≤ 1) (hε : ε ≤ 16 * τ) (hε' : ε' ≤ 16 * τ) {δ : ℝ} (hδ : ε + ε' + τ / 2 ≤ δ) :
    Ok m b (fSub f x y) (fun r => Near f r (A - B) δ) := by
  obtain ⟨a, na, ea⟩ := hx
  obtain ⟨c, nc, ec⟩ := hy
  have hbig := big_ge G
  have h1 := hτ.ge
  have h2 := hτ.le
  have u0 := ulpHalf_pos (f := f)
  have hη := H.eta_le_u
  norm_num at h2 hη hbig
  have e1 : |a - c - (A - B)| ≤ ε + ε' := by
    rw [show a - c - (A - B) = (a - A) - (c - B) by ring]
    exact (abs_sub _ _).trans (by linarith)
  have e4 : |a - c| ≤ 2.01 := by
    have := abs_add_le (a - c - (A - B)) (A - B)
    rw [sub_add_cancel] at this
    have := abs_sub A B
    linarith
  have e5 : |a| ≤ 1.01 := by
    have := abs_add_le (a - A) A
    rw [sub_add_cancel] at this
    linarith
  refine (ok_sub G hm na nc (by linarith) (by linarith)).mono ?_
  rintro r ⟨w, nw, rw'⟩
  refine ⟨w, nw, ?_⟩
  have k := rw'.err2
  have := mul_le_mul_of_nonneg_left e4 u0.le
  refine (abs_sub_le _ (a - c) _).trans ?_
  rw [abs_sub_comm w]
  linarith

/-- One of the skewed coordinates lies between one and two, up to `δ`. -/
def Ambiguous (δ u v : ℝ) : Prop :=
  (1 - δ ≤ |u| + |v| / Real.sqrt 3 ∧ |u| + |v| / Real.sqrt 3 ≤ 2 + δ) ∨ (1 - δ ≤ 2 * |v| / Real.sqrt 3 ∧ 2 * |v| / Real.sqrt 3 ≤ 2 + δ)

/-- With an integral part of a coordinate replaced by zero the choice of the hexagon stays within one step. -/
theorem pick_near (G : Good p b f) {third twoThirds x1 x2 : ℝ} {m1 m2 i j : ℤ} (h6 : twoThirds ≤ 3 / 4)
    (hm1 : m1 = ⌊x1⌋ ∨ (1 ≤ x1 ∧ x1 < 2 ∧ m1 = 0)) (hm2 : m2 = ⌊x2⌋ ∨ (1 ≤ x2 ∧ x2 < 2 ∧ m2 = 0))
    (h : H3.Pick (Rn f) third twoThirds x1 x2 m1 m2 i j) : |x1 - i| ≤ 1 ∧ |x2 - j| ≤ 1 := by
  have h1R : Ieee.Representable ⟨f.E, f.M⟩ 1 := by simpa using powRepr G 0
  obtain ⟨r1, r2, d, dm, om, op, ho, ha, e1, e2, e3, e4, e5, e6, e7, e8, c1, c2, c3, c4⟩ := h
  have hf : ∀ {x : ℝ} {n : ℤ}, (n = ⌊x⌋ ∨ (1 ≤ x ∧ x < 2 ∧ n = 0)) → 0 ≤ x - n ∧ x - n < 2 := by
    rintro x n (rfl | ⟨k1, k2, rfl⟩)
    · have := Int.floor_le x; have := Int.lt_floor_add_one x; constructor <;> linarith
    · push_cast; constructor <;> linarith
  obtain ⟨f1, f1'⟩ := hf hm1
  have r10 : 0 ≤ r1 := e1.pos f1
  have r12 : r1 ≤ 2 := by
    have := e1.abs_le_pow G 1 (by rw [abs_of_nonneg f1]; linarith)
    rw [abs_of_nonneg r10] at this; linarith
  have key : (i = m1 ∨ i = m1 + 1) ∧ (j = m2 ∨ j = m2 + 1) ∧ (1 ≤ r1 → i = m1 + 1) ∧ (1 ≤ r2 → j = m2 + 1) := by
    rcases lt_or_ge r1 (1 / 2) with g1 | g1
    · have hom : om ≤ 1 := by
        have := e5.abs_le_pow G 0 (by rw [abs_of_nonneg (by linarith)]; linarith)
        have := le_abs_self om
        linarith
      rcases lt_or_ge r1 third with g2 | g2
      · obtain ⟨p1, p2, p3⟩ := c1 g1 g2
        have hop : |op| ≤ 2 := by simpa using e6.abs_le_pow G 1 (by rw [abs_of_nonneg (by linarith)]; linarith)
        have hho : ho ≤ 1 := by
          have := e7.abs_le_pow G 0 (by rw [abs_div, abs_two]; linarith)
          have := le_abs_self ho
          linarith
        refine ⟨.inl p1, ?_, fun h => by linarith, fun h => p3 (by linarith)⟩
        rcases lt_or_ge r2 ho with g3 | g3
        · exact .inl (p2 g3)
        · exact .inr (p3 g3)
      · obtain ⟨p1, p2, p3, p4⟩ := c2 g1 g2
        refine ⟨?_, ?_, fun h => by linarith, fun h => p2 (by linarith)⟩
        · by_cases g3 : om ≤ r2 ∧ r2 < d
          · exact .inr (p3 g3)
          · exact .inl (p4 g3)
        · rcases lt_or_ge r2 om with g3 | g3
          · exact .inl (p1 g3)
          · exact .inr (p2 g3)
    · rcases lt_or_ge r1 twoThirds with g2 | g2
      · have hom : om ≤ 1 := by
          have := e5.abs_le_pow G 0 (by rw [abs_of_nonneg (by linarith)]; linarith)
          have := le_abs_self om
          linarith
        obtain ⟨p1, p2, p3, p4⟩ := c3 g1 g2
        refine ⟨?_, ?_, fun h => by linarith, fun h => p2 (by linarith)⟩
        · by_cases g3 : dm < r2 ∧ r2 < om
          · exact .inl (p3 g3)
          · exact .inr (p4 g3)
        · rcases lt_or_ge r2 om with g3 | g3
          · exact .inl (p1 g3)
          · exact .inr (p2 g3)
      · obtain ⟨p1, p2, p3⟩ := c4 g1 g2
        have hha : ha ≤ 1 := by
          have := e8.abs_le_pow G 0 (by rw [abs_div, abs_two, abs_of_nonneg r10]; linarith)
          have := le_abs_self ha
          linarith
        refine ⟨.inr p1, ?_, fun _ => p1, fun h => p3 (by linarith)⟩
        rcases lt_or_ge r2 ha with g3 | g3
        · exact .inl (p2 g3)
        · exact .inr (p3 g3)
  obtain ⟨k1, k2, k3, k4⟩ := key
  have fin : ∀ {x r : ℝ} {n t : ℤ}, (n = ⌊x⌋ ∨ (1 ≤ x ∧ x < 2 ∧ n = 0)) → Rn f (x - n) r → (t = n ∨ t = n + 1) → (1 ≤ r → t = n + 1) → |x - t| ≤ 1 := by
    rintro x r n t (rfl | ⟨q1, q2, rfl⟩) hr ht hg
    · have := Int.floor_le x
      have := Int.lt_floor_add_one x
      rcases ht with rfl | rfl
      · rw [abs_le]; constructor <;> linarith
      · push_cast; rw [abs_le]; constructor <;> linarith
    · rw [hg (hr.ge h1R (by push_cast; linarith))]
      push_cast
      rw [abs_le]; constructor <;> linarith
  exact ⟨fin hm1 e1 k1 k3, fin hm2 e2 k2 k4⟩

/-- The hexagon of a prover's cell. -/
theorem hexagon_of_part (G : Good p b f) (hu : ulpHalf f ≤ 1 / 2 ^ 10) {s60 third twoThirds u v x1 x2 L : ℝ} {m1 m2 i j : ℕ} {sx sy : Bool}
    (h60 : |s60 - Real.sqrt 3 / 2| ≤ ulpHalf f) (h3 : |third - 1 / 3| ≤ ulpHalf f) (h6 : |twoThirds - 2 / 3| ≤ ulpHalf f) (h66 : twoThirds ≤ 3 / 4)
    (b1 : |u| ≤ L) (b2 : |v| ≤ L) (hL : 1 ≤ L) (hs : H3.Skew (Rn f) s60 |u| |v| x1 x2) (hp1 : Part m x1 m1) (hp2 : Part m x2 m2)
    (hp : H3.Pick (Rn f) third twoThirds x1 x2 m1 m2 i j) (hsx : |u| = if sx then -u else u) (hsy : |v| = if sy then -v else v) {t : ℤ × ℤ × ℤ}
    (ht : t = H3.ijkNormalize (H3.fold sx sy i j).1 (H3.fold sx sy i j).2 0) :
    H3.InHexagon (20 * ulpHalf f * L) t.1 t.2.1 t.2.2 u v ∨
      (m ≠ .honest ∧ Ambiguous (20 * ulpHalf f * L) u v ∧ H3.InHexagon (1 + 20 * ulpHalf f * L) t.1 t.2.1 t.2.2 u v) := by
  have hE : 3 ≤ f.E := by have := G.hE; omega
  have u0 := ulpHalf_pos (f := f)
  have hs0 : 0 < s60 := by
    have : 0.866 ≤ Real.sqrt 3 / 2 := by
      rw [le_div_iff₀ (by norm_num)]; exact Real.le_sqrt_of_sq_le (by norm_num)
    have := (abs_le.1 h60).1
    norm_num at *
    linarith
  have hx1 : 0 ≤ x1 := by
    obtain ⟨e1, t, e2, e3⟩ := hs
    exact e3.pos (add_nonneg (abs_nonneg _) (e2.pos (div_nonneg (e1.pos (by positivity)) (by norm_num))))
  have hx2 : 0 ≤ x2 := by
    obtain ⟨e1, t, e2, e3⟩ := hs
    exact e1.pos (by positivity)
  have e1 : (m1 : ℤ) = ⌊x1⌋ ∨ (m ≠ .honest ∧ 1 ≤ x1 ∧ x1 < 2 ∧ (m1:ℤ) = 0) := by
    rcases hp1 with rfl | ⟨h0, h, h', rfl⟩
    · left; exact natCast_floor_eq_intCast_floor hx1 |> fun h => by exact_mod_cast h
    · right; exact ⟨h0, h, h', rfl⟩
  have e2 : (m2 : ℤ) = ⌊x2⌋ ∨ (m ≠ .honest ∧ 1 ≤ x2 ∧ x2 < 2 ∧ (m2:ℤ) = 0) := by
    rcases hp2 with rfl | ⟨h0, h, h', rfl⟩
    · left; exact natCast_floor_eq_intCast_floor hx2 |> fun h => by exact_mod_cast h
    · right; exact ⟨h0, h, h', rfl⟩
  by_cases hc : (m1 : ℤ) = ⌊x1⌋ ∧ (m2 : ℤ) = ⌊x2⌋
  · left
    rw [hc.1, hc.2] at hp
    exact hexagon_of_pick hE hu h60 h3 h6 b1 b2 hL hs hp hsx hsy ht
  right
  obtain ⟨k2, k1⟩ := skew_err hE hu h60 (abs_nonneg u) (abs_nonneg v) b1 b2 hL hs
  have hs3 : Real.sqrt 3 * Real.sqrt 3 = 3 := Real.mul_self_sqrt (by norm_num)
  have hs0 : 0 < Real.sqrt 3 := Real.sqrt_pos.2 (by norm_num)
  obtain ⟨w, hw, hv⟩ : ∃ w, w = |v| / (Real.sqrt 3 / 2) ∧ |v| = w * (Real.sqrt 3 / 2) := ⟨_, rfl, by field_simp⟩
  have hw1 : |v| / Real.sqrt 3 = w / 2 := by rw [hw]; field_simp
  have hw2 : 2 * |v| / Real.sqrt 3 = w := by rw [hw]; field_simp
  have hL0 : 0 ≤ ulpHalf f * L := by positivity
  rw [← hw] at k1 k2
  have k1' := abs_le.1 k1
  have k2' := abs_le.1 k2
  refine ⟨?_, ?_, ?_⟩
  · rcases e1 with e1 | e1
    · rcases e2 with e2 | e2
      · exact absurd ⟨e1, e2⟩ hc
      · exact e2.1
    · exact e1.1
  · unfold Ambiguous
    rw [hw1, hw2]
    rcases e1 with e1 | ⟨_, e1, e1', _⟩
    · rcases e2 with e2 | ⟨_, e2, e2', _⟩
      · exact absurd ⟨e1, e2⟩ hc
      · right; constructor <;> linarith
    · left; constructor <;> linarith
  · obtain ⟨g1, g2⟩ := pick_near G h66 (e1.imp_right And.right) (e2.imp_right And.right) hp
    rw [ht]
    refine InHexagon.congr (H3.ijkNormalize_normalForm _ _ _) (fold_hexagon hsx hsy ?_)
    have d1 : |u| - (((i:ℤ) - (0:ℤ) : ℝ) - ((j:ℤ) - (0:ℤ) : ℝ) / 2) = |u| - ((i:ℤ) - (j:ℤ) / 2) := by push_cast; ring
    have d2 : Real.sqrt 3 / 2 * (|v| - ((j:ℤ) - (0:ℤ) : ℝ) * (Real.sqrt 3 / 2)) = 3 / 4 * (w - (j:ℤ)) := by
      rw [hv]; push_cast; linear_combination ((w - j) / 4) * hs3
    unfold H3.InHexagon
    simp only [d1, d2]
    simp only [abs_le] at *
    refine ⟨⟨?_, ?_⟩, ⟨?_, ?_⟩, ?_, ?_⟩ <;> linarith

end ZkLoc
