import Verif.Spec.Ieee

/-!
# Specification: H3's hexagon coordinates

Written from the published H3 library (`coordijk.c`: `_ijkNormalize`, `_hex2dToCoordIJK`); that source is not part of /repo (the directory
`/repo/h3-master` is empty). Independent of the model of the Go code.
-/

namespace H3

/-- `_ijkNormalize`: remove negative components one after the other, then subtract the minimum. -/
def ijkNormalize (i j k : ℤ) : ℤ × ℤ × ℤ :=
  let (i, j, k) := if i < 0 then (0, j - i, k - i) else (i, j, k)
  let (i, j, k) := if j < 0 then (i - j, 0, k - j) else (i, j, k)
  let (i, j, k) := if k < 0 then (i - k, j - k, 0) else (i, j, k)
  let m := min (min i j) k
  (i - m, j - m, k - m)

/-- `t` is the normal form of the hexagon `(i, j, k)`: no negative component, one of them zero, and it differs from `(i, j, k)` by the same number
in all components (adding a number to all three components does not change the hexagon). -/
structure NormalForm (i j k : ℤ) (t : ℤ × ℤ × ℤ) : Prop where
  nonneg : 0 ≤ t.1 ∧ 0 ≤ t.2.1 ∧ 0 ≤ t.2.2
  zero : t.1 = 0 ∨ t.2.1 = 0 ∨ t.2.2 = 0
  same : t.1 - i = t.2.1 - j ∧ t.2.1 - j = t.2.2 - k

/-- A hexagon has one normal form. -/
theorem NormalForm.unique {i j k : ℤ} {t u : ℤ × ℤ × ℤ} (ht : NormalForm i j k t) (hu : NormalForm i j k u) : t = u := by
  obtain ⟨t1, t2, t3⟩ := t
  obtain ⟨u1, u2, u3⟩ := u
  obtain ⟨⟨a1, a2, a3⟩, a4, a5, a6⟩ := ht
  obtain ⟨⟨b1, b2, b3⟩, b4, b5, b6⟩ := hu
  simp only [Prod.mk.injEq] at *
  omega

/-- H3's algorithm computes the normal form. -/
theorem ijkNormalize_normalForm (i j k : ℤ) : NormalForm i j k (ijkNormalize i j k) := by
  have h : ∀ i j k : ℤ, 0 ≤ i → 0 ≤ j → 0 ≤ k →
      NormalForm i j k (i - min (min i j) k, j - min (min i j) k, k - min (min i j) k) := by
    intro i j k hi hj hk
    refine ⟨⟨?_, ?_, ?_⟩, ?_, ?_, ?_⟩ <;> simp only <;> omega
  have hs : ∀ {i j k i' j' k' : ℤ} {t}, NormalForm i' j' k' t → i' - i = j' - j → j' - j = k' - k → NormalForm i j k t := by
    rintro i j k i' j' k' t ⟨h1, h2, h3, h4⟩ e1 e2
    exact ⟨h1, h2, by omega, by omega⟩
  unfold ijkNormalize
  split <;> rename_i i1 j1 k1 e1
  split <;> rename_i i2 j2 k2 e2
  split <;> rename_i i3 j3 k3 e3
  split at e1 <;> split at e2 <;> split at e3 <;> cases e1 <;> cases e2 <;> cases e3 <;>
    exact hs (h _ _ _ (by omega) (by omega) (by omega)) (by omega) (by omega)

/-- The fold across the axes at the end of `_hex2dToCoordIJK`, with H3's parity case distinction: `xNeg`, `yNeg` stand for `v->x < 0.0` and
`v->y < 0.0`. -/
def fold (xNeg yNeg : Bool) (i j : ℤ) : ℤ × ℤ :=
  let i := if xNeg then (if j % 2 = 0 then i - 2 * (i - j / 2) else i - (2 * (i - (j + 1) / 2) + 1)) else i
  if yNeg then (i - (2 * j + 1) / 2, -1 * j) else (i, j)

/-- The skewed coordinates at the beginning of `_hex2dToCoordIJK` in an arithmetic that rounds by `rn` (`rn e w`: the result `e` of an operation is
delivered as `w`): `x2 = a2 / M_SIN60; x1 = a1 + x2 / 2.0`. -/
def Skew (rn : ℝ → ℝ → Prop) (sin60 a1 a2 x1 x2 : ℝ) : Prop :=
  rn (a2 / sin60) x2 ∧ ∃ t, rn (x2 / 2) t ∧ rn (a1 + t) x1

/-- The quadrant logic of `_hex2dToCoordIJK` in an arithmetic that rounds by `rn`: from the skewed coordinates `x1`, `x2` and their integral parts
`m1`, `m2` to the hexagon `(i, j)`. The constants `third`, `twoThirds` stand for `1.0 / 3.0`, `2.0 / 3.0`. -/
def Pick (rn : ℝ → ℝ → Prop) (third twoThirds x1 x2 : ℝ) (m1 m2 i j : ℤ) : Prop :=
  ∃ r1 r2 double doubleM1 oneM oneP halfOneP half : ℝ,
    rn (x1 - m1) r1 ∧ rn (x2 - m2) r2 ∧ rn (2 * r1) double ∧ rn (double - 1) doubleM1 ∧ rn (1 - r1) oneM ∧ rn (1 + r1) oneP ∧
    rn (oneP / 2) halfOneP ∧ rn (r1 / 2) half ∧
    (r1 < 1 / 2 → r1 < third → i = m1 ∧ (r2 < halfOneP → j = m2) ∧ (halfOneP ≤ r2 → j = m2 + 1)) ∧
    (r1 < 1 / 2 → third ≤ r1 → (r2 < oneM → j = m2) ∧ (oneM ≤ r2 → j = m2 + 1) ∧
      (oneM ≤ r2 ∧ r2 < double → i = m1 + 1) ∧ (¬ (oneM ≤ r2 ∧ r2 < double) → i = m1)) ∧
    (1 / 2 ≤ r1 → r1 < twoThirds → (r2 < oneM → j = m2) ∧ (oneM ≤ r2 → j = m2 + 1) ∧
      (doubleM1 < r2 ∧ r2 < oneM → i = m1) ∧ (¬ (doubleM1 < r2 ∧ r2 < oneM) → i = m1 + 1)) ∧
    (1 / 2 ≤ r1 → twoThirds ≤ r1 → i = m1 + 1 ∧ (r2 < half → j = m2) ∧ (half ≤ r2 → j = m2 + 1))

/-- `_hex2dToCoordIJK` of the plane point `(u, v)` in an arithmetic that rounds by `rn`. -/
def Hex2d (rn : ℝ → ℝ → Prop) (sin60 third twoThirds u v : ℝ) (t : ℤ × ℤ × ℤ) : Prop :=
  ∃ (x1 x2 : ℝ) (i j : ℤ), Skew rn sin60 |u| |v| x1 x2 ∧ Pick rn third twoThirds x1 x2 ⌊x1⌋ ⌊x2⌋ i j ∧
    ∃ xNeg yNeg : Bool, (xNeg = true ↔ u < 0) ∧ (yNeg = true ↔ v < 0) ∧
      t = ijkNormalize (fold xNeg yNeg i j).1 (fold xNeg yNeg i j).2 0

theorem Skew.unique {rn : ℝ → ℝ → Prop} (hrn : ∀ e w w', rn e w → rn e w' → w = w') {s a1 a2 x1 x2 y1 y2 : ℝ} (h : Skew rn s a1 a2 x1 x2)
    (h' : Skew rn s a1 a2 y1 y2) : x1 = y1 ∧ x2 = y2 := by
  obtain ⟨h1, t, h2, h3⟩ := h
  obtain ⟨g1, t', g2, g3⟩ := h'
  have e := hrn _ _ _ h1 g1
  subst e
  have e := hrn _ _ _ h2 g2
  subst e
  exact ⟨hrn _ _ _ h3 g3, rfl⟩

theorem Pick.unique {rn : ℝ → ℝ → Prop} (hrn : ∀ e w w', rn e w → rn e w' → w = w') {t t' x1 x2 : ℝ} {m1 m2 i j i' j' : ℤ}
    (h : Pick rn t t' x1 x2 m1 m2 i j) (h' : Pick rn t t' x1 x2 m1 m2 i' j') : i = i' ∧ j = j' := by
  obtain ⟨r1, r2, d, dm, om, op, ho, ha, h1, h2, h3, h4, h5, h6, h7, h8, b1, b2, b3, b4⟩ := h
  obtain ⟨r1', r2', d', dm', om', op', ho', ha', g1, g2, g3, g4, g5, g6, g7, g8, c1, c2, c3, c4⟩ := h'
  obtain rfl := hrn _ _ _ h1 g1
  obtain rfl := hrn _ _ _ h2 g2
  obtain rfl := hrn _ _ _ h3 g3
  obtain rfl := hrn _ _ _ h4 g4
  obtain rfl := hrn _ _ _ h5 g5
  obtain rfl := hrn _ _ _ h6 g6
  obtain rfl := hrn _ _ _ h7 g7
  obtain rfl := hrn _ _ _ h8 g8
  clear h1 h2 h3 h4 h5 h6 h7 h8 g1 g2 g3 g4 g5 g6 g7 g8
  rcases lt_or_ge r1 (1 / 2) with e1 | e1
  · clear b3 b4 c3 c4
    rcases lt_or_ge r1 t with e2 | e2
    · obtain ⟨rfl, p1, p2⟩ := b1 e1 e2
      obtain ⟨rfl, q1, q2⟩ := c1 e1 e2
      rcases lt_or_ge r2 ho with e3 | e3
      · exact ⟨rfl, by rw [p1 e3, q1 e3]⟩
      · exact ⟨rfl, by rw [p2 e3, q2 e3]⟩
    · obtain ⟨p1, p2, p3, p4⟩ := b2 e1 e2
      obtain ⟨q1, q2, q3, q4⟩ := c2 e1 e2
      refine ⟨?_, ?_⟩
      · by_cases e3 : om ≤ r2 ∧ r2 < d
        · rw [p3 e3, q3 e3]
        · rw [p4 e3, q4 e3]
      · rcases lt_or_ge r2 om with e3 | e3
        · rw [p1 e3, q1 e3]
        · rw [p2 e3, q2 e3]
  · clear b1 b2 c1 c2
    rcases lt_or_ge r1 t' with e2 | e2
    · obtain ⟨p1, p2, p3, p4⟩ := b3 e1 e2
      obtain ⟨q1, q2, q3, q4⟩ := c3 e1 e2
      refine ⟨?_, ?_⟩
      · by_cases e3 : dm < r2 ∧ r2 < om
        · rw [p3 e3, q3 e3]
        · rw [p4 e3, q4 e3]
      · rcases lt_or_ge r2 om with e3 | e3
        · rw [p1 e3, q1 e3]
        · rw [p2 e3, q2 e3]
    · obtain ⟨rfl, p1, p2⟩ := b4 e1 e2
      obtain ⟨rfl, q1, q2⟩ := c4 e1 e2
      rcases lt_or_ge r2 ha with e3 | e3
      · exact ⟨rfl, by rw [p1 e3, q1 e3]⟩
      · exact ⟨rfl, by rw [p2 e3, q2 e3]⟩

/-- A point has one hexagon. -/
theorem Hex2d.unique {rn : ℝ → ℝ → Prop} (hrn : ∀ e w w', rn e w → rn e w' → w = w') {s t t' u v : ℝ} {c c' : ℤ × ℤ × ℤ}
    (h : Hex2d rn s t t' u v c) (h' : Hex2d rn s t t' u v c') : c = c' := by
  obtain ⟨x1, x2, i, j, h1, h2, n1, n2, h3, h4, rfl⟩ := h
  obtain ⟨y1, y2, i', j', g1, g2, k1, k2, g3, g4, rfl⟩ := h'
  obtain ⟨rfl, rfl⟩ := h1.unique hrn g1
  obtain ⟨rfl, rfl⟩ := h2.unique hrn g2
  have e1 : n1 = k1 := by rw [Bool.eq_iff_iff, h3, g3]
  have e2 : n2 = k2 := by rw [Bool.eq_iff_iff, h4, g4]
  rw [e1, e2]

end H3

namespace H3

/-- The bits of `t`, least significant first. -/
def bitsOf : ℕ → ℕ → List Bool
  | 0, _ => []
  | n + 1, t => decide (t % 2 = 1) :: bitsOf n (t / 2)

/-- Square-and-multiply in an arithmetic that rounds by `rn`: `μ` is multiplied by the powers whose bit is set. -/
def ScaleLoop (rn : ℝ → ℝ → Prop) : List Bool → List ℝ → ℝ → ℝ → Prop
  | b :: bs, q :: qs, μ, μ' => if b then ∃ t, rn (μ * q) t ∧ ScaleLoop rn bs qs t μ' else ScaleLoop rn bs qs μ μ'
  | _, _, μ, μ' => μ' = μ

end H3

namespace H3

/-- H3's `_pointSquareDist` in an arithmetic that rounds by `rn`: the squared distance of the points `(a, b, c)` and `(x, y, z)`. -/
def SquareDist (rn : ℝ → ℝ → Prop) (a b c x y z d : ℝ) : Prop :=
  ∃ d1 s1 d2 s2 d3 s3 t, rn (a - x) d1 ∧ rn (d1 * d1) s1 ∧ rn (b - y) d2 ∧ rn (d2 * d2) s2 ∧ rn (c - z) d3 ∧ rn (d3 * d3) s3 ∧
    rn (s1 + s2) t ∧ rn (t + s3) d

/-- `k` is the position of the first smallest element of `ds`, which is `d`. -/
structure FirstMin (ds : List ℝ) (k : ℕ) (d : ℝ) : Prop where
  at_k : ds[k]? = some d
  least : ∀ e ∈ ds, d ≤ e
  first : ∀ i e, i < k → ds[i]? = some e → d < e

end H3
