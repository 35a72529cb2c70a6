import Verif.Loc2Index
import Verif.GadgetSpec
import Verif.Spec.H3

/-!
# Helper lemmas: the integer part of the hexagon conversion
-/

namespace ZkLoc

variable {p : ℕ} [Fact p.Prime] {b : ℕ} {st : Bool}

/-! ### Any prover -/

/-- `IsPositive` for every prover, without a bound on the range-checked length: only wrap-around must be excluded. -/
theorem gIsPositive_sat (hb : Width b) {v : ZMod p} {z : ℤ} (hv : v = ((z : ℤ) : ZMod p)) {len : ℕ} (hlen : 0 < len)
    (hz : |z| + 2 ^ (len + 16) ≤ p) {r : ZMod p} (h : (gIsPositive v len).Sat b st r) :
    ∃ c : Bool, (0 < z → c = true) ∧ (z < 0 → c = false) ∧ r = B c := by
  subst hv
  have key : ∀ {y : ℤ}, |y| + 2 ^ (len + 16) ≤ p → CheckSat b ((y : ℤ) : ZMod p) len .loose → 0 ≤ y := by
    intro y hy hc
    rw [checkSat_loose_iff hb.pos hlen] at hc
    have h3 : ((y : ZMod p)).val < 2 ^ (len + 16) := lt_of_lt_of_le hc (Nat.pow_le_pow_right (by norm_num) (hb.mul_le hlen))
    have h3' : (((y : ZMod p)).val : ℤ) < 2 ^ (len + 16) := by exact_mod_cast h3
    by_contra hneg
    have hneg' : y < 0 := by omega
    rw [abs_of_neg hneg'] at hy
    have hpos : (0:ℤ) < 2 ^ (len + 16) := by positivity
    rw [val_intCast_neg hneg' (by linarith)] at h3'
    linarith
  simp only [gIsPositive, gAbs, newHint, Circ.bind_eq, Circ.bind, assertIsBoolean, select, softBool,
    assertBitLength, Circ.Sat, Circ.pure_eq] at h
  obtain ⟨c0, _, h1, _, h3, hr⟩ := h
  obtain ⟨c, rfl⟩ := (isBool_iff c0).1 h1
  rw [sel_B] at h3
  refine ⟨c, ?_, ?_, hr⟩
  · intro hpos
    cases c
    · simp only [Bool.false_eq_true, if_false] at h3
      have := key (y := -z) (by rw [abs_neg]; exact hz) (by push_cast; exact h3)
      omega
    · rfl
  · intro hneg
    cases c
    · rfl
    · simp only [if_true] at h3
      have := key hz h3
      omega

theorem sat_bind_pos {α : Type} (hb : Width b) {v : ZMod p} (z : ℤ) (hv : v = ((z : ℤ) : ZMod p)) {len : ℕ} (hlen : 0 < len)
    (hz : |z| + 2 ^ (len + 16) ≤ p) {f : ZMod p → Circ p α} {r : α} (h : (Circ.bind (gIsPositive v len) f).Sat b st r) :
    ∃ c : Bool, (0 < z → c = true) ∧ (z < 0 → c = false) ∧ (f (B c)).Sat b st r := by
  rw [Circ.sat_bind] at h
  obtain ⟨a, h1, h2⟩ := h
  obtain ⟨c, h3, h4, rfl⟩ := gIsPositive_sat hb hv hlen hz h1
  exact ⟨c, h3, h4, h2⟩

theorem sat_bind_select {α : Type} (c : Bool) {x y : ZMod p} {f : ZMod p → Circ p α} {r : α}
    (h : (Circ.bind (select (B c) x y) f).Sat b st r) : (f (if c then x else y)).Sat b st r := by
  rw [Circ.sat_bind] at h
  obtain ⟨a, h1, h2⟩ := h
  rw [(select_spec (H := True) c x y).sat trivial] at h1
  rwa [h1] at h2

/-- Selection between integers. -/
theorem sat_sel_int {α : Type} (c : Bool) {x y : ZMod p} (u v : ℤ) (hx : x = (u : ZMod p)) (hy : y = (v : ZMod p))
    {f : ZMod p → Circ p α} {r : α} (h : (Circ.bind (select (B c) x y) f).Sat b st r) :
    (f ((if c then u else v : ℤ) : ZMod p)).Sat b st r := by
  have := sat_bind_select c h
  cases c <;> simp_all

/-- Selection between booleans. -/
theorem sat_sel_bool {α : Type} (c : Bool) {x y : ZMod p} (u v : Bool) (hx : x = B u) (hy : y = B v)
    {f : ZMod p → Circ p α} {r : α} (h : (Circ.bind (select (B c) x y) f).Sat b st r) :
    (f (B (if c then u else v))).Sat b st r := by
  have := sat_bind_select c h
  cases c <;> simp_all

/-- Sign and magnitude of an integer; the sign of zero is free. -/
def SignMag (v : ℤ) (neg : Bool) (mag : ℤ) : Prop := 0 ≤ mag ∧ v = if neg then -mag else mag

theorem normalizeIJK_sat (hb : Width b) {I J K : ℤ} {ni nj nk : Bool} {i j k : ℤ} (hi : SignMag I ni i) (hj : SignMag J nj j)
    (hk : SignMag K nk k) (hp : 4 * (i + j + k) + 2 ^ 48 ≤ p) {r : ZMod p × ZMod p × ZMod p}
    (h : (normalizeIJK (B ni) (i : ZMod p) (B nj) (j : ZMod p) (B nk) (k : ZMod p)).Sat b st r) :
    r = (((H3.ijkNormalize I J K).1 : ZMod p), ((H3.ijkNormalize I J K).2.1 : ZMod p), ((H3.ijkNormalize I J K).2.2 : ZMod p)) := by
  obtain ⟨hi0, hI⟩ := hi
  obtain ⟨hj0, hJ⟩ := hj
  obtain ⟨hk0, hK⟩ := hk
  unfold normalizeIJK at h
  simp only [Circ.bind_eq, Circ.pure_eq] at h
  obtain ⟨c1, p1, n1, h⟩ := sat_bind_pos hb (i - j) (by push_cast; rfl) (by norm_num) (by rw [abs_eq_max_neg]; norm_num; omega) h
  replace h := sat_sel_int c1 (i - j) (j - i) (by push_cast; rfl) (by push_cast; rfl) h
  replace h := sat_sel_int nj _ (i + j) rfl (by push_cast; rfl) h
  replace h := sat_sel_bool nj (!c1) false (not_B c1) rfl h
  obtain ⟨c2, p2, n2, h⟩ := sat_bind_pos hb (i - k) (by push_cast; rfl) (by norm_num) (by rw [abs_eq_max_neg]; norm_num; omega) h
  replace h := sat_sel_int c2 (i - k) (k - i) (by push_cast; rfl) (by push_cast; rfl) h
  replace h := sat_sel_int nk _ (i + k) rfl (by push_cast; rfl) h
  replace h := sat_sel_bool nk (!c2) false (not_B c2) rfl h
  replace h := sat_sel_int ni 0 i (by push_cast; rfl) rfl h
  replace h := sat_sel_int ni _ j rfl rfl h
  replace h := sat_sel_bool ni _ nj rfl rfl h
  replace h := sat_sel_int ni _ k rfl rfl h
  replace h := sat_sel_bool ni _ nk rfl rfl h
  -- after the first step
  obtain ⟨i1, hi1⟩ : ∃ z, z = (if ni = true then 0 else i) := ⟨_, rfl⟩
  obtain ⟨j1, hj1⟩ : ∃ z, z = (if ni = true then (if nj = true then (if c1 = true then i - j else j - i) else i + j) else j) := ⟨_, rfl⟩
  obtain ⟨k1, hk1⟩ : ∃ z, z = (if ni = true then (if nk = true then (if c2 = true then i - k else k - i) else i + k) else k) := ⟨_, rfl⟩
  obtain ⟨nj1, hnj1⟩ : ∃ z, z = (if ni = true then (if nj = true then !c1 else false) else nj) := ⟨_, rfl⟩
  obtain ⟨nk1, hnk1⟩ : ∃ z, z = (if ni = true then (if nk = true then !c2 else false) else nk) := ⟨_, rfl⟩
  rw [← hi1, ← hj1, ← hk1, ← hnj1, ← hnk1] at h
  have b1 : 0 ≤ i1 ∧ 0 ≤ j1 ∧ 0 ≤ k1 ∧ i1 + j1 + k1 ≤ 2 * (i + j + k) := by
    clear h hnj1 hnk1
    subst hi1; subst hj1; subst hk1
    cases ni <;> cases nj <;> cases nk <;> cases c1 <;> cases c2 <;> simp at * <;> omega
  have e1 : H3.NormalForm I J K (H3.ijkNormalize I J K) := H3.ijkNormalize_normalForm I J K
  have s1 : i1 - I = (if nj1 then -j1 else j1) - J ∧ (if nj1 then -j1 else j1) - J = (if nk1 then -k1 else k1) - K := by
    clear h e1
    subst hi1; subst hj1; subst hk1; subst hnj1; subst hnk1; subst hI; subst hJ; subst hK
    cases ni <;> cases nj <;> cases nk <;> cases c1 <;> cases c2 <;> simp at * <;> omega
  clear hi1 hj1 hk1 hnj1 hnk1 p1 n1 p2 n2 hI hJ hK
  obtain ⟨c3, p3, n3, h⟩ := sat_bind_pos hb (j1 - k1) (by push_cast; rfl) (by norm_num) (by rw [abs_eq_max_neg]; norm_num; omega) h
  replace h := sat_sel_int c3 (j1 - k1) (k1 - j1) (by push_cast; rfl) (by push_cast; rfl) h
  replace h := sat_sel_int nk1 _ (j1 + k1) rfl (by push_cast; rfl) h
  replace h := sat_sel_bool nk1 (!c3) false (not_B c3) rfl h
  replace h := sat_sel_int nj1 (i1 + j1) i1 (by push_cast; rfl) rfl h
  replace h := sat_sel_int nj1 0 j1 (by push_cast; rfl) rfl h
  replace h := sat_sel_int nj1 _ k1 rfl rfl h
  replace h := sat_sel_bool nj1 _ nk1 rfl rfl h
  obtain ⟨i2, hi2⟩ : ∃ z, z = (if nj1 = true then i1 + j1 else i1) := ⟨_, rfl⟩
  obtain ⟨j2, hj2⟩ : ∃ z, z = (if nj1 = true then 0 else j1) := ⟨_, rfl⟩
  obtain ⟨k2, hk2⟩ : ∃ z, z = (if nj1 = true then (if nk1 = true then (if c3 = true then j1 - k1 else k1 - j1) else j1 + k1) else k1) := ⟨_, rfl⟩
  obtain ⟨nk2, hnk2⟩ : ∃ z, z = (if nj1 = true then (if nk1 = true then !c3 else false) else nk1) := ⟨_, rfl⟩
  rw [← hi2, ← hj2, ← hk2, ← hnk2] at h
  have b2 : 0 ≤ i2 ∧ 0 ≤ j2 ∧ 0 ≤ k2 ∧ i2 + j2 + k2 ≤ 2 * (i1 + j1 + k1) := by
    clear h hnk2 e1 s1
    subst hi2; subst hj2; subst hk2
    cases nj1 <;> cases nk1 <;> cases c3 <;> simp at * <;> omega
  have s2 : i2 - I = j2 - J ∧ j2 - J = (if nk2 then -k2 else k2) - K := by
    clear h e1
    subst hi2; subst hj2; subst hk2; subst hnk2
    cases nj1 <;> cases nk1 <;> cases c3 <;> simp at * <;> omega
  clear hi2 hj2 hk2 hnk2 p3 n3 s1
  replace h := sat_sel_int nk2 (i2 + k2) i2 (by push_cast; rfl) rfl h
  replace h := sat_sel_int nk2 (j2 + k2) j2 (by push_cast; rfl) rfl h
  replace h := sat_sel_int nk2 0 k2 (by push_cast; rfl) rfl h
  obtain ⟨i3, hi3⟩ : ∃ z, z = (if nk2 = true then i2 + k2 else i2) := ⟨_, rfl⟩
  obtain ⟨j3, hj3⟩ : ∃ z, z = (if nk2 = true then j2 + k2 else j2) := ⟨_, rfl⟩
  obtain ⟨k3, hk3⟩ : ∃ z, z = (if nk2 = true then 0 else k2) := ⟨_, rfl⟩
  rw [← hi3, ← hj3, ← hk3] at h
  have b3 : 0 ≤ i3 ∧ 0 ≤ j3 ∧ 0 ≤ k3 ∧ (i3 ≤ i2 + k2) ∧ j3 ≤ j2 + k2 ∧ k3 ≤ k2 := by
    subst hi3; subst hj3; subst hk3
    cases nk2 <;> simp <;> omega
  have s3 : i3 - I = j3 - J ∧ j3 - J = k3 - K := by
    subst hi3; subst hj3; subst hk3
    cases nk2 <;> simp at s2 ⊢ <;> omega
  clear hi3 hj3 hk3 s2
  obtain ⟨c4, p4, n4, h⟩ := sat_bind_pos hb (i3 - j3) (by push_cast; rfl) (by norm_num) (by rw [abs_eq_max_neg]; norm_num; omega) h
  replace h := sat_sel_int c4 j3 i3 rfl rfl h
  obtain ⟨m1, hm1⟩ : ∃ z, z = (if c4 = true then j3 else i3) := ⟨_, rfl⟩
  rw [← hm1] at h
  have hm1' : m1 = min i3 j3 := by
    subst hm1
    cases c4 <;> simp at * <;> omega
  clear hm1 p4 n4
  obtain ⟨c5, p5, n5, h⟩ := sat_bind_pos hb (m1 - k3) (by push_cast; rfl) (by norm_num) (by rw [abs_eq_max_neg]; norm_num; omega) h
  replace h := sat_sel_int c5 k3 m1 rfl rfl h
  obtain ⟨m2, hm2⟩ : ∃ z, z = (if c5 = true then k3 else m1) := ⟨_, rfl⟩
  rw [← hm2] at h
  have hm2' : m2 = min m1 k3 := by
    subst hm2
    cases c5 <;> simp at * <;> omega
  clear hm2 p5 n5
  have hn : H3.NormalForm I J K (i3 - m2, j3 - m2, k3 - m2) := by
    refine ⟨⟨?_, ?_, ?_⟩, ?_, ?_, ?_⟩ <;> simp only <;> omega
  rw [← hn.unique e1]
  simp only [Circ.Sat] at h
  rw [h]; push_cast; rfl

/-! ### The honest prover -/

theorem run_bind_pos {α : Type} (hb : Width b) {v : ZMod p} (z : ℤ) (hv : v = ((z : ℤ) : ZMod p)) {len : ℕ} (hlen : 0 < len)
    (hz : |z| < 2 ^ len) (hp : 2 ^ (len + 18) ≤ p) {f : ZMod p → Circ p α}
    (h : ∀ c : Bool, (0 < z → c = true) → (z < 0 → c = false) → ∃ r, (f (B c)).run b = some r) :
    ∃ r, (Circ.bind (gIsPositive v len) f).run b = some r := by
  subst hv
  rw [Circ.run_bind, (gIsPositive_spec (H := False) hb hlen hz hp).run]
  exact h _ (fun h => by simp; omega) (fun h => by simp; omega)

theorem run_bind_select {α : Type} (c : Bool) {x y : ZMod p} {f : ZMod p → Circ p α} :
    (Circ.bind (select (B c) x y) f).run b = (f (if c then x else y)).run b := by
  rw [Circ.run_bind, (select_spec (H := True) c x y).run]; rfl

theorem run_sel_int {α : Type} (c : Bool) {x y : ZMod p} (u v : ℤ) (hx : x = (u : ZMod p)) (hy : y = (v : ZMod p))
    {f : ZMod p → Circ p α} (h : ∃ r, (f ((if c then u else v : ℤ) : ZMod p)).run b = some r) :
    ∃ r, (Circ.bind (select (B c) x y) f).run b = some r := by
  rw [run_bind_select]
  cases c <;> simp_all

theorem run_sel_bool {α : Type} (c : Bool) {x y : ZMod p} (u v : Bool) (hx : x = B u) (hy : y = B v)
    {f : ZMod p → Circ p α} (h : ∃ r, (f (B (if c then u else v))).run b = some r) :
    ∃ r, (Circ.bind (select (B c) x y) f).run b = some r := by
  rw [run_bind_select]
  cases c <;> simp_all

theorem normalizeIJK_run (hb : Width b) {ni nj nk : Bool} {i j k : ℤ} (hi0 : 0 ≤ i) (hj0 : 0 ≤ j) (hk0 : 0 ≤ k)
    (hp : 2 ^ (32 + 18) ≤ p) (hs : i + j + k < 2 ^ 30) :
    ∃ r, (normalizeIJK (B ni) (i : ZMod p) (B nj) (j : ZMod p) (B nk) (k : ZMod p)).run b = some r := by
  unfold normalizeIJK
  simp only [Circ.bind_eq, Circ.pure_eq]
  refine run_bind_pos hb (i - j) (by push_cast; rfl) (by norm_num) (by rw [abs_eq_max_neg]; norm_num; omega) hp ?_
  intro c1 p1 n1
  refine run_sel_int c1 (i - j) (j - i) (by push_cast; rfl) (by push_cast; rfl) ?_
  refine run_sel_int nj _ (i + j) rfl (by push_cast; rfl) ?_
  refine run_sel_bool nj (!c1) false (not_B c1) rfl ?_
  refine run_bind_pos hb (i - k) (by push_cast; rfl) (by norm_num) (by rw [abs_eq_max_neg]; norm_num; omega) hp ?_
  intro c2 p2 n2
  refine run_sel_int c2 (i - k) (k - i) (by push_cast; rfl) (by push_cast; rfl) ?_
  refine run_sel_int nk _ (i + k) rfl (by push_cast; rfl) ?_
  refine run_sel_bool nk (!c2) false (not_B c2) rfl ?_
  refine run_sel_int ni 0 i (by push_cast; rfl) rfl ?_
  refine run_sel_int ni _ j rfl rfl ?_
  refine run_sel_bool ni _ nj rfl rfl ?_
  refine run_sel_int ni _ k rfl rfl ?_
  refine run_sel_bool ni _ nk rfl rfl ?_
  -- after the first step
  obtain ⟨i1, hi1⟩ : ∃ z, z = (if ni = true then 0 else i) := ⟨_, rfl⟩
  obtain ⟨j1, hj1⟩ : ∃ z, z = (if ni = true then (if nj = true then (if c1 = true then i - j else j - i) else i + j) else j) := ⟨_, rfl⟩
  obtain ⟨k1, hk1⟩ : ∃ z, z = (if ni = true then (if nk = true then (if c2 = true then i - k else k - i) else i + k) else k) := ⟨_, rfl⟩
  obtain ⟨nj1, hnj1⟩ : ∃ z, z = (if ni = true then (if nj = true then !c1 else false) else nj) := ⟨_, rfl⟩
  obtain ⟨nk1, hnk1⟩ : ∃ z, z = (if ni = true then (if nk = true then !c2 else false) else nk) := ⟨_, rfl⟩
  rw [← hi1, ← hj1, ← hk1, ← hnj1, ← hnk1]
  have b1 : 0 ≤ i1 ∧ 0 ≤ j1 ∧ 0 ≤ k1 ∧ i1 + j1 + k1 ≤ 2 * (i + j + k) := by
    clear hnj1 hnk1
    subst hi1; subst hj1; subst hk1
    cases ni <;> cases nj <;> cases nk <;> cases c1 <;> cases c2 <;> simp at * <;> omega

  clear hi1 hj1 hk1 hnj1 hnk1 p1 n1 p2 n2
  refine run_bind_pos hb (j1 - k1) (by push_cast; rfl) (by norm_num) (by rw [abs_eq_max_neg]; norm_num; omega) hp ?_
  intro c3 p3 n3
  refine run_sel_int c3 (j1 - k1) (k1 - j1) (by push_cast; rfl) (by push_cast; rfl) ?_
  refine run_sel_int nk1 _ (j1 + k1) rfl (by push_cast; rfl) ?_
  refine run_sel_bool nk1 (!c3) false (not_B c3) rfl ?_
  refine run_sel_int nj1 (i1 + j1) i1 (by push_cast; rfl) rfl ?_
  refine run_sel_int nj1 0 j1 (by push_cast; rfl) rfl ?_
  refine run_sel_int nj1 _ k1 rfl rfl ?_
  refine run_sel_bool nj1 _ nk1 rfl rfl ?_
  obtain ⟨i2, hi2⟩ : ∃ z, z = (if nj1 = true then i1 + j1 else i1) := ⟨_, rfl⟩
  obtain ⟨j2, hj2⟩ : ∃ z, z = (if nj1 = true then 0 else j1) := ⟨_, rfl⟩
  obtain ⟨k2, hk2⟩ : ∃ z, z = (if nj1 = true then (if nk1 = true then (if c3 = true then j1 - k1 else k1 - j1) else j1 + k1) else k1) := ⟨_, rfl⟩
  obtain ⟨nk2, hnk2⟩ : ∃ z, z = (if nj1 = true then (if nk1 = true then !c3 else false) else nk1) := ⟨_, rfl⟩
  rw [← hi2, ← hj2, ← hk2, ← hnk2]
  have b2 : 0 ≤ i2 ∧ 0 ≤ j2 ∧ 0 ≤ k2 ∧ i2 + j2 + k2 ≤ 2 * (i1 + j1 + k1) := by
    clear hnk2
    subst hi2; subst hj2; subst hk2
    cases nj1 <;> cases nk1 <;> cases c3 <;> simp at * <;> omega

  clear hi2 hj2 hk2 hnk2 p3 n3
  refine run_sel_int nk2 (i2 + k2) i2 (by push_cast; rfl) rfl ?_
  refine run_sel_int nk2 (j2 + k2) j2 (by push_cast; rfl) rfl ?_
  refine run_sel_int nk2 0 k2 (by push_cast; rfl) rfl ?_
  obtain ⟨i3, hi3⟩ : ∃ z, z = (if nk2 = true then i2 + k2 else i2) := ⟨_, rfl⟩
  obtain ⟨j3, hj3⟩ : ∃ z, z = (if nk2 = true then j2 + k2 else j2) := ⟨_, rfl⟩
  obtain ⟨k3, hk3⟩ : ∃ z, z = (if nk2 = true then 0 else k2) := ⟨_, rfl⟩
  rw [← hi3, ← hj3, ← hk3]
  have b3 : 0 ≤ i3 ∧ 0 ≤ j3 ∧ 0 ≤ k3 ∧ (i3 ≤ i2 + k2) ∧ j3 ≤ j2 + k2 ∧ k3 ≤ k2 := by
    subst hi3; subst hj3; subst hk3
    cases nk2 <;> simp <;> omega

  clear hi3 hj3 hk3
  refine run_bind_pos hb (i3 - j3) (by push_cast; rfl) (by norm_num) (by rw [abs_eq_max_neg]; norm_num; omega) hp ?_
  intro c4 p4 n4
  refine run_sel_int c4 j3 i3 rfl rfl ?_
  obtain ⟨m1, hm1⟩ : ∃ z, z = (if c4 = true then j3 else i3) := ⟨_, rfl⟩
  rw [← hm1]
  have hm1' : m1 = min i3 j3 := by
    subst hm1
    cases c4 <;> simp at * <;> omega
  clear hm1 p4 n4
  refine run_bind_pos hb (m1 - k3) (by push_cast; rfl) (by norm_num) (by rw [abs_eq_max_neg]; norm_num; omega) hp ?_
  intro c5 p5 n5
  refine run_sel_int c5 k3 m1 rfl rfl ?_
  obtain ⟨m2, hm2⟩ : ∃ z, z = (if c5 = true then k3 else m1) := ⟨_, rfl⟩
  rw [← hm2]
  have hm2' : m2 = min m1 k3 := by
    subst hm2
    cases c5 <;> simp at * <;> omega

  exact ⟨_, rfl⟩

/-! ### The fold across the axes -/

/-- The part of `hex2dToCoordIJK` after the rounding, lines 202-216. -/
def foldNormalize (xSign ySign i j : ZMod p) : Circ p (ZMod p × ZMod p × ZMod p) := do
  let r ← foldAxes xSign ySign i j
  normalizeIJK r.1 r.2 ySign j 0 0

theorem hex2dToCoordIJK_eq (f : Fmt) (g : GeoConsts) (x y : FloatVar p) :
    hex2dToCoordIJK f g x y = Circ.bind (quadrantIJ f g x y) (fun ij => foldNormalize x.sign y.sign ij.1 ij.2) := rfl

theorem fold_eq (sx sy : Bool) (i j : ℤ) : H3.fold sx sy i j =
    (if sx then (if sy then -i else j - i) else (if sy then i - j else i), if sy then -j else j) := by
  unfold H3.fold
  cases sx <;> cases sy <;> simp <;> try (split <;> omega)
  omega

theorem foldAxes_sat (hb : Width b) {sx sy : Bool} {i j : ℤ} (hi : 0 ≤ i) (hj : 0 ≤ j) (hp : i + j + 2 ^ 48 ≤ p)
    {r : ZMod p × ZMod p} (h : (foldAxes (B sx) (B sy) (i : ZMod p) (j : ZMod p)).Sat b st r) :
    ∃ n m, SignMag (H3.fold sx sy i j).1 n m ∧ m ≤ i + j ∧ r = (B n, (m : ZMod p)) := by
  unfold foldAxes at h
  simp only [Circ.bind_eq, Circ.pure_eq] at h
  obtain ⟨c1, p1, n1, h⟩ := sat_bind_pos hb (i - j) (by push_cast; rfl) (by norm_num) (by rw [abs_eq_max_neg]; norm_num; omega) h
  replace h := sat_sel_bool sy true c1 rfl rfl h
  replace h := sat_sel_bool sy (!c1) false (not_B c1) rfl h
  replace h := sat_sel_bool sx _ _ rfl rfl h
  replace h := sat_sel_int c1 (i - j) (j - i) (by push_cast; rfl) (by push_cast; rfl) h
  replace h := sat_sel_int sy i _ rfl rfl h
  replace h := sat_sel_int c1 (i - j) (j - i) (by push_cast; rfl) (by push_cast; rfl) h
  replace h := sat_sel_int sy _ i rfl rfl h
  replace h := sat_sel_int sx _ _ rfl rfl h
  simp only [Circ.Sat] at h
  refine ⟨_, _, ?_, ?_, h⟩
  · rw [fold_eq]
    unfold SignMag
    cases sx <;> cases sy <;> cases c1 <;> simp at * <;> omega
  · cases sx <;> cases sy <;> cases c1 <;> simp <;> omega

theorem foldAxes_run (hb : Width b) {sx sy : Bool} {i j : ℤ} (hi : 0 ≤ i) (hj : 0 ≤ j) (hp : 2 ^ (32 + 18) ≤ p) (hs : i + j < 2 ^ 30) :
    ∃ r, (foldAxes (B sx) (B sy) (i : ZMod p) (j : ZMod p)).run b = some r := by
  unfold foldAxes
  simp only [Circ.bind_eq, Circ.pure_eq]
  refine run_bind_pos hb (i - j) (by push_cast; rfl) (by norm_num) (by rw [abs_eq_max_neg]; norm_num; omega) hp ?_
  intro c1 p1 n1
  refine run_sel_bool sy true c1 rfl rfl ?_
  refine run_sel_bool sy (!c1) false (not_B c1) rfl ?_
  refine run_sel_bool sx _ _ rfl rfl ?_
  refine run_sel_int c1 (i - j) (j - i) (by push_cast; rfl) (by push_cast; rfl) ?_
  refine run_sel_int sy i _ rfl rfl ?_
  refine run_sel_int c1 (i - j) (j - i) (by push_cast; rfl) (by push_cast; rfl) ?_
  refine run_sel_int sy _ i rfl rfl ?_
  refine run_sel_int sx _ _ rfl rfl ?_
  exact ⟨_, rfl⟩

theorem foldNormalize_sat (hb : Width b) {sx sy : Bool} {i j : ℤ} (hi : 0 ≤ i) (hj : 0 ≤ j) (hp : 8 * (i + j) + 2 ^ 48 ≤ p)
    {r : ZMod p × ZMod p × ZMod p} (h : (foldNormalize (B sx) (B sy) (i : ZMod p) (j : ZMod p)).Sat b st r) :
    r = (((H3.ijkNormalize (H3.fold sx sy i j).1 (H3.fold sx sy i j).2 0).1 : ZMod p),
      ((H3.ijkNormalize (H3.fold sx sy i j).1 (H3.fold sx sy i j).2 0).2.1 : ZMod p),
      ((H3.ijkNormalize (H3.fold sx sy i j).1 (H3.fold sx sy i j).2 0).2.2 : ZMod p)) := by
  unfold foldNormalize at h
  rw [Circ.bind_eq, Circ.sat_bind] at h
  obtain ⟨a, h1, h2⟩ := h
  obtain ⟨n, m, h3, h4, rfl⟩ := foldAxes_sat hb hi hj (by omega) h1
  have hs : SignMag (H3.fold sx sy i j).2 sy j := ⟨hj, by rw [fold_eq]⟩
  have h5 : (normalizeIJK (B n) (m : ZMod p) (B sy) (j : ZMod p) (B false) ((0:ℤ) : ZMod p)).Sat b st r := by
    rw [Int.cast_zero, B_false]; exact h2
  have h0 : SignMag 0 false 0 := ⟨le_rfl, by simp⟩
  have h6 : 4 * (m + j + 0) + 2 ^ 48 ≤ (p:ℤ) := by linarith
  clear h1 h2 hp
  exact normalizeIJK_sat hb h3 hs h0 h6 h5

theorem foldNormalize_run (hb : Width b) {sx sy : Bool} {i j : ℤ} (hi : 0 ≤ i) (hj : 0 ≤ j) (hp : 2 ^ (32 + 18) ≤ p) (hs : i + j < 2 ^ 29) :
    ∃ r, (foldNormalize (B sx) (B sy) (i : ZMod p) (j : ZMod p)).run b = some r := by
  obtain ⟨a, h1⟩ := foldAxes_run (p := p) hb (sx := sx) (sy := sy) hi hj hp (by omega)
  obtain ⟨n, m, h3, h4, rfl⟩ := foldAxes_sat hb hi hj (by push_cast at hp ⊢; omega) (Circ.sat_of_run (st := true) _ _ h1)
  unfold foldNormalize
  rw [Circ.bind_eq, Circ.run_bind, h1]
  have := normalizeIJK_run (p := p) hb (ni := n) (nj := sy) (nk := false) h3.1 hj (le_refl 0) hp (by omega)
  rw [Int.cast_zero, B_false] at this
  exact this

end ZkLoc
