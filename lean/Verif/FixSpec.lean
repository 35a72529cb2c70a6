import Verif.RoundAny

/-!
# Helper lemmas: `fixOverflow`
-/

namespace ZkLoc

/-- Integer-level `fixOverflow`; `c` resolves the freedom of `IsPositive` at exactly `E_MAX`. -/
def fixZ (f : Fmt) (m : ℕ) (mz : Bool) (e : ℤ) (abn c : Bool) : ℕ × ℤ × Bool :=
  let mo : Bool := decide (m = 2 ^ (f.M + 1))
  let e' := e + (if mo then 1 else 0)
  let a := decide (f.eMax < e') || (decide (e' = f.eMax) && c) || abn
  (if mo || a then 2 ^ f.M else m, if a then f.eMax else if mz then f.eMin else e', a)

/-- Wires of an integer-level triple. -/
def fixOut {p : ℕ} (r : ℕ × ℤ × Bool) : ZMod p × ZMod p × ZMod p :=
  (((r.1 : ℕ) : ZMod p), ((r.2.1 : ℤ) : ZMod p), B r.2.2)

variable {p : ℕ} [Fact p.Prime] {b : ℕ} {H : Prop} {f : Fmt}

theorem fixOverflow_spec (G : Good p b f) {m : ℕ} {mz abn : Bool} {e : ℤ} (hm : m < p)
    (h1 : -3 * f.eMax < e) (h2 : e + 1 < 5 * f.eMax) :
    Spec b H (fixOverflow f ((m : ℕ) : ZMod p) (B mz) ((e : ℤ) : ZMod p) (B abn))
      (fixOut (fixZ f m mz e abn true)) (fun r => ∃ c, r = fixOut (fixZ f m mz e abn c)) := by
  have hE := G.hE
  have hEM := G.hEM
  have hmo : gIsEq ((m : ℕ) : ZMod p) (tw (f.M + 1)) = B (decide (m = 2 ^ (f.M + 1))) := by
    have e2 : (tw (f.M + 1) : ZMod p) = ((2 ^ (f.M + 1) : ℕ) : ZMod p) := by push_cast; rfl
    rw [gIsEq_eq, e2]; congr 1; rw [decide_eq_decide]
    exact natCast_inj hm (G.pow_lt (by omega))
  unfold fixOverflow
  simp only [Circ.bind_eq, hmo, Circ.pure_eq]
  obtain ⟨mo, hmo'⟩ : ∃ mo : Bool, mo = decide (m = 2 ^ (f.M + 1)) := ⟨_, rfl⟩
  obtain ⟨e', he'⟩ : ∃ e' : ℤ, e' = e + (if mo then 1 else 0) := ⟨_, rfl⟩
  rw [← hmo']
  have hee : ((e : ℤ) : ZMod p) + B mo = ((e' : ℤ) : ZMod p) := by rw [he', B_int]; push_cast; rfl
  rw [hee, ← Int.cast_sub]
  have hbd : |e' - f.eMax| < 2 ^ (f.E + 1) := by
    rw [G.zE1, abs_lt]
    have : e' = e ∨ e' = e + 1 := by cases mo <;> simp at he' <;> omega
    constructor <;> omega
  have key : ∀ c : Bool,
      Det b H (Circ.bind (or' (B c) (B abn)) fun isAbnormal =>
        Circ.bind (or' (B mo) isAbnormal) fun c => Circ.bind (select c (tw f.M) ((m : ℕ) : ZMod p)) fun m =>
        Circ.bind (select (B mz) ((f.eMin : ℤ) : ZMod p) ((e' : ℤ) : ZMod p)) fun e1 =>
        Circ.bind (select isAbnormal ((f.eMax : ℤ) : ZMod p) e1) fun e => Circ.pure (m, e, isAbnormal))
      (fixOut (if mo || (c || abn) then 2 ^ f.M else m,
        if (c || abn) then f.eMax else if mz then f.eMin else e', (c || abn))) := by
    intro c
    refine Spec.det_bind (or_spec _ _) (Spec.det_bind (or_spec _ _) (Spec.det_bind (select_spec _ _ _)
      (Spec.det_bind (select_spec _ _ _) (Spec.det_bind (select_spec _ _ _) ?_))))
    have : ((if (mo || (c || abn)) = true then (tw f.M : ZMod p) else ((m : ℕ) : ZMod p)),
      (if (c || abn) = true then ((f.eMax : ℤ) : ZMod p) else if mz = true then ((f.eMin : ℤ) : ZMod p)
        else ((e' : ℤ) : ZMod p)), (B (c || abn) : ZMod p)) = fixOut (if mo || (c || abn) then 2 ^ f.M else m,
        if (c || abn) then f.eMax else if mz then f.eMin else e', (c || abn)) := by
      unfold fixOut
      cases mo <;> cases c <;> cases abn <;> cases mz <;> simp
    rw [← this]
    exact Spec.pure _
  have hz : ∀ c : Bool, (0 < e' - f.eMax → c = true) → (e' - f.eMax < 0 → c = false) →
      c = (decide (f.eMax < e') || (decide (e' = f.eMax) && c)) := by
    intro c h1 h2
    rcases lt_trichotomy e' f.eMax with h | h | h
    · rw [h2 (by omega)]; simp; omega
    · simp [h]
    · rw [h1 (by omega)]; simp [h]
  have hfix : ∀ c, fixZ f m mz e abn c = (if mo || ((decide (f.eMax < e') || (decide (e' = f.eMax) && c)) || abn) then 2 ^ f.M else m,
        if ((decide (f.eMax < e') || (decide (e' = f.eMax) && c)) || abn) then f.eMax else if mz then f.eMin else e',
        ((decide (f.eMax < e') || (decide (e' = f.eMax) && c)) || abn)) := by
    intro c; unfold fixZ; rw [← hmo', he']
  refine (Spec.bind_pos (H := H) G.width (by omega) hbd (G.pow_le (by omega)) (fun c _ _ => key c)).congr ?_ ?_
  · rw [hfix]
    have : decide (0 ≤ e' - f.eMax) = (decide (f.eMax < e') || (decide (e' = f.eMax) && true)) := by
      rcases lt_trichotomy e' f.eMax with h | h | h
      · have h0 : ¬ f.eMax ≤ e' := by omega
        have h1 : ¬ f.eMax < e' := by omega
        have h2 : ¬ e' = f.eMax := by omega
        simp [h0, h1, h2]
      · simp [h]
      · simp [h, h.le]
    rw [this]
  · intro r
    constructor
    · rintro ⟨c, h1, h2, rfl⟩
      refine ⟨c, ?_⟩
      rw [hfix, ← hz c h1 h2]
    · rintro ⟨c, rfl⟩
      refine ⟨(decide (f.eMax < e') || (decide (e' = f.eMax) && c)), ?_, ?_, ?_⟩
      · intro h; simp; left; omega
      · intro h; simp; constructor <;> omega
      · rw [hfix]

/-- Sequencing after `fixOverflow`. -/
theorem Spec.bind_fix {α : Type} (G : Good p b f) {m : ℕ} {mz abn : Bool} {e : ℤ} (hm : m < p)
    (h1 : -3 * f.eMax < e) (h2 : e + 1 < 5 * f.eMax) {g : ZMod p × ZMod p × ZMod p → Circ p α}
    {w : ℕ × ℤ × Bool → α}
    (hg : ∀ c, Det b H (g (fixOut (fixZ f m mz e abn c))) (w (fixZ f m mz e abn c))) :
    Spec b H (Circ.bind (fixOverflow f ((m : ℕ) : ZMod p) (B mz) ((e : ℤ) : ZMod p) (B abn)) g)
      (w (fixZ f m mz e abn true)) (fun r => ∃ c, r = w (fixZ f m mz e abn c)) := by
  have hs := fixOverflow_spec (H := H) (mz := mz) (abn := abn) G hm h1 h2
  refine ⟨?_, fun hH st r => ?_⟩
  · rw [Circ.run_bind, hs.run]; exact (hg true).run
  · rw [Circ.sat_bind]
    constructor
    · rintro ⟨a, ha, hb⟩
      obtain ⟨c, rfl⟩ := (hs.sat hH st a).1 ha
      exact ⟨c, ((hg c).sat hH st r).1 hb⟩
    · rintro ⟨c, rfl⟩
      exact ⟨_, (hs.sat hH st _).2 ⟨c, rfl⟩, ((hg c).sat hH st _).2 rfl⟩

end ZkLoc
