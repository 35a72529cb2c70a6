import Verif.R1csLookup

/-!
# Splitting long linear expressions

The benchmarks compile with `frontend.WithCompressThreshold(1000)` (/repo/util/util.go:486-494, 556, 704): when a sum reaches that many terms, gnark's builder (`compress`) introduces a wire for it and goes on with this
wire. Here this is done to a finished system, expression by expression, adding up the terms in their order. (gnark does it while the circuit is being built. The difference could be seen only in sums that shrink again, or if an
expression that was split were asserted to be boolean a second time; no such expression is built.)
-/

namespace ZkLoc.R1cs

section
variable {p : ℕ}

/-- The number of terms; gnark keeps the constant as one. -/
def Lin.terms (e : Lin p) : ℕ := e.ts.length + (if e.c = 0 then 0 else 1)

/-- The next free wire and the constraints so far. -/
abbrev Rows (p : ℕ) := ℕ × List (Lin p × Lin p × Lin p)

/-- Add terms to `acc`; when `k` terms are reached, the sum becomes a wire. -/
def chop (k : ℕ) : List (ℕ × ZMod p) → Lin p → Rows p → Lin p × Rows p
  | [], acc, s => (acc, s)
  | t :: ts, acc, s =>
    if k ≤ (⟨acc.c, acc.ts ++ [t]⟩ : Lin p).terms then chop k ts (.wire s.1) (s.1 + 1, (⟨acc.c, acc.ts ++ [t]⟩, .lit 1, .wire s.1) :: s.2)
    else chop k ts ⟨acc.c, acc.ts ++ [t]⟩ s

/-- One expression. -/
def cut (k : ℕ) (e : Lin p) (s : Rows p) : Lin p × Rows p := chop k e.ts ⟨e.c, []⟩ s

/-- All constraints. -/
def cutAll (k : ℕ) : List (Lin p × Lin p × Lin p) → Rows p → Rows p
  | [], s => s
  | r :: l, s =>
    let x := cut k r.1 s
    let y := cut k r.2.1 x.2
    let z := cut k r.2.2 y.2
    cutAll k l (z.2.1, (x.1, y.1, z.1) :: z.2.2)

/-- A number above all wires of a complete system and its `n` inputs. -/
def Full.fresh (F : Full p) (n : ℕ) : ℕ :=
  max n (max ((F.r1cs.map fun r => max r.1.bound (max r.2.1.bound r.2.2.bound)).foldr max 0) (max ((F.committed.map Lin.bound).foldr max 0) F.challenge.bound))

/-- A complete system compiled with the threshold `k`. -/
def Full.compress (F : Full p) (k n : ℕ) : Full p := ⟨(cutAll k F.r1cs.reverse (F.fresh n, [])).2, F.committed, F.challenge⟩

/-! ## Meaning -/

/-- All rows hold. -/
def HoldsR (w : Asg p) (l : List (Lin p × Lin p × Lin p)) : Prop := ∀ r ∈ l, r.1.eval w * r.2.1.eval w = r.2.2.eval w
/-- All wires are below. -/
def BelowR (N : ℕ) (l : List (Lin p × Lin p × Lin p)) : Prop := ∀ r ∈ l, r.1.bound ≤ N ∧ r.2.1.bound ≤ N ∧ r.2.2.bound ≤ N

theorem eval_snoc (w : Asg p) (acc : Lin p) (t : ℕ × ZMod p) : (⟨acc.c, acc.ts ++ [t]⟩ : Lin p).eval w = acc.eval w + t.2 * w t.1 := by
  simp [Lin.eval, add_assoc]

theorem bound_le_iff {e : Lin p} {N : ℕ} : e.bound ≤ N ↔ ∀ t ∈ e.ts, t.1 < N := by
  obtain ⟨c, l⟩ := e
  unfold Lin.bound
  induction l with
  | nil => simp
  | cons t l ih =>
    simp only [List.foldr_cons, max_le_iff, List.mem_cons, forall_eq_or_imp] at ih ⊢
    rw [ih, Nat.succ_le_iff]

theorem chop_sound {k : ℕ} {w : Asg p} : ∀ (ts : List (ℕ × ZMod p)) (acc : Lin p) (s : Rows p), HoldsR w (chop k ts acc s).2.2 →
    HoldsR w s.2 ∧ (chop k ts acc s).1.eval w = acc.eval w + (ts.map fun t => t.2 * w t.1).sum
  | [], acc, s, h => ⟨h, by simp [chop]⟩
  | t :: ts, acc, s, h => by
    unfold chop at h ⊢
    split at h
    · rename_i hk
      rw [if_pos hk]
      obtain ⟨h1, h2⟩ := chop_sound ts _ _ h
      have h3 := h1 _ List.mem_cons_self
      simp only [Lin.eval_lit, mul_one, Lin.eval_wire, eval_snoc] at h3
      refine ⟨fun r hr => h1 r (List.mem_cons_of_mem _ hr), ?_⟩
      rw [h2, Lin.eval_wire, ← h3, List.map_cons, List.sum_cons, add_assoc]
    · rename_i hk
      rw [if_neg hk]
      obtain ⟨h1, h2⟩ := chop_sound ts _ _ h
      exact ⟨h1, by rw [h2, eval_snoc, List.map_cons, List.sum_cons, add_assoc]⟩

theorem cut_sound {k : ℕ} {w : Asg p} {e : Lin p} {s : Rows p} (h : HoldsR w (cut k e s).2.2) : HoldsR w s.2 ∧ (cut k e s).1.eval w = e.eval w := by
  obtain ⟨h1, h2⟩ := chop_sound _ _ _ h
  exact ⟨h1, h2.trans (by simp [Lin.eval])⟩

theorem cutAll_sound {k : ℕ} {w : Asg p} : ∀ (l : List (Lin p × Lin p × Lin p)) (s : Rows p), HoldsR w (cutAll k l s).2 → HoldsR w s.2 ∧ HoldsR w l
  | [], s, h => ⟨h, fun r hr => by simp at hr⟩
  | r :: l, s, h => by
    obtain ⟨h1, h2⟩ := cutAll_sound l _ h
    have h3 := h1 _ List.mem_cons_self
    obtain ⟨hz, ez⟩ := cut_sound (fun r hr => h1 r (List.mem_cons_of_mem _ hr) : HoldsR w _)
    obtain ⟨hy, ey⟩ := cut_sound hz
    obtain ⟨hx, ex⟩ := cut_sound hy
    simp only [ex, ey, ez] at h3
    exact ⟨hx, fun r' hr => (List.mem_cons.1 hr).elim (fun e => e ▸ h3) (h2 r')⟩

theorem HoldsR.congr {N : ℕ} {w w' : Asg p} {l : List (Lin p × Lin p × Lin p)} (h : HoldsR w l) (ha : Agree N w w') (hb : BelowR N l) : HoldsR w' l := fun r hr => by
  obtain ⟨b1, b2, b3⟩ := hb r hr
  rw [Lin.eval_congr ha b1, Lin.eval_congr ha b2, Lin.eval_congr ha b3]
  exact h r hr

theorem BelowR.mono {N N' : ℕ} {l : List (Lin p × Lin p × Lin p)} (h : BelowR N l) (hN : N ≤ N') : BelowR N' l := fun r hr =>
  ⟨(h r hr).1.trans hN, (h r hr).2.1.trans hN, (h r hr).2.2.trans hN⟩

theorem agree_trans {N N' : ℕ} {w w' w'' : Asg p} (h : Agree N w w') (h' : Agree N' w' w'') (hN : N ≤ N') : Agree N w w'' := fun i hi => (h' i (hi.trans_le hN)).trans (h i hi)

theorem chop_complete {k : ℕ} : ∀ (ts : List (ℕ × ZMod p)) (acc : Lin p) (s : Rows p) (w : Asg p), (∀ t ∈ ts, t.1 < s.1) → acc.bound ≤ s.1 → BelowR s.1 s.2 → HoldsR w s.2 →
    s.1 ≤ (chop k ts acc s).2.1 ∧ (chop k ts acc s).1.bound ≤ (chop k ts acc s).2.1 ∧ BelowR (chop k ts acc s).2.1 (chop k ts acc s).2.2 ∧
      ∃ w', Agree s.1 w w' ∧ HoldsR w' (chop k ts acc s).2.2
  | [], acc, s, w, _, ha, hb, hw => ⟨le_rfl, ha, hb, w, fun _ _ => rfl, hw⟩
  | t :: ts, acc, s, w, ht, ha, hb, hw => by
    have hacc : (⟨acc.c, acc.ts ++ [t]⟩ : Lin p).bound ≤ s.1 := by
      rw [bound_le_iff] at ha ⊢
      intro u hu
      rcases List.mem_append.1 hu with hu | hu
      · exact ha u hu
      · rw [List.mem_singleton.1 hu]; exact ht t List.mem_cons_self
    have ht' : ∀ u ∈ ts, u.1 < s.1 := fun u hu => ht u (List.mem_cons_of_mem _ hu)
    unfold chop
    split
    · let w1 : Asg p := fun i => if i = s.1 then (⟨acc.c, acc.ts ++ [t]⟩ : Lin p).eval w else w i
      have a1 : Agree s.1 w w1 := fun i hi => by simp [w1, Nat.ne_of_lt hi]
      have hw1 : (Lin.wire s.1 : Lin p).bound ≤ s.1 + 1 := by simp [bound_le_iff, Lin.wire]
      obtain ⟨h1, h2, h3, w', h4, h5⟩ := chop_complete ts (.wire s.1) (s.1 + 1, (⟨acc.c, acc.ts ++ [t]⟩, .lit 1, .wire s.1) :: s.2) w1 (fun u hu => Nat.lt_succ_of_lt (ht' u hu)) hw1
        (fun r hr => by
          rcases List.mem_cons.1 hr with rfl | hr
          · exact ⟨hacc.trans (Nat.le_succ _), by simp [Lin.lit, Lin.bound], hw1⟩
          · exact hb.mono (Nat.le_succ _) r hr)
        (fun r hr => by
          rcases List.mem_cons.1 hr with rfl | hr
          · rw [Lin.eval_congr a1 hacc, Lin.eval_lit, mul_one, Lin.eval_wire]; simp [w1]
          · exact hw.congr a1 hb r hr)
      exact ⟨(Nat.le_succ _).trans h1, h2, h3, w', agree_trans a1 h4 (Nat.le_succ _), h5⟩
    · exact chop_complete ts _ s w ht' hacc hb hw

theorem cut_complete {k : ℕ} {e : Lin p} {s : Rows p} {w : Asg p} (he : e.bound ≤ s.1) (hb : BelowR s.1 s.2) (hw : HoldsR w s.2) :
    s.1 ≤ (cut k e s).2.1 ∧ (cut k e s).1.bound ≤ (cut k e s).2.1 ∧ BelowR (cut k e s).2.1 (cut k e s).2.2 ∧ ∃ w', Agree s.1 w w' ∧ HoldsR w' (cut k e s).2.2 :=
  chop_complete _ _ _ _ (bound_le_iff.1 he) (by simp [Lin.bound]) hb hw

theorem cutAll_complete {k : ℕ} : ∀ (l : List (Lin p × Lin p × Lin p)) (s : Rows p) (w : Asg p), BelowR s.1 l → BelowR s.1 s.2 → HoldsR w s.2 → HoldsR w l →
    ∃ w', Agree s.1 w w' ∧ HoldsR w' (cutAll k l s).2
  | [], s, w, _, _, hw, _ => ⟨w, fun _ _ => rfl, hw⟩
  | r :: l, s, w, hl, hb, hw, hh => by
    obtain ⟨b1, b2, b3⟩ := hl r List.mem_cons_self
    obtain ⟨x1, x2, x3, w1, a1, h1⟩ := cut_complete (k := k) b1 hb hw
    obtain ⟨y1, y2, y3, w2, a2, h2⟩ := cut_complete (k := k) (b2.trans x1) x3 h1
    obtain ⟨z1, z2, z3, w3, a3, h3⟩ := cut_complete (k := k) (b3.trans (x1.trans y1)) y3 h2
    have a : Agree s.1 w w3 := agree_trans a1 (agree_trans a2 a3 y1) x1
    have ex := (cut_sound h3).1
    have ey := (cut_sound ex).1
    obtain ⟨w', a', h'⟩ := cutAll_complete (k := k) l ((cut k r.2.2 (cut k r.2.1 (cut k r.1 s).2).2).2.1, ((cut k r.1 s).1, (cut k r.2.1 (cut k r.1 s).2).1, (cut k r.2.2 (cut k r.2.1 (cut k r.1 s).2).2).1) :: (cut k r.2.2 (cut k r.2.1 (cut k r.1 s).2).2).2.2) w3 (BelowR.mono (fun r' hr => hl r' (List.mem_cons_of_mem _ hr)) (x1.trans (y1.trans z1)))
      (fun r' hr => by
        rcases List.mem_cons.1 hr with rfl | hr
        · exact ⟨x2.trans (y1.trans z1), y2.trans z1, z2⟩
        · exact z3 r' hr)
      (fun r' hr => by
        rcases List.mem_cons.1 hr with rfl | hr
        · rw [(cut_sound h3).2, (cut_sound ex).2, (cut_sound ey).2, Lin.eval_congr a b1, Lin.eval_congr a b2, Lin.eval_congr a b3]
          exact hh r List.mem_cons_self
        · exact h3 r' hr)
      (HoldsR.congr (fun r' hr => hh r' (List.mem_cons_of_mem _ hr)) a fun r' hr => hl r' (List.mem_cons_of_mem _ hr))
    exact ⟨w', agree_trans a a' (x1.trans (y1.trans z1)), h'⟩

theorem full_inputs (F : Full p) (n : ℕ) : n ≤ F.fresh n := le_max_left _ _
theorem full_challenge (F : Full p) (n : ℕ) : F.challenge.bound ≤ F.fresh n := by unfold Full.fresh; omega
theorem full_rows (F : Full p) (n : ℕ) : BelowR (F.fresh n) F.r1cs := fun r hr => by
  have := foldr_max (List.mem_map_of_mem (f := fun r : Lin p × Lin p × Lin p => max r.1.bound (max r.2.1.bound r.2.2.bound)) hr)
  unfold Full.fresh
  omega
theorem full_committed (F : Full p) (n : ℕ) : ∀ e ∈ F.committed, e.bound ≤ F.fresh n := fun e he => by
  have := foldr_max (List.mem_map_of_mem (f := Lin.bound) he)
  unfold Full.fresh
  omega

theorem compress_passes (F : Full p) (k : ℕ) {n : ℕ} {xs : List (ZMod p)} (hn : xs.length = n) (cs : List (ZMod p)) (x : ZMod p) : (F.compress k n).Passes xs cs x ↔ F.Passes xs cs x := by
  have hrev : ∀ (w : Asg p), HoldsR w F.r1cs.reverse ↔ HoldsR w F.r1cs := fun w => by simp [HoldsR]
  constructor
  · rintro ⟨w, h1, h2, h3, h4⟩
    exact ⟨w, h1, h2, h3, (hrev w).1 (cutAll_sound _ _ h4).2⟩
  · rintro ⟨w, h1, h2, h3, h4⟩
    obtain ⟨w', ha, hh⟩ := cutAll_complete (k := k) F.r1cs.reverse (F.fresh n, []) w (fun r hr => full_rows F n r (List.mem_reverse.1 hr)) (fun r hr => by simp at hr) (fun r hr => by simp at hr) ((hrev w).2 h4)
    refine ⟨w', fun i hi => ?_, ?_, ?_, hh⟩
    · rw [← h1 i hi]
      exact ha i ((hn ▸ hi).trans_le (full_inputs F n))
    · rw [← h2]
      exact List.map_congr_left fun e he => Lin.eval_congr ha (full_committed F n e he)
    · rw [← h3]
      exact Lin.eval_congr ha (full_challenge F n)

/-! ## How many wires -/

/-- The splits of one expression. -/
def splits (k L : ℕ) : ℕ := (L - 1) / (k - 1)

theorem terms_snoc (acc : Lin p) (t : ℕ × ZMod p) : (⟨acc.c, acc.ts ++ [t]⟩ : Lin p).terms = acc.terms + 1 := by
  simp only [Lin.terms, List.length_append, List.length_singleton]; omega

theorem chop_length {k : ℕ} (hk : 2 ≤ k) : ∀ (ts : List (ℕ × ZMod p)) (acc : Lin p) (s : Rows p), acc.terms < k →
    (chop k ts acc s).2.2.length = s.2.length + splits k (acc.terms + ts.length)
  | [], acc, s, ha => by
    unfold splits
    rw [List.length_nil, Nat.add_zero, Nat.div_eq_of_lt (by omega)]
    rfl
  | t :: ts, acc, s, ha => by
    unfold chop
    split
    · rename_i h
      rw [terms_snoc] at h
      have hw : (Lin.wire s.1 : Lin p).terms = 1 := by simp [Lin.wire, Lin.terms]
      rw [chop_length hk ts _ _ (by rw [hw]; omega), hw]
      simp only [List.length_cons, splits]
      have e : acc.terms + (ts.length + 1) - 1 = (1 + ts.length - 1) + (k - 1) := by omega
      rw [e, Nat.add_div_right _ (by omega)]
      omega
    · rename_i h
      rw [chop_length hk ts _ _ (by omega), terms_snoc, List.length_cons]
      congr 2; omega

theorem cut_length {k : ℕ} (hk : 2 ≤ k) (e : Lin p) (s : Rows p) : (cut k e s).2.2.length = s.2.length + splits k e.terms := by
  unfold cut
  rw [chop_length hk]
  · congr 2; simp only [Lin.terms, List.length_nil]; omega
  · simp only [Lin.terms, List.length_nil]; split <;> omega

/-- The splits of all expressions of one constraint. -/
def splitsOf (k : ℕ) (r : Lin p × Lin p × Lin p) : ℕ := splits k r.1.terms + splits k r.2.1.terms + splits k r.2.2.terms

theorem cutAll_length {k : ℕ} (hk : 2 ≤ k) : ∀ (l : List (Lin p × Lin p × Lin p)) (s : Rows p), (cutAll k l s).2.length = s.2.length + l.length + (l.map (splitsOf k)).sum
  | [], s => by simp [cutAll]
  | r :: l, s => by
    unfold cutAll
    simp only [cutAll_length hk l, List.length_cons, cut_length hk, List.map_cons, List.sum_cons, splitsOf]
    omega

theorem compress_length {k : ℕ} (hk : 2 ≤ k) (F : Full p) (n : ℕ) : (F.compress k n).r1cs.length = F.r1cs.length + (F.r1cs.map (splitsOf k)).sum := by
  unfold Full.compress
  simp only [cutAll_length hk, List.length_nil, List.length_reverse, List.map_reverse, List.sum_reverse]
  omega

theorem chop_short {k : ℕ} : ∀ (ts : List (ℕ × ZMod p)) (acc : Lin p) (s : Rows p), acc.terms + ts.length < k → chop k ts acc s = (⟨acc.c, acc.ts ++ ts⟩, s)
  | [], acc, s, _ => by simp [chop]
  | t :: ts, acc, s, h => by
    unfold chop
    rw [List.length_cons] at h
    rw [if_neg (by rw [terms_snoc]; omega), chop_short ts _ _ (by rw [terms_snoc]; omega)]
    simp

theorem cut_short {k : ℕ} {e : Lin p} (h : e.terms < k) (s : Rows p) : cut k e s = (e, s) := by
  unfold cut
  rw [chop_short _ _ _ (by simp only [Lin.terms, List.length_nil] at h ⊢; omega)]
  simp

theorem cutAll_short {k : ℕ} : ∀ (l : List (Lin p × Lin p × Lin p)) (s : Rows p), (∀ r ∈ l, r.1.terms < k ∧ r.2.1.terms < k ∧ r.2.2.terms < k) → (cutAll k l s).2 = l.reverse ++ s.2
  | [], s, _ => by simp [cutAll]
  | r :: l, s, h => by
    obtain ⟨h1, h2, h3⟩ := h r List.mem_cons_self
    unfold cutAll
    simp only [cut_short h1, cut_short h2, cut_short h3]
    rw [cutAll_short l _ fun r' hr => h r' (List.mem_cons_of_mem _ hr)]
    simp

theorem compress_short {k : ℕ} {F : Full p} (h : ∀ r ∈ F.r1cs, r.1.terms < k ∧ r.2.1.terms < k ∧ r.2.2.terms < k) (n : ℕ) : F.compress k n = F := by
  unfold Full.compress
  rw [cutAll_short _ _ fun r hr => h r (List.mem_reverse.1 hr), List.reverse_reverse, List.append_nil]

end

end ZkLoc.R1cs
