import Verif.DrawGen
import Verif.PolyGenSpec
import Verif.Props.TableGen

/-!
# C91: the inputs that the generator of the sine and arc tangent tables can draw

/repo/data/generate_test_math.py.
-/

namespace ZkLoc.TableGen
open Ieee

/-! ### Helper lemmas -/

/-- A draw between the doubles next to two decimal numbers. -/
def Draw (lo hi : ℝ) (k : ℕ) (x : ℝ) : Prop := ∃ l h, Rounds double lo l ∧ Rounds double hi h ∧ Uniform l h k x

theorem Draw.neg {lo hi : ℝ} {k : ℕ} {x : ℝ} (h : Draw lo hi k x) : Draw (-lo) (-hi) k (-x) := by
  obtain ⟨l, u, h1, h2, hk, d, p, h3, h4, h5⟩ := h
  refine ⟨-l, -u, h1.neg', h2.neg', hk, -d, -p, ?_, ?_, ?_⟩
  · have := h3.neg'; rwa [show -(u - l) = -u - -l by ring] at this
  · have := h4.neg'; rwa [← neg_mul] at this
  · have := h5.neg'; rwa [neg_add] at this

theorem exists_draw (lo hi : ℝ) {k : ℕ} (hk : k < 2 ^ 53) : ∃ x, Draw lo hi k x := by
  have hM : 1 ≤ double.M := by norm_num [double, Convert.double]
  obtain ⟨l, hl⟩ := exists_rounds hM lo
  obtain ⟨h, hh⟩ := exists_rounds hM hi
  obtain ⟨d, hd⟩ := exists_rounds hM (h - l)
  obtain ⟨p, hp⟩ := exists_rounds hM (d * ((k:ℝ) / 2 ^ 53))
  obtain ⟨x, hx⟩ := exists_rounds hM (l + p)
  exact ⟨x, l, h, hl, hh, hk, d, p, hd, hp, hx⟩

theorem Draw.near {lo hi : ℝ} {k : ℕ} {x : ℝ} (h0 : 0 ≤ lo) (h1 : 2 * lo ≤ hi) (h : Draw lo hi k x) :
    |x - (lo + (hi - lo) * (k / 2 ^ 53))| ≤ (lo + (hi - lo) * (k / 2 ^ 53)) / 2 ^ 49 + 1 / 2 ^ 240 := by
  obtain ⟨l, u, hl, hu, hk, d, p, hd, hp, hx⟩ := h
  have hk' : (k:ℝ) < 2 ^ 53 := by exact_mod_cast hk
  have ht0 : (0:ℝ) ≤ k / 2 ^ 53 := by positivity
  have ht1 : (k:ℝ) / 2 ^ 53 ≤ 1 := by rw [div_le_one (by positivity)]; exact hk'.le
  have e1 := double_err hl
  have e2 := double_err hu
  have e3 := double_err hd
  have e4 := double_err hp
  have e5 := double_err hx
  generalize (k:ℝ) / 2 ^ 53 = t at *
  rw [abs_of_nonneg h0] at e1
  rw [abs_of_nonneg (show 0 ≤ hi by linarith)] at e2
  have a1 : |(u - l) - (hi - lo)| ≤ 3 / 2 ^ 53 * (hi - lo) + 2 / 2 ^ 250 := by
    rw [abs_le] at *
    constructor <;> linarith [e1.1, e1.2, e2.1, e2.2]
  have a2 : |u - l| ≤ (hi - lo) + (3 / 2 ^ 53 * (hi - lo) + 2 / 2 ^ 250) := by
    rw [abs_le] at *
    constructor <;> linarith [a1.1, a1.2]
  have a3 : |d - (hi - lo)| ≤ 5 / 2 ^ 53 * (hi - lo) + 4 / 2 ^ 250 := by
    have := abs_sub_le d (u - l) (hi - lo)
    rw [abs_sub_comm d (u - l)] at this
    linarith
  have a4 : |d * t - (hi - lo) * t| ≤ 5 / 2 ^ 53 * ((hi - lo) * t) + 4 / 2 ^ 250 := by
    rw [← sub_mul, abs_mul, abs_of_nonneg ht0]
    have := mul_le_mul_of_nonneg_right a3 ht0
    nlinarith
  have hq0 : 0 ≤ (hi - lo) * t := mul_nonneg (by linarith) ht0
  generalize (hi - lo) * t = q at *
  have a5 : |d * t| ≤ q + (5 / 2 ^ 53 * q + 4 / 2 ^ 250) := by
    rw [abs_le] at *
    constructor <;> linarith [a4.1, a4.2]
  have a6 : |p - q| ≤ 7 / 2 ^ 53 * q + 6 / 2 ^ 250 := by
    have := abs_sub_le p (d * t) q
    rw [abs_sub_comm p (d * t)] at this
    linarith
  have a7 : |(l + p) - (lo + q)| ≤ 7 / 2 ^ 53 * (lo + q) + 7 / 2 ^ 250 := by
    rw [abs_le] at *
    constructor <;> linarith [e1.1, e1.2, a6.1, a6.2]
  have a8 : |l + p| ≤ (lo + q) + (7 / 2 ^ 53 * (lo + q) + 7 / 2 ^ 250) := by
    rw [abs_le] at *
    constructor <;> linarith [a7.1, a7.2]
  have := abs_sub_le x (l + p) (lo + q)
  rw [abs_sub_comm x (l + p)] at this
  linarith

/-- Bounds of a draw, given bounds of the ends. -/
theorem Draw.bounds {lo hi : ℝ} {k : ℕ} {x : ℝ} (h0 : 0 ≤ lo) (h1 : 2 * lo ≤ hi) (h : Draw lo hi k x) :
    0 ≤ x ∧ lo * (1 - 1 / 2 ^ 49) - 1 / 2 ^ 240 ≤ x ∧ x ≤ hi * (1 + 1 / 2 ^ 49) + 1 / 2 ^ 240 ∧ (k ≠ 0 → (hi - lo) / 2 ^ 53 * (1 - 1 / 2 ^ 49) - 1 / 2 ^ 240 ≤ x) := by
  have hn := abs_le.1 (h.near h0 h1)
  have hx0 : 0 ≤ x := by
    obtain ⟨l, u, hl, hu, hk, d, p, hd, hp, hx⟩ := h
    have l0 := hl.pos h0
    have lu := hl.mono hu (by linarith)
    exact hx.pos (add_nonneg l0 (hp.pos (mul_nonneg (hd.pos (by linarith)) (by positivity))))
  obtain ⟨l, u, hl, hu, hk, -⟩ := h
  have hk' : (k:ℝ) < 2 ^ 53 := by exact_mod_cast hk
  have ht0 : (0:ℝ) ≤ k / 2 ^ 53 := by positivity
  have ht1 : (k:ℝ) / 2 ^ 53 ≤ 1 := by rw [div_le_one (by positivity)]; exact hk'.le
  have hq0 : 0 ≤ (hi - lo) * ((k:ℝ) / 2 ^ 53) := mul_nonneg (by linarith) ht0
  have hq1 : (hi - lo) * ((k:ℝ) / 2 ^ 53) ≤ hi - lo := mul_le_of_le_one_right (by linarith) ht1
  have hq2 : k ≠ 0 → (hi - lo) / 2 ^ 53 ≤ (hi - lo) * ((k:ℝ) / 2 ^ 53) := by
    intro hk0
    rw [mul_div_assoc']
    apply div_le_div_of_nonneg_right _ (by positivity)
    have : (1:ℝ) ≤ k := by exact_mod_cast Nat.one_le_iff_ne_zero.2 hk0
    nlinarith
  generalize (hi - lo) * ((k:ℝ) / 2 ^ 53) = q at *
  refine ⟨hx0, ?_, ?_, fun hk0 => ?_⟩
  · norm_num at *; linarith [hn.1]
  · norm_num at *; linarith [hn.2]
  · have := hq2 hk0
    generalize (hi - lo) / 2 ^ 53 = r at *
    norm_num at *; linarith [hn.1]

/-- Every draw is a draw between nonnegative bounds, up to the sign. -/
theorem RandomFloat.cases {is32 : Bool} {i k : ℕ} {x : ℝ} (h : RandomFloat is32 i k x) :
    (i < 200 ∧ Draw 1 100 k |x|) ∨ (200 ≤ i ∧ i < 400 ∧ Draw (1 / 10 ^ 2) 1 k |x|) ∨ (400 ≤ i ∧ i < 600 ∧ Draw 100 (10 ^ 10) k |x|) ∨
      (600 ≤ i ∧ i < 800 ∧ Draw (10 ^ 10) (if is32 then 34 * 10 ^ 37 else 10 ^ 100) k |x|) ∨
      (800 ≤ i ∧ i < 1000 ∧ is32 = false ∧ Draw (1 / 10 ^ 100) (1 / 10 ^ 10) k |x|) ∨
      (800 ≤ i ∧ i < 900 ∧ is32 = true ∧ Draw (1 / 10 ^ 38) (1 / 10 ^ 10) k |x|) ∨ (900 ≤ i ∧ i < 1000 ∧ is32 = true ∧ Draw 0 (1 / 10 ^ 38) k |x|) := by
  have pos : ∀ {lo hi : ℝ}, 0 ≤ lo → 2 * lo ≤ hi → Draw lo hi k x → Draw lo hi k |x| := fun h0 h1 hd => by
    rwa [abs_of_nonneg (hd.bounds h0 h1).1]
  have neg : ∀ {lo hi : ℝ}, 0 ≤ lo → 2 * lo ≤ hi → Draw (-lo) (-hi) k x → Draw lo hi k |x| := fun h0 h1 hd => by
    have h2 := hd.neg
    rw [neg_neg, neg_neg] at h2
    have h3 := (h2.bounds h0 h1).1
    rwa [abs_of_nonpos (by linarith)]
  obtain ⟨r, lo, hi, hr, h1, h2, h3⟩ := h
  have hd : Draw r.1 r.2 k x := ⟨lo, hi, h1, h2, h3⟩
  have hlt : i / 100 < 10 := by
    have := (List.getElem?_eq_some_iff.1 hr).1
    cases is32 <;> simpa [ranges, rangesSingle, rangesDouble] using this
  obtain ⟨n, hn⟩ : ∃ n, n = i / 100 := ⟨_, rfl⟩
  rw [← hn] at hr hlt
  have hi : n * 100 ≤ i ∧ i < n * 100 + 100 := by omega
  clear hn
  cases is32 <;> interval_cases n <;>
    simp only [ranges, rangesSingle, rangesDouble, Bool.false_eq_true, if_false, if_true, List.getElem?_cons_succ, List.getElem?_cons_zero, Option.some.injEq] at hr <;>
    subst hr
  · exact Or.inl ⟨by omega, pos (by norm_num) (by norm_num) hd⟩
  · exact Or.inl ⟨by omega, neg (by norm_num) (by norm_num) hd⟩
  · exact Or.inr (Or.inl ⟨by omega, by omega, pos (by norm_num) (by norm_num) hd⟩)
  · exact Or.inr (Or.inl ⟨by omega, by omega, neg (by norm_num) (by norm_num) hd⟩)
  · exact Or.inr (Or.inr (Or.inl ⟨by omega, by omega, pos (by norm_num) (by norm_num) hd⟩))
  · exact Or.inr (Or.inr (Or.inl ⟨by omega, by omega, neg (by norm_num) (by norm_num) hd⟩))
  · exact Or.inr (Or.inr (Or.inr (Or.inl ⟨by omega, by omega, pos (by norm_num) (by norm_num) hd⟩)))
  · exact Or.inr (Or.inr (Or.inr (Or.inl ⟨by omega, by omega, neg (by norm_num) (by norm_num) hd⟩)))
  · exact Or.inr (Or.inr (Or.inr (Or.inr (Or.inl ⟨by omega, by omega, rfl, pos (by norm_num) (by norm_num) hd⟩))))
  · exact Or.inr (Or.inr (Or.inr (Or.inr (Or.inl ⟨by omega, by omega, rfl, neg (by norm_num) (by norm_num) hd⟩))))
  · exact Or.inl ⟨by omega, pos (by norm_num) (by norm_num) hd⟩
  · exact Or.inl ⟨by omega, neg (by norm_num) (by norm_num) hd⟩
  · exact Or.inr (Or.inl ⟨by omega, by omega, pos (by norm_num) (by norm_num) hd⟩)
  · exact Or.inr (Or.inl ⟨by omega, by omega, neg (by norm_num) (by norm_num) hd⟩)
  · exact Or.inr (Or.inr (Or.inl ⟨by omega, by omega, pos (by norm_num) (by norm_num) hd⟩))
  · exact Or.inr (Or.inr (Or.inl ⟨by omega, by omega, neg (by norm_num) (by norm_num) hd⟩))
  · exact Or.inr (Or.inr (Or.inr (Or.inl ⟨by omega, by omega, pos (by norm_num) (by norm_num) hd⟩)))
  · exact Or.inr (Or.inr (Or.inr (Or.inl ⟨by omega, by omega, neg (by norm_num) (by norm_num) hd⟩)))
  · exact Or.inr (Or.inr (Or.inr (Or.inr (Or.inr (Or.inl ⟨by omega, by omega, rfl, pos (by norm_num) (by norm_num) hd⟩)))))
  · exact Or.inr (Or.inr (Or.inr (Or.inr (Or.inr (Or.inr ⟨by omega, by omega, rfl, neg (by norm_num) (by norm_num) (by simpa using hd)⟩)))))

/-- The largest single precision number. -/
theorem isFloat_max_single : IsFloat single ((2 ^ 24 - 1 : ℝ) * 2 ^ 104) := by
  refine ⟨⟨2 ^ 24 - 1, 104, by norm_num [single], by norm_num [single, Format.qmin, Format.emin, Format.bias], ?_⟩, ?_⟩
  · rw [abs_of_nonneg (by norm_num)]; norm_num
  · rw [abs_of_nonneg (by norm_num)]; norm_num [single, Format.bias]

theorem single_finite {x a : ℝ} (hx : |x| ≤ (2 ^ 24 - 1 : ℝ) * 2 ^ 104) (ha : Rounds single x a) : IsFloat single a := by
  have hm := isFloat_max_single.rounds
  have hb := abs_le.1 hx
  refine ⟨ha.rne.repr, ?_⟩
  have h1 := ha.mono hm hb.2
  have h2 := (hm.neg').mono ha hb.1
  have h3 : |a| ≤ (2 ^ 24 - 1 : ℝ) * 2 ^ 104 := abs_le.2 ⟨h2, h1⟩
  refine lt_of_le_of_lt h3 ?_
  norm_num [single, Format.bias]

/-- Double precision rows exist for every number whose function value is small. -/
theorem exists_row_double {f : ℝ → ℝ} {x a : ℝ} (ha : Rounds double x a) (hfa : IsFloat double a) (hf : |f x| ≤ 8 / 5) : ∃ y lo hi, GenRow double f x a y lo hi := by
  obtain ⟨y, hy⟩ := exists_rounds (F := double) (by norm_num [double, Convert.double]) (f x)
  have e1 := double_err hy
  have hy2 : |y| ≤ 2 := by
    have := abs_sub_abs_le_abs_sub y (f x)
    rw [abs_sub_comm] at this
    norm_num at e1 ⊢
    linarith
  have big : (4:ℝ) < 2 ^ (double.bias + 1) := by
    have e : double.bias + 1 = ((1024:ℕ) : ℤ) := by norm_num [double, Convert.double, Format.bias]
    rw [e, zpow_natCast]
    calc (4:ℝ) < 2 ^ 3 := by norm_num
      _ ≤ 2 ^ 1024 := pow_le_pow_right₀ (by norm_num) (by norm_num)
  have hyf : IsFloat double y := ⟨hy.rne.repr, by linarith⟩
  have h3 : IsFloat double (3:ℝ) := by
    refine ⟨?_, ?_⟩
    · rw [abs_of_pos (by norm_num)]
      exact ⟨3, 0, by norm_num [double, Convert.double], by decide, by norm_num⟩
    · rw [abs_of_pos (by norm_num)]
      linarith
  obtain ⟨hi, hhi⟩ := exists_nextUp (r := y) h3 (by linarith [le_abs_self y])
  obtain ⟨lo, hlo⟩ := exists_nextDown (r := y) (isFloat_neg h3) (by linarith [neg_abs_le y])
  exact ⟨y, lo, hi, ha, hfa, ⟨y, hy, Rounds.self hy.rne.repr⟩, hyf, hlo, hhi⟩

theorem ranges_one_sided {is32 : Bool} {r : ℝ × ℝ} (h : r ∈ ranges is32) : (0 ≤ r.1 ∧ 2 * r.1 ≤ r.2) ∨ (0 ≤ -r.1 ∧ 2 * -r.1 ≤ -r.2) := by
  cases is32 <;> simp only [ranges, rangesSingle, rangesDouble, Bool.false_eq_true, if_false, if_true, List.mem_cons, List.not_mem_nil, or_false] at h <;>
    rcases h with h | h | h | h | h | h | h | h | h | h <;> subst h <;> norm_num

/-! ### Theorems -/

/-- **C91** A drawn number is the point of its range at the fraction that the random generator delivered, up to a relative error of `2^-49` (and `2^-240`), in spite of the four roundings
of the bounds, their difference, the product and the sum. So it has the sign of its range and does not leave it by more than that. -/
theorem C91_uniform {is32 : Bool} {i k : ℕ} {x : ℝ} {r : ℝ × ℝ} (h : RandomFloat is32 i k x) (hr : (ranges is32)[i / 100]? = some r) :
    |x - (r.1 + (r.2 - r.1) * (k / 2 ^ 53))| ≤ |r.1 + (r.2 - r.1) * (k / 2 ^ 53)| / 2 ^ 49 + 1 / 2 ^ 240 := by
  obtain ⟨r', lo, hi, hr', h1, h2, h3⟩ := h
  rw [hr, Option.some.injEq] at hr'
  subst hr'
  have hd : Draw r.1 r.2 k x := ⟨lo, hi, h1, h2, h3⟩
  rcases ranges_one_sided (List.mem_of_getElem? hr) with ⟨a, b⟩ | ⟨a, b⟩
  · exact (hd.near a b).trans (by gcongr; exact le_abs_self _)
  · have hn := hd.neg.near a b
    have e : -r.1 + (-r.2 - -r.1) * ((k:ℝ) / 2 ^ 53) = -(r.1 + (r.2 - r.1) * ((k:ℝ) / 2 ^ 53)) := by ring
    rw [e, neg_sub_neg, abs_sub_comm] at hn
    exact hn.trans (by gcongr; exact neg_le_abs _)

/-- **C91** The generator draws a number in each of the first 1000 rounds, whatever the random generator delivers, and fails in every further one: the tables cannot be made longer
than they are (1000 rows). -/
theorem C91_rounds (is32 : Bool) (i k : ℕ) : (∃ x, RandomFloat is32 i k x) ↔ i < 1000 ∧ k < 2 ^ 53 := by
  constructor
  · rintro ⟨x, r, lo, hi, hr, -, -, hk, -⟩
    have := (List.getElem?_eq_some_iff.1 hr).1
    have h10 : i / 100 < 10 := by cases is32 <;> simpa [ranges, rangesSingle, rangesDouble] using this
    exact ⟨by omega, hk⟩
  · rintro ⟨hi, hk⟩
    have h10 : i / 100 < (ranges is32).length := by
      have : (ranges is32).length = 10 := by cases is32 <;> simp [ranges, rangesSingle, rangesDouble]
      omega
    obtain ⟨x, l, h, h1, h2, h3⟩ := exists_draw (ranges is32)[i / 100].1 (ranges is32)[i / 100].2 hk
    exact ⟨x, _, l, h, List.getElem?_eq_getElem h10, h1, h2, h3⟩

/-- **C91** What the ten classes of the double precision tables really hold. Unless the random generator delivers 0 (one case in `2^53`), no input lies between `10^10` and `10^84`, none
between `10^-10` and `10^-2`, and none below `10^-26`, although two classes are declared as reaching from `10^10` to `10^100` and from `10^-100` to `10^-10`. -/
theorem C91_double_magnitudes {i k : ℕ} {x : ℝ} (h : RandomFloat false i k x) (hk : k ≠ 0) :
    (1 / 10 ^ 26 ≤ |x| ∧ |x| ≤ 1.0001 / 10 ^ 10) ∨ (0.9999 / 10 ^ 2 ≤ |x| ∧ |x| ≤ 1.0001 * 10 ^ 10) ∨ (10 ^ 84 ≤ |x| ∧ |x| ≤ 1.0001 * 10 ^ 100) := by
  rcases h.cases with ⟨_, d⟩ | ⟨_, _, d⟩ | ⟨_, _, d⟩ | ⟨_, _, d⟩ | ⟨_, _, _, d⟩ | ⟨_, _, h, _⟩ | ⟨_, _, h, _⟩
  · obtain ⟨-, h1, h2, -⟩ := d.bounds (by norm_num) (by norm_num)
    refine Or.inr (Or.inl ⟨?_, ?_⟩) <;> norm_num at * <;> linarith
  · obtain ⟨-, h1, h2, -⟩ := d.bounds (by norm_num) (by norm_num)
    refine Or.inr (Or.inl ⟨?_, ?_⟩) <;> norm_num at * <;> linarith
  · obtain ⟨-, h1, h2, -⟩ := d.bounds (by norm_num) (by norm_num)
    refine Or.inr (Or.inl ⟨?_, ?_⟩) <;> norm_num at * <;> linarith
  · simp only [Bool.false_eq_true, if_false] at d
    obtain ⟨-, h1, h2, h3⟩ := d.bounds (by norm_num) (by norm_num)
    have h3 := h3 hk
    refine Or.inr (Or.inr ⟨?_, ?_⟩) <;> norm_num at * <;> linarith
  · obtain ⟨-, h1, h2, h3⟩ := d.bounds (by norm_num) (by norm_num)
    have h3 := h3 hk
    refine Or.inl ⟨?_, ?_⟩ <;> norm_num at * <;> linarith
  · cases h
  · cases h

/-- **C91** The same for the single precision tables: there is nothing between `10^10` and `3·10^22`, between `10^-10` and `10^-2`, and between `10^-38` and `10^-26`. -/
theorem C91_single_magnitudes {i k : ℕ} {x : ℝ} (h : RandomFloat true i k x) (hk : k ≠ 0) :
    |x| ≤ 1.0001 / 10 ^ 38 ∨ (1 / 10 ^ 26 ≤ |x| ∧ |x| ≤ 1.0001 / 10 ^ 10) ∨ (0.9999 / 10 ^ 2 ≤ |x| ∧ |x| ≤ 1.0001 * 10 ^ 10) ∨
      (3 * 10 ^ 22 ≤ |x| ∧ |x| ≤ 3.4001 * 10 ^ 38) := by
  rcases h.cases with ⟨_, d⟩ | ⟨_, _, d⟩ | ⟨_, _, d⟩ | ⟨_, _, d⟩ | ⟨_, _, h, _⟩ | ⟨_, _, _, d⟩ | ⟨_, _, _, d⟩
  · obtain ⟨-, h1, h2, -⟩ := d.bounds (by norm_num) (by norm_num)
    refine Or.inr (Or.inr (Or.inl ⟨?_, ?_⟩)) <;> norm_num at * <;> linarith
  · obtain ⟨-, h1, h2, -⟩ := d.bounds (by norm_num) (by norm_num)
    refine Or.inr (Or.inr (Or.inl ⟨?_, ?_⟩)) <;> norm_num at * <;> linarith
  · obtain ⟨-, h1, h2, -⟩ := d.bounds (by norm_num) (by norm_num)
    refine Or.inr (Or.inr (Or.inl ⟨?_, ?_⟩)) <;> norm_num at * <;> linarith
  · simp only [if_true] at d
    obtain ⟨-, h1, h2, h3⟩ := d.bounds (by norm_num) (by norm_num)
    have h3 := h3 hk
    refine Or.inr (Or.inr (Or.inr ⟨?_, ?_⟩)) <;> norm_num at * <;> linarith
  · cases h
  · obtain ⟨-, h1, h2, h3⟩ := d.bounds (by norm_num) (by norm_num)
    have h3 := h3 hk
    refine Or.inr (Or.inl ⟨?_, ?_⟩) <;> norm_num at * <;> linarith
  · obtain ⟨-, h1, h2, h3⟩ := d.bounds (by norm_num) (by norm_num)
    refine Or.inl ?_
    norm_num at * <;> linarith

/-- **C91** Every number drawn for a single precision table is finite in single precision, so that packing never raises an exception, and the table gets a row, for the sine, the arc tangent and every other
function bounded by `8/5`. -/
theorem C91_single_rows {i k : ℕ} {x : ℝ} (h : RandomFloat true i k x) {f : ℝ → ℝ} (hf : |f x| ≤ 8 / 5) : ∃ a y lo hi, GenRow single f x a y lo hi := by
  have hx : |x| ≤ (2 ^ 24 - 1 : ℝ) * 2 ^ 104 := by
    rcases h.cases with ⟨_, d⟩ | ⟨_, _, d⟩ | ⟨_, _, d⟩ | ⟨_, _, d⟩ | ⟨_, _, h, _⟩ | ⟨_, _, _, d⟩ | ⟨_, _, _, d⟩
    · have h2 := (d.bounds (by norm_num) (by norm_num)).2.2.1
      norm_num at * <;> linarith
    · have h2 := (d.bounds (by norm_num) (by norm_num)).2.2.1
      norm_num at * <;> linarith
    · have h2 := (d.bounds (by norm_num) (by norm_num)).2.2.1
      norm_num at * <;> linarith
    · simp only [if_true] at d
      have h2 := (d.bounds (by norm_num) (by norm_num)).2.2.1
      norm_num at * <;> linarith
    · cases h
    · have h2 := (d.bounds (by norm_num) (by norm_num)).2.2.1
      norm_num at * <;> linarith
    · have h2 := (d.bounds (by norm_num) (by norm_num)).2.2.1
      norm_num at * <;> linarith
  obtain ⟨a, ha⟩ := exists_rounds (F := single) (by norm_num [single]) x
  obtain ⟨y, lo, hi, hrow, -⟩ := exists_row ha (single_finite hx ha) hf
  exact ⟨a, y, lo, hi, hrow⟩

/-- The hypothesis is met by both functions of the tables. -/
example (x : ℝ) : |Real.sin x| ≤ 8 / 5 ∧ |Real.arctan x| ≤ 8 / 5 := by
  have h1 := Real.arctan_lt_pi_div_two x
  have h2 := Real.neg_pi_div_two_lt_arctan x
  have h3 := Real.pi_lt_d2
  exact ⟨(Real.abs_sin_le_one x).trans (by norm_num), abs_le.2 ⟨by linarith, by linarith⟩⟩

/-- **C91** Every number drawn for a double precision table is a double, the table gets a row that lists it unchanged, and every such row brackets the true value of the function. -/
theorem C91_double_rows {i k : ℕ} {x : ℝ} (h : RandomFloat false i k x) {f : ℝ → ℝ} (hf : |f x| ≤ 8 / 5) :
    ∃ y lo hi, GenRow double f x x y lo hi ∧ ∀ a y lo hi, GenRow double f x a y lo hi → a = x ∧ lo < f x ∧ f x < hi := by
  have hx : IsFloat double x := by
    have hr : Representable double |x| := by
      obtain ⟨_, _, _, _, _, _, _, _, _, _, _, h⟩ := h
      exact h.rne.repr
    refine ⟨hr, lt_of_le_of_lt (b := (10:ℝ) ^ 101) ?_ ?_⟩
    · rcases h.cases with ⟨_, d⟩ | ⟨_, _, d⟩ | ⟨_, _, d⟩ | ⟨_, _, d⟩ | ⟨_, _, _, d⟩ | ⟨_, _, h, _⟩ | ⟨_, _, h, _⟩
      · have h2 := (d.bounds (by norm_num) (by norm_num)).2.2.1
        norm_num at * <;> linarith
      · have h2 := (d.bounds (by norm_num) (by norm_num)).2.2.1
        norm_num at * <;> linarith
      · have h2 := (d.bounds (by norm_num) (by norm_num)).2.2.1
        norm_num at * <;> linarith
      · simp only [Bool.false_eq_true, if_false] at d
        have h2 := (d.bounds (by norm_num) (by norm_num)).2.2.1
        norm_num at * <;> linarith
      · have h2 := (d.bounds (by norm_num) (by norm_num)).2.2.1
        norm_num at * <;> linarith
      · cases h
      · cases h
    · have e : double.bias + 1 = ((1024:ℕ) : ℤ) := by norm_num [double, Convert.double, Format.bias]
      rw [e, zpow_natCast]
      calc (10:ℝ) ^ 101 < (2 ^ 4) ^ 101 := pow_lt_pow_left₀ (by norm_num) (by norm_num) (by norm_num)
        _ = 2 ^ 404 := by rw [← pow_mul]
        _ ≤ 2 ^ 1024 := pow_le_pow_right₀ (by norm_num) (by norm_num)
  obtain ⟨y, lo, hi, hrow⟩ := exists_row_double (x := x) hx.rounds hx hf
  refine ⟨y, lo, hi, hrow, fun a y lo hi hr => ?_⟩
  obtain ⟨e, h2⟩ := C71_row_brackets_partial (Or.inr rfl) hx hr
  rw [e] at h2
  exact ⟨e, h2⟩

/-- **C91** The last hundred rows of the single precision tables list subnormal numbers or zero only: all of them are below the smallest normal number `2^-126`. -/
theorem C91_single_subnormal {i k : ℕ} {x a : ℝ} (h : RandomFloat true i k x) (hi : 900 ≤ i) (ha : Rounds single x a) : |a| < 2 ^ (-126 : ℤ) := by
  have hx : |x| ≤ 1.0001 / 10 ^ 38 := by
    rcases h.cases with ⟨_, _⟩ | ⟨_, _, _⟩ | ⟨_, _, _⟩ | ⟨_, _, _⟩ | ⟨_, _, h, _⟩ | ⟨_, _, _, _⟩ | ⟨_, _, _, d⟩
    · omega
    · omega
    · omega
    · omega
    · cases h
    · omega
    · have h2 := (d.bounds (by norm_num) (by norm_num)).2.2.1
      norm_num at * <;> linarith
  have he := single_err ha
  have := abs_sub_abs_le_abs_sub a x
  rw [abs_sub_comm] at this
  norm_num at * <;> linarith

/-- The hypotheses are met: rounds 650 and 950, with the random number 1/2. -/
example : (∃ x, RandomFloat false 650 (2 ^ 52) x) ∧ (∃ x, RandomFloat true 950 (2 ^ 52) x) ∧ ¬ ∃ x, RandomFloat true 1000 (2 ^ 52) x :=
  ⟨(C91_rounds _ _ _).2 ⟨by norm_num, by norm_num⟩, (C91_rounds _ _ _).2 ⟨by norm_num, by norm_num⟩, fun h => absurd ((C91_rounds _ _ _).1 h).1 (by norm_num)⟩

/-- With the random number 0 the bound of `C91_double_magnitudes` fails: the draw is the lower end of the range. -/
example : RandomFloat false 650 0 (10 ^ 10) := by
  have f10 : Rounds double (10 ^ 10 : ℝ) (10 ^ 10) := Rounds.self (by
    rw [abs_of_pos (by norm_num)]
    exact ⟨10 ^ 10, 0, by norm_num [double, Convert.double], by decide, by norm_num⟩)
  have hM : 1 ≤ double.M := by norm_num [double, Convert.double]
  obtain ⟨h, hh⟩ := exists_rounds hM (10 ^ 100 : ℝ)
  obtain ⟨d, hd⟩ := exists_rounds hM (h - 10 ^ 10)
  exact ⟨(10 ^ 10, 10 ^ 100), 10 ^ 10, h, by simp [ranges, rangesDouble], f10, hh, by norm_num, d, 0, hd, by simpa using Rounds.zero, by simpa using f10⟩

end ZkLoc.TableGen
