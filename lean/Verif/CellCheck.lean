import Verif.FaceNear
import Verif.Spec.Ground
import Mathlib.Tactic.Positivity
import Mathlib.Tactic.FieldSimp

/-!
# Helper lemmas: a checker for cells

Interval arithmetic over the integers (unit `2^-80`) that decides whether a location lies inside a cell of the exact geometry (`H3.Inside`). It is not part of /repo; it serves to evaluate
the specification on the tables of /repo/data.
-/

namespace ZkLoc

/-- An interval, given by its centre and radius in units of `2^-80`. -/
structure Iv where
  mid : ℤ
  rad : ℕ
deriving DecidableEq

namespace Iv

def Has (v : Iv) (x : ℝ) : Prop := |(v.mid : ℝ) - 2 ^ 80 * x| ≤ (v.rad : ℝ)

def add (v w : Iv) : Iv := ⟨v.mid + w.mid, v.rad + w.rad⟩
def sub (v w : Iv) : Iv := ⟨v.mid - w.mid, v.rad + w.rad⟩
def scale (m : ℤ) (v : Iv) : Iv := ⟨m * v.mid, m.natAbs * v.rad⟩
def mul (v w : Iv) : Iv := ⟨v.mid * w.mid / 2 ^ 80, (v.mid.natAbs * w.rad + w.mid.natAbs * v.rad + v.rad * w.rad) / 2 ^ 80 + 2⟩
/-- `V` with an error of at most 6. -/
def near (V : ℤ) : Iv := ⟨V, 6⟩

theorem has_add {v w : Iv} {x y : ℝ} (hv : v.Has x) (hw : w.Has y) : (v.add w).Has (x + y) := by
  unfold Has add at *
  push_cast
  rw [show (v.mid : ℝ) + w.mid - 2 ^ 80 * (x + y) = (v.mid - 2 ^ 80 * x) + (w.mid - 2 ^ 80 * y) by ring]
  exact (abs_add_le _ _).trans (add_le_add hv hw)

theorem has_sub {v w : Iv} {x y : ℝ} (hv : v.Has x) (hw : w.Has y) : (v.sub w).Has (x - y) := by
  unfold Has sub at *
  push_cast
  rw [show (v.mid : ℝ) - w.mid - 2 ^ 80 * (x - y) = (v.mid - 2 ^ 80 * x) - (w.mid - 2 ^ 80 * y) by ring]
  exact (abs_sub _ _).trans (add_le_add hv hw)

theorem cast_natAbs' (m : ℤ) : ((m.natAbs : ℕ) : ℝ) = |(m : ℝ)| := by
  rw [← Int.cast_abs, Int.abs_eq_natAbs, Int.cast_natCast]

theorem has_scale {v : Iv} {x : ℝ} (m : ℤ) (hv : v.Has x) : (v.scale m).Has (m * x) := by
  unfold Has scale at *
  push_cast
  rw [cast_natAbs', show (m : ℝ) * v.mid - 2 ^ 80 * (m * x) = m * (v.mid - 2 ^ 80 * x) by ring, abs_mul]
  exact mul_le_mul_of_nonneg_left hv (abs_nonneg _)

theorem floor_err (N : ℤ) : |((N / 2 ^ 80 : ℤ) : ℝ) * 2 ^ 80 - N| ≤ 2 ^ 80 := by
  have h1 := Int.ediv_mul_add_emod N (2 ^ 80)
  have h2 := Int.emod_nonneg N (b := (2 ^ 80 : ℤ)) (by norm_num)
  have h3 := Int.emod_lt_of_pos N (b := (2 ^ 80 : ℤ)) (by norm_num)
  have e : ((N / 2 ^ 80 * 2 ^ 80 + N % 2 ^ 80 : ℤ) : ℝ) = N := congrArg _ h1
  have h2' : ((0 : ℤ) : ℝ) ≤ ((N % 2 ^ 80 : ℤ) : ℝ) := Int.cast_le.2 h2
  have h3' : ((N % 2 ^ 80 : ℤ) : ℝ) ≤ ((2 ^ 80 : ℤ) : ℝ) := Int.cast_le.2 h3.le
  rw [Int.cast_add, Int.cast_mul, Int.cast_pow, Int.cast_ofNat] at e
  rw [Int.cast_pow, Int.cast_ofNat] at h3'
  rw [Int.cast_zero] at h2'
  generalize (2:ℝ) ^ 80 = K at *
  generalize N / 2 ^ 80 = q at *
  generalize N % 2 ^ 80 = r at *
  rw [abs_le]
  constructor <;> linarith

theorem floor_nat (N : ℕ) : (N : ℝ) ≤ ((N / 2 ^ 80 : ℕ) + 1) * 2 ^ 80 := by
  have h : N ≤ (N / 2 ^ 80 + 1) * 2 ^ 80 := by
    have := Nat.div_add_mod N (2 ^ 80)
    have := Nat.mod_lt N (y := 2 ^ 80) (by norm_num)
    rw [add_mul, mul_comm]
    omega
  have h' : (N : ℝ) ≤ (((N / 2 ^ 80 + 1) * 2 ^ 80 : ℕ) : ℝ) := Nat.cast_le.2 h
  rwa [Nat.cast_mul, Nat.cast_pow, Nat.cast_ofNat, Nat.cast_add, Nat.cast_one] at h'

theorem has_mul {v w : Iv} {x y : ℝ} (hv : v.Has x) (hw : w.Has y) : (v.mul w).Has (x * y) := by
  unfold Has mul at *
  have f1 := floor_err (v.mid * w.mid)
  have f2 := floor_nat (v.mid.natAbs * w.rad + w.mid.natAbs * v.rad + v.rad * w.rad)
  simp only
  generalize v.mid * w.mid / 2 ^ 80 = L at *
  generalize (v.mid.natAbs * w.rad + w.mid.natAbs * v.rad + v.rad * w.rad) / 2 ^ 80 = H at *
  simp only [Int.cast_mul, Nat.cast_add, Nat.cast_mul, cast_natAbs', Nat.cast_ofNat] at f1 f2 ⊢
  have hK : (0:ℝ) < 2 ^ 80 := by positivity
  generalize (2:ℝ) ^ 80 = K at *
  have h1 : |(v.mid : ℝ) * w.mid - K * x * (K * y)| ≤ |(v.mid : ℝ)| * w.rad + |(w.mid : ℝ)| * v.rad + v.rad * w.rad := by
    have e : (v.mid : ℝ) * w.mid - K * x * (K * y) = v.mid * (w.mid - K * y) + w.mid * (v.mid - K * x) - (v.mid - K * x) * (w.mid - K * y) := by ring
    rw [e]
    refine (abs_sub _ _).trans (add_le_add ((abs_add_le _ _).trans (add_le_add ?_ ?_)) ?_)
    · rw [abs_mul]; exact mul_le_mul_of_nonneg_left hw (abs_nonneg _)
    · rw [abs_mul]; exact mul_le_mul_of_nonneg_left hv (abs_nonneg _)
    · rw [abs_mul]; exact mul_le_mul hv hw (abs_nonneg _) (by positivity)
  have h2 : |((L : ℝ) - K * (x * y)) * K| ≤ (H + 2) * K := by
    have e : ((L : ℝ) - K * (x * y)) * K = (L * K - v.mid * w.mid) + (v.mid * w.mid - K * x * (K * y)) := by ring
    rw [e]
    refine (abs_add_le _ _).trans ?_
    linarith
  rw [abs_mul, abs_of_pos hK] at h2
  exact le_of_mul_le_mul_right h2 hK

theorem has_near {V : ℤ} {x : ℝ} (h : |(V:ℝ) / 2 ^ 80 - x| ≤ 6 / 2 ^ 80) : (near V).Has x := by
  have hK : (0:ℝ) < 2 ^ 80 := by positivity
  unfold Has near
  push_cast
  generalize (2:ℝ) ^ 80 = K at *
  have e : (V:ℝ) - K * x = (V / K - x) * K := by field_simp
  have e6 : (6:ℝ) = 6 / K * K := by field_simp
  rw [e, abs_mul, abs_of_pos hK, e6]
  exact mul_le_mul_of_nonneg_right h hK.le

end Iv

open Iv

/-- `1`, the square roots of 7 and 3, and the grid unit. -/
def ivOne : Iv := ⟨2 ^ 80, 0⟩
def ivSqrt7 : Iv := ⟨3198517072225239886319271, 1⟩
def ivSqrt3 : Iv := ⟨2093920942154385339393396, 1⟩
def ivRes0 : Iv := ⟨461768573215463855257724, 1⟩

theorem one_has : ivOne.Has 1 := by norm_num [Iv.Has, ivOne]
theorem has_of {v : Iv} {x : ℝ} (h1 : ((v.mid : ℝ) - v.rad) / 2 ^ 80 ≤ x) (h2 : x ≤ ((v.mid : ℝ) + v.rad) / 2 ^ 80) : v.Has x := by
  have hK : (0:ℝ) < 2 ^ 80 := by positivity
  rw [div_le_iff₀' hK] at h1
  rw [le_div_iff₀' hK] at h2
  unfold Iv.Has
  rw [abs_le]
  constructor <;> linarith
theorem sqrt7_has : ivSqrt7.Has (Real.sqrt 7) :=
  has_of (Real.le_sqrt_of_sq_le (by norm_num [ivSqrt7])) (Real.sqrt_le_iff.2 ⟨by norm_num [ivSqrt7], by norm_num [ivSqrt7]⟩)
theorem sqrt3_has : ivSqrt3.Has (Real.sqrt 3) :=
  has_of (Real.le_sqrt_of_sq_le (by norm_num [ivSqrt3])) (Real.sqrt_le_iff.2 ⟨by norm_num [ivSqrt3], by norm_num [ivSqrt3]⟩)
theorem res0_has : ivRes0.Has H3.res0 := by
  apply has_of <;> norm_num [ivRes0, H3.res0]

/-- `√7^n`. -/
def ivScale (n : ℕ) : Iv := if n % 2 = 1 then ivSqrt7.scale (7 ^ (n / 2)) else ivOne.scale (7 ^ (n / 2))

theorem scale_has (n : ℕ) : (ivScale n).Has (Real.sqrt 7 ^ n) := by
  have h7 : Real.sqrt 7 ^ 2 = 7 := Real.sq_sqrt (by norm_num)
  unfold ivScale
  split
  · rename_i h
    have e : Real.sqrt 7 ^ n = ((7 ^ (n / 2) : ℤ) : ℝ) * Real.sqrt 7 := by
      conv_lhs => rw [← Nat.div_add_mod n 2, h, pow_succ, pow_mul, h7]
      push_cast; rfl
    rw [e]
    exact has_scale _ sqrt7_has
  · rename_i h
    have e : Real.sqrt 7 ^ n = ((7 ^ (n / 2) : ℤ) : ℝ) * 1 := by
      conv_lhs => rw [← Nat.div_add_mod n 2, show n % 2 = 0 by omega, add_zero, pow_mul, h7]
      push_cast; rw [mul_one]
    rw [e]
    exact has_scale _ one_has

/-- Sine and cosine of an angle. -/
structure IvAngle where
  sin : Iv
  cos : Iv
deriving DecidableEq

def IvAngle.Has (a : IvAngle) (x : ℝ) : Prop := a.sin.Has (Real.sin x) ∧ a.cos.Has (Real.cos x)

/-- Sine and cosine of `2^-80 X`. -/
def ivTrig (n : ℕ) (X : ℤ) : IvAngle := ⟨near (trigVal imPow X 80 n), near (trigVal rePow X 80 n)⟩

theorem trig_has {n : ℕ} {X : ℤ} (h : trigOk X 80 n = true) {x : ℝ} (hx : |(X:ℝ) / 2 ^ 80 - x| ≤ 2 / 2 ^ 80) : (ivTrig n X).Has x :=
  ⟨has_near (trigOk_near (by norm_num) h hx).1, has_near (trigOk_near (by norm_num) h hx).2⟩

/-- The angles of a face: latitude, longitude, and the axis of its grid for even and odd resolutions. -/
structure IvFace where
  lat : IvAngle
  lng : IvAngle
  even : IvAngle
  odd : IvAngle
deriving DecidableEq

structure IvFace.Has (c : IvFace) (F : H3.FaceGeo) : Prop where
  lat : c.lat.Has F.lat
  lng : c.lng.Has F.lng
  even : c.even.Has F.az
  odd : c.odd.Has (F.az - H3.ap7rot)

def ivFace (d : ℤ × ℤ × ℤ) : IvFace :=
  ⟨ivTrig 60 (decX 80 d.1), ivTrig 60 (decX 80 d.2.1), ivTrig 60 (decX 80 d.2.2), ivTrig 60 (decX 80 d.2.2 - rotX 80)⟩

def faceOk (d : ℤ × ℤ × ℤ) : Bool :=
  trigOk (decX 80 d.1) 80 60 && trigOk (decX 80 d.2.1) 80 60 && trigOk (decX 80 d.2.2) 80 60 && trigOk (decX 80 d.2.2 - rotX 80) 80 60

theorem face_has {d : ℤ × ℤ × ℤ} (h : faceOk d = true) : (ivFace d).Has (.ofDecimals d) := by
  simp only [faceOk, Bool.and_eq_true] at h
  obtain ⟨⟨⟨h1, h2⟩, h3⟩, h4⟩ := h
  have key (z : ℤ) : |(decX 80 z : ℝ) / 2 ^ 80 - z / 10 ^ 18| ≤ 2 / 2 ^ 80 := (decX_err 80 z).trans (by norm_num)
  refine ⟨trig_has h1 (key _), trig_has h2 (key _), trig_has h3 (key _), trig_has h4 ?_⟩
  have e1 := decX_err 80 d.2.2
  have e2 := rotX_err 80
  push_cast
  change |((decX 80 d.2.2 : ℝ) - rotX 80) / 2 ^ 80 - (d.2.2 / 10 ^ 18 - H3.ap7rot)| ≤ _
  rw [sub_div, show ∀ a b c e : ℝ, a - b - (c - e) = (a - c) - (b - e) by intros; ring]
  refine (abs_sub _ _).trans ((add_le_add e1 e2).trans ?_)
  norm_num

/-- A default value. -/
def ivFace0 : IvFace := ⟨⟨⟨0, 0⟩, ⟨0, 0⟩⟩, ⟨⟨0, 0⟩, ⟨0, 0⟩⟩, ⟨⟨0, 0⟩, ⟨0, 0⟩⟩, ⟨⟨0, 0⟩, ⟨0, 0⟩⟩⟩

/-- The values of `ivFace` for the twenty faces. -/
def faceTab : List IvFace := [
  ⟨⟨near (870242274744406358549794), near (839154348483390793875152)⟩, ⟨near (1146639629997026850301887), near (383039418664951872265366)⟩, ⟨near (-744290885503796310793935), near (952645114975601860881936)⟩, ⟨near (-1015115091462933976176534), near (656538641981644600807954)⟩⟩,
  ⟨⟨near (1167340939654239243871583), near (314351344737159809453277)⟩, ⟨near (687240753161439432606495), near (-994586237852203741581943)⟩, ⟨near (-603674848476786272761577), near (1047415063213925739320274)⟩, ⟨near (-913266172877546255860861), near (792115228239239643610537)⟩⟩,
  ⟨⟨near (1051496491732592351279394), near (596537312500193288001199)⟩, ⟨near (-1178916214483889443351315), near (267690486491169313779215)⟩, ⟨near (850396252370077909156598), near (859260060334372622978301)⟩, ⟨near (522290052144868269327894), near (1090281953790584255739231)⟩⟩,
  ⟨⟨near (682802020599214504815921), near (997638731203100779675000)⟩, ⟨near (-526498368897607306383747), near (1088255992346957825638955)⟩, ⟨near (504481591981094457072252), near (1098635499464277938726701)⟩, ⟨near (117077416392785192026414), near (1203243331958126128803936)⟩⟩,
  ⟨⟨near (570780753896266941476444), near (1065697409358074806852753)⟩, ⟨near (472990809551083124123088), near (1112556214944266953956314)⟩, ⟨near (-184144706607559271887330), near (1194818967190979453123943)⟩, ⟨near (-565096703827456662473481), near (1068722299128378178354180)⟩⟩,
  ⟨⟨near (207799189672034797789635), near (1190932883962210787702833)⟩, ⟨near (1201966590077556454621825), near (-129529740477753925009230)⟩, ⟨near (524441756137520714852772), near (-1089248585838097919638261)⟩, ⟨near (852091172472571155200699), near (-857579308941873850643630)⟩⟩,
  ⟨⟨near (688514927508360166758495), near (993704599933531787379252)⟩, ⟨near (225548867261348976814096), near (-1187699181530418205546435)⟩, ⟨near (190968221758631576493513), near (-1193747366744425129462113)⟩, ⟨near (571193556014885917542146), near (-1065476212262841793873825)⟩⟩,
  ⟨⟨near (501074673363168350715911), near (1100193532540933029054262)⟩, ⟨near (-1148283290266023857237747), near (-378083486318481408120251)⟩, ⟨near (-461094416522766127869847), near (-1117539071523869708975260)⟩, ⟨near (-69892742704968078666469), near (-1206903741749142167115277)⟩⟩,
  ⟨⟨near (-95485512394804011233670), near (1205149017447056066653769)⟩, ⟨near (-809280686356330999276011), near (898090423076389747893218)⟩, ⟨near (-417616716317365706208486), near (-1134503378392150850851660)⟩, ⟨near (-23257304709331327979884), near (-1208702086996030727477935)⟩⟩,
  ⟨⟨near (-276739729382990003967875), near (1176824863568038477922087)⟩, ⟨near (586469014440055849760292), near (1057145085800720392954000)⟩, ⟨near (166755940373053661333846), near (-1197369656238707884073522)⟩, ⟨near (549500773136157794475544), near (-1076824283554966902268763)⟩⟩,
  ⟨⟨near (95485512394804011233668), near (1205149017447056066653769)⟩, ⟨near (809280686356330999691505), near (-898090423076389747518810)⟩, ⟨near (-417616716317365705514091), near (1134503378392150851107270)⟩, ⟨near (-765964105804354042574661), near (935307770709855293624440)⟩⟩,
  ⟨⟨near (276739729382990003967873), near (1176824863568038477922087)⟩, ⟨near (-586469014440055850249374), near (-1057145085800720392682675)⟩, ⟨near (166755940373053660779890), near (1197369656238707884150669)⟩, ⟨near (-234361667514861067734437), near (1185991672032547045036189)⟩⟩,
  ⟨⟨near (-207799189672034797789637), near (1190932883962210787702833)⟩, ⟨near (-1201966590077556454691430), near (129529740477753924363344)⟩, ⟨near (524441756137520714348837), near (1089248585838097919880890)⟩, ⟨near (139010587440187223046568), near (1200907029669839587986135)⟩⟩,
  ⟨⟨near (-688514927508360166758497), near (993704599933531787379251)⟩, ⟨near (-225548867261348977452315), near (1187699181530418205425234)⟩, ⟨near (190968221758631577134981), near (1193747366744425129359494)⟩, ⟨near (-210297539522333795985182), near (1190494259625704945913108)⟩⟩,
  ⟨⟨near (-501074673363168350715913), near (1100193532540933029054262)⟩, ⟨near (1148283290266023857440912), near (378083486318481407503212)⟩, ⟨near (-461094416522766127185836), near (1117539071523869709257481)⟩, ⟨near (-801493798037653995635469), near (905046589429560375413033)⟩⟩,
  ⟨⟨near (-682802020599214504815923), near (997638731203100779674999)⟩, ⟨near (526498368897607306887221), near (-1088255992346957825395375)⟩, ⟨near (504481591981094457580530), near (-1098635499464277938493306)⟩, ⟨near (836303178887166601903894), near (-872982605963098634888427)⟩⟩,
  ⟨⟨near (-570780753896266941476446), near (1065697409358074806852752)⟩, ⟨near (-472990809551083124637805), near (-1112556214944266953737489)⟩, ⟨near (-184144706607559272618642), near (-1194818967190979453011235)⟩, ⟨near (217095918875632146428679), near (-1189273307250460349000221)⟩⟩,
  ⟨⟨near (-870242274744406358549796), near (839154348483390793875151)⟩, ⟨near (-1146639629997026850479098), near (-383039418664951871734882)⟩, ⟨near (-744290885503796310424375), near (-952645114975601861170671)⟩, ⟨near (-391462470062133289493810), near (-1143791402251195590027605)⟩⟩,
  ⟨⟨near (-1167340939654239243871584), near (314351344737159809453276)⟩, ⟨near (-687240753161439433140943), near (994586237852203741212649)⟩, ⟨near (-603674848476786272355252), near (-1047415063213925739554459)⟩, ⟨near (-227572056989721850221282), near (-1187313183708649681975270)⟩⟩,
  ⟨⟨near (-1051496491732592351279395), near (596537312500193288001198)⟩, ⟨near (1178916214483889443475160), near (-267690486491169313233798)⟩, ⟨near (850396252370077908694870), near (-859260060334372623435268)⟩, ⟨near (1084807804735523217116928), near (-533566925620205445057127)⟩⟩]

theorem faceTab_eq : H3.faceDecimals.map ivFace = faceTab := by decide +kernel
theorem faceTab_ok : ∀ d ∈ H3.faceDecimals, faceOk d = true := by decide +kernel

theorem faceTab_length : faceTab.length = 20 := by decide

theorem faceTab_has (i : ℕ) (hi : i < 20) : (faceTab[i]'hi).Has (H3.faceGeo[i]'hi) := by
  have h1 : faceTab[i]'hi = ivFace (H3.faceDecimals[i]'hi) := by
    have e : (H3.faceDecimals.map ivFace)[i]? = faceTab[i]? := congrArg (·[i]?) faceTab_eq
    rw [List.getElem?_map, List.getElem?_eq_getElem (l := H3.faceDecimals) hi, List.getElem?_eq_getElem (l := faceTab) hi] at e
    exact (Option.some.inj e).symm
  have h2 : H3.faceGeo[i]'hi = .ofDecimals (H3.faceDecimals[i]'hi) := by simp only [H3.faceGeo, List.getElem_map]; rfl
  rw [h1, h2]
  exact face_has (faceTab_ok _ (List.getElem_mem _))

/-- `H3.up`, `H3.north` and `H3.east` for a location with the given angles. -/
def ivDc (c : IvFace) (l : IvAngle) : Iv := (l.cos.mul c.lng.cos).add (l.sin.mul c.lng.sin)
def ivUp (c : IvFace) (φ l : IvAngle) : Iv := (c.lat.sin.mul φ.sin).add ((c.lat.cos.mul φ.cos).mul (ivDc c l))
def ivNorth (c : IvFace) (φ l : IvAngle) : Iv := (c.lat.cos.mul φ.sin).sub ((c.lat.sin.mul φ.cos).mul (ivDc c l))
def ivEast (c : IvFace) (φ l : IvAngle) : Iv := φ.cos.mul ((l.sin.mul c.lng.cos).sub (l.cos.mul c.lng.sin))

section
variable {c : IvFace} {F : H3.FaceGeo} {aφ al : IvAngle} {φ l : ℝ}

theorem dc_has (hc : c.Has F) (hl : al.Has l) : (ivDc c al).Has (Real.cos l * Real.cos F.lng + Real.sin l * Real.sin F.lng) :=
  has_add (has_mul hl.2 hc.lng.2) (has_mul hl.1 hc.lng.1)
theorem up_has (hc : c.Has F) (hφ : aφ.Has φ) (hl : al.Has l) : (ivUp c aφ al).Has (H3.up F φ l) :=
  has_add (has_mul hc.lat.1 hφ.1) (has_mul (has_mul hc.lat.2 hφ.2) (dc_has hc hl))
theorem north_has (hc : c.Has F) (hφ : aφ.Has φ) (hl : al.Has l) : (ivNorth c aφ al).Has (H3.north F φ l) :=
  has_sub (has_mul hc.lat.2 hφ.1) (has_mul (has_mul hc.lat.1 hφ.2) (dc_has hc hl))
theorem east_has (hc : c.Has F) (hφ : aφ.Has φ) (hl : al.Has l) : (ivEast c aφ al).Has (H3.east F φ l) :=
  has_mul hφ.2 (has_sub (has_mul hl.1 hc.lng.2) (has_mul hl.2 hc.lng.1))
end

/-- The axis for resolution `n`. -/
def IvFace.axis (c : IvFace) (n : ℕ) : IvAngle := if n % 2 = 1 then c.odd else c.even

theorem axis_has {c : IvFace} {F : H3.FaceGeo} (hc : c.Has F) (n : ℕ) : (c.axis n).Has (H3.axis F n) := by
  unfold IvFace.axis H3.axis
  split
  · exact hc.odd
  · rw [sub_zero]; exact hc.even

/-- `|x| ≤ y` for all numbers of the intervals. -/
def Iv.absLe (v w : Iv) : Bool := decide ((v.mid.natAbs : ℤ) + v.rad + w.rad ≤ w.mid)

theorem absLe_has {v w : Iv} {x y : ℝ} (h : v.absLe w = true) (hv : v.Has x) (hw : w.Has y) : |x| ≤ y := by
  simp only [Iv.absLe, decide_eq_true_eq] at h
  have h1 : (((v.mid.natAbs : ℤ) + v.rad + w.rad : ℤ) : ℝ) ≤ w.mid := Int.cast_le.2 h
  rw [Int.cast_add, Int.cast_add, Int.cast_natCast, Int.cast_natCast, Int.cast_natCast] at h1
  rw [cast_natAbs'] at h1
  have hK : (0:ℝ) < 2 ^ 80 := by positivity
  unfold Iv.Has at hv hw
  refine le_of_mul_le_mul_left ?_ hK
  rw [← abs_of_pos hK, ← abs_mul, abs_of_pos hK]
  have h2 := abs_sub_abs_le_abs_sub (2 ^ 80 * x) (v.mid : ℝ)
  rw [abs_sub_comm] at h2
  have h3 := (abs_le.1 hw).2
  linarith

/-- The projected point is inside the hexagon and `2^-80 E` away from its sides: the inequalities of `H3.InHexagon`, multiplied by `res0 · up`. -/
def hexCheck (E : ℤ) (c : IvFace) (n : ℕ) (φ l : IvAngle) (i j k : ℤ) : Bool :=
  let N := ivNorth c φ l
  let Ea := ivEast c φ l
  let W := ivUp c φ l
  let T := ivScale n
  let a := c.axis n
  let R := ivRes0.mul W
  let P := ((T.mul ((a.cos.mul N).add (a.sin.mul Ea))).scale 2).sub (R.scale (2 * (i - k) - (j - k)))
  let Q := ((T.mul ((a.sin.mul N).sub (a.cos.mul Ea))).scale 2).sub ((ivSqrt3.mul R).scale (j - k))
  let S := ivSqrt3.mul Q
  let H := (Iv.mk (2 ^ 80 - 2 * E) 0).mul R
  decide ((W.rad : ℤ) < W.mid) && P.absLe H && (P.add S).absLe (H.scale 2) && (S.sub P).absLe (H.scale 2)

theorem hexCheck_sound {E : ℤ} {c : IvFace} {F : H3.FaceGeo} {n : ℕ} {aφ al : IvAngle} {φ l : ℝ} {i j k : ℤ} (hc : c.Has F) (hφ : aφ.Has φ) (hl : al.Has l)
    (h : hexCheck E c n aφ al i j k = true) : H3.InHexagon (-(E / 2 ^ 80)) i j k (H3.plane F n φ l).1 (H3.plane F n φ l).2 := by
  simp only [hexCheck, Bool.and_eq_true, decide_eq_true_eq] at h
  obtain ⟨⟨⟨hW, h1⟩, h2⟩, h3⟩ := h
  have iW := up_has hc hφ hl
  have iN := north_has hc hφ hl
  have iE := east_has hc hφ hl
  have ia := axis_has hc n
  have iR := has_mul res0_has iW
  have iP := has_sub (has_scale 2 (has_mul (scale_has n) (has_add (has_mul ia.2 iN) (has_mul ia.1 iE)))) (has_scale (2 * (i - k) - (j - k)) iR)
  have iQ := has_sub (has_scale 2 (has_mul (scale_has n) (has_sub (has_mul ia.1 iN) (has_mul ia.2 iE)))) (has_scale (j - k) (has_mul sqrt3_has iR))
  have iS := has_mul sqrt3_has iQ
  have iH : (Iv.mk (2 ^ 80 - 2 * E) 0).Has (1 - 2 * (E / 2 ^ 80)) := by
    have e : (2:ℝ) ^ 80 * (1 - 2 * (E / 2 ^ 80)) = 2 ^ 80 - 2 * E := by field_simp
    unfold Iv.Has
    rw [e]
    simp only [Int.cast_sub, Int.cast_mul, Int.cast_pow, Int.cast_ofNat, Nat.cast_zero]
    rw [sub_self, abs_zero]
  have iH := has_mul iH iR
  have g1 := absLe_has h1 iP iH
  have g2 := absLe_has h2 (has_add iP iS) (has_scale 2 iH)
  have g3 := absLe_has h3 (has_sub iS iP) (has_scale 2 iH)
  have hW0 : 0 < H3.up F φ l := by
    have h1 : ((ivUp c aφ al).rad : ℝ) < (ivUp c aφ al).mid := by exact_mod_cast hW
    have h2 := (abs_le.1 (show |_| ≤ _ from iW)).2
    have h' : 0 < 2 ^ 80 * H3.up F φ l := by linarith
    exact (pos_iff_pos_of_mul_pos h').1 (by positivity)
  have hr : 0 < H3.res0 := by unfold H3.res0; norm_num
  clear iW iN iE ia iR iP iQ iS iH h1 h2 h3 hW
  rw [H3.plane_eq]
  unfold H3.InHexagon
  simp only
  push_cast at g1 g2 g3
  set R := H3.res0 * H3.up F φ l with hR
  have hR0 : 0 < R := by positivity
  have e (y : ℝ) : Real.sqrt 7 ^ n / H3.res0 / H3.up F φ l * y = Real.sqrt 7 ^ n * y / R := by rw [hR]; field_simp
  rw [e, e]
  generalize Real.sqrt 7 ^ n * (Real.cos (H3.axis F n) * H3.north F φ l + Real.sin (H3.axis F n) * H3.east F φ l) = X at *
  generalize Real.sqrt 7 ^ n * (Real.sin (H3.axis F n) * H3.north F φ l - Real.cos (H3.axis F n) * H3.east F φ l) = Y at *
  generalize (E:ℝ) / 2 ^ 80 = ε at *
  generalize Real.sqrt 3 = s at *
  clear_value R
  clear e hR
  have h2R : 0 < 2 * R := by positivity
  have h4R : 0 < 4 * R := by positivity
  have key : ∀ z w y : ℝ, |w| ≤ y → ∀ q : ℝ, 0 < q → z * q = w → y ≤ (1 / 2 + -ε) * q → |z| ≤ 1 / 2 + -ε := by
    intro z w y hw q hq hz hy
    refine le_of_mul_le_mul_right ?_ hq
    rw [← abs_of_pos hq, ← abs_mul, abs_of_pos hq, hz]
    exact hw.trans hy
  refine ⟨key _ _ _ g1 (2 * R) h2R ?_ (le_of_eq ?_), key _ _ _ g2 (4 * R) h4R ?_ (le_of_eq ?_), key _ _ _ g3 (4 * R) h4R ?_ (le_of_eq ?_)⟩ <;> field_simp <;> ring

/-! ### The nearest face -/

/-- A point of the sphere, in units of `2^-80`, with an error of at most 20 in each coordinate. -/
def VecHas (v : ℤ × ℤ × ℤ) (φ l : ℝ) : Prop :=
  |(v.1 : ℝ) - 2 ^ 80 * (Real.cos l * Real.cos φ)| ≤ 20 ∧ |(v.2.1 : ℝ) - 2 ^ 80 * (Real.sin l * Real.cos φ)| ≤ 20 ∧ |(v.2.2 : ℝ) - 2 ^ 80 * Real.sin φ| ≤ 20

/-- The point with the given angles. -/
def ivVec (φ l : IvAngle) : ℤ × ℤ × ℤ := ((l.cos.mul φ.cos).mid, (l.sin.mul φ.cos).mid, φ.sin.mid)

/-- Its error is small enough. -/
def vecOk (φ l : IvAngle) : Bool := decide ((l.cos.mul φ.cos).rad ≤ 20) && decide ((l.sin.mul φ.cos).rad ≤ 20) && decide (φ.sin.rad ≤ 20)

theorem vecOk_has {aφ al : IvAngle} {φ l : ℝ} (h : vecOk aφ al = true) (hφ : aφ.Has φ) (hl : al.Has l) : VecHas (ivVec aφ al) φ l := by
  simp only [vecOk, Bool.and_eq_true, decide_eq_true_eq] at h
  have le : ∀ n : ℕ, n ≤ 20 → (n:ℝ) ≤ 20 := fun n hn => by exact_mod_cast hn
  exact ⟨(has_mul hl.2 hφ.2).trans (le _ h.1.1), (has_mul hl.1 hφ.2).trans (le _ h.1.2), (show |_| ≤ _ from hφ.1).trans (le _ h.2)⟩

def dot (v w : ℤ × ℤ × ℤ) : ℤ := v.1 * w.1 + v.2.1 * w.2.1 + v.2.2 * w.2.2

theorem prod_err {a b x y K : ℝ} (hK : 20 ≤ K) (hx : |x| ≤ 1) (hy : |y| ≤ 1) (ha : |a - K * x| ≤ 20) (hb : |b - K * y| ≤ 20) : |a * b - K * (K * (x * y))| ≤ 60 * K := by
  have e : a * b - K * (K * (x * y)) = (a - K * x) * (b - K * y) + (a - K * x) * (K * y) + K * x * (b - K * y) := by ring
  rw [e]
  have h0 : 0 ≤ K := by linarith
  have h1 : |(a - K * x) * (b - K * y)| ≤ 20 * 20 := by rw [abs_mul]; exact mul_le_mul ha hb (abs_nonneg _) (by norm_num)
  have h2 : |(a - K * x) * (K * y)| ≤ 20 * (K * 1) := by
    rw [abs_mul, abs_mul, abs_of_nonneg h0]; exact mul_le_mul ha (mul_le_mul_of_nonneg_left hy h0) (by positivity) (by norm_num)
  have h3 : |K * x * (b - K * y)| ≤ K * 1 * 20 := by
    rw [abs_mul, abs_mul, abs_of_nonneg h0]; exact mul_le_mul (mul_le_mul_of_nonneg_left hx h0) hb (abs_nonneg _) (by positivity)
  refine (abs_add_three _ _ _).trans ?_
  linarith

theorem dot_has {v w : ℤ × ℤ × ℤ} {F : H3.FaceGeo} {φ l : ℝ} (hv : VecHas v F.lat F.lng) (hw : VecHas w φ l) :
    |(dot v w : ℝ) - 2 ^ 80 * (2 ^ 80 * H3.up F φ l)| ≤ 180 * 2 ^ 80 := by
  obtain ⟨v1, v2, v3⟩ := hv
  obtain ⟨w1, w2, w3⟩ := hw
  have hK : (20:ℝ) ≤ 2 ^ 80 := by norm_num
  have m : ∀ x y : ℝ, |x| ≤ 1 → |y| ≤ 1 → |x * y| ≤ 1 := fun x y hx hy => by rw [abs_mul]; exact mul_le_one₀ hx (abs_nonneg _) hy
  have s := Real.abs_sin_le_one
  have c := Real.abs_cos_le_one
  have p1 := prod_err hK (m _ _ (c _) (c _)) (m _ _ (c _) (c _)) v1 w1
  have p2 := prod_err hK (m _ _ (s _) (c _)) (m _ _ (s _) (c _)) v2 w2
  have p3 := prod_err hK (s _) (s _) v3 w3
  unfold dot H3.up
  push_cast
  generalize (2:ℝ) ^ 80 = K at *
  have e : (v.1 : ℝ) * w.1 + v.2.1 * w.2.1 + v.2.2 * w.2.2 -
      K * (K * (Real.sin F.lat * Real.sin φ + Real.cos F.lat * Real.cos φ * (Real.cos l * Real.cos F.lng + Real.sin l * Real.sin F.lng))) =
    ((v.1 : ℝ) * w.1 - K * (K * (Real.cos F.lng * Real.cos F.lat * (Real.cos l * Real.cos φ)))) +
    ((v.2.1 : ℝ) * w.2.1 - K * (K * (Real.sin F.lng * Real.cos F.lat * (Real.sin l * Real.cos φ)))) +
    ((v.2.2 : ℝ) * w.2.2 - K * (K * (Real.sin F.lat * Real.sin φ))) := by ring
  rw [e]
  refine (abs_add_three _ _ _).trans ?_
  linarith

/-- The centres of the twenty faces. -/
def faceVecs : List (ℤ × ℤ × ℤ) := [
  (265879997430865395475797, 795919498155904638887052, 870242274744406358549794),
  (-258617622564779539369430, 178700009057084054366383, 1167340939654239243871583),
  (132090291068657283923198, -581729249918164817243389, 1051496491732592351279394),
  (898058681363324651806917, -434480888905944047112674, 682802020599214504815921),
  (980745267240037388773671, 416952861962572112007558, 570780753896266941476444),
  (-127601896562373232361892, 1184077231474465109392719, 207799189672034797789635),
  (-976256872733753246987446, 185395119593728191398250, 688514927508360166758495),
  (-344078188801294092924381, -1045005267468120507069027, 501074673363168350715911),
  (895284701003522777535681, -806752414562632386967485, -95485512394804011233670),
  (1029074407365730976674596, 570896333511437041372828, -276739729382990003967875),
  (-895284701003522777162444, 806752414562632387381680, 95485512394804011233668),
  (-1029074407365730976410476, -570896333511437041848924, 276739729382990003967873),
  (127601896562373231725618, -1184077231474465109461289, -207799189672034797789637),
  (976256872733753246887820, -185395119593728191922849, -688514927508360166758497),
  (344078188801294092362838, 1045005267468120507253918, -501074673363168350715913),
  (-898058681363324651605908, 434480888905944047528153, -682802020599214504815923),
  (-980745267240037388580772, -416952861962572112461294, -570780753896266941476446),
  (-265879997430865395107572, -795919498155904639010060, -870242274744406358549796),
  (258617622564779539273403, -178700009057084054505353, -1167340939654239243871584),
  (-132090291068657283654066, 581729249918164817304498, -1051496491732592351279395)]

theorem faceVecs_ok : ∀ i < 20, faceVecs.getD i (0, 0, 0) = ivVec (faceTab.getD i ivFace0).lat (faceTab.getD i ivFace0).lng ∧
    vecOk (faceTab.getD i ivFace0).lat (faceTab.getD i ivFace0).lng = true := by decide +kernel

theorem faceVecs_has (i : ℕ) (hi : i < 20) : VecHas (faceVecs.getD i (0, 0, 0)) (H3.faceGeo[i]'hi).lat (H3.faceGeo[i]'hi).lng := by
  have h := faceVecs_ok i hi
  rw [List.getD_eq_getElem faceTab _ hi] at h
  rw [h.1]
  exact vecOk_has h.2 (faceTab_has i hi).lat (faceTab_has i hi).lng

/-- The face `f` is nearer than all others by more than `2^-80 D` in squared distance, and no face centre is that near to the location. -/
def faceCheck (D : ℤ) (f : ℕ) (v : ℤ × ℤ × ℤ) : Bool :=
  let d := dot (faceVecs.getD f (0, 0, 0)) v
  decide ((D + 360) * 2 ^ 80 < 2 * (2 ^ 160 - d)) && decide (0 ≤ D) &&
  (List.range 20).all (fun g => decide (g = f) || decide ((D + 720) * 2 ^ 80 < 2 * (d - dot (faceVecs.getD g (0, 0, 0)) v)))

theorem faceCheck_sound {D : ℤ} {f : ℕ} (hf : f < 20) {v : ℤ × ℤ × ℤ} {φ l : ℝ} (hv : VecHas v φ l) (h : faceCheck D f v = true) :
    (∀ F' ∈ H3.faceGeo, F' ≠ H3.faceGeo[f]'hf → H3.sqd (H3.faceGeo[f]'hf) φ l + D / 2 ^ 80 < H3.sqd F' φ l) ∧ ∀ F' ∈ H3.faceGeo, D / 2 ^ 80 < H3.sqd F' φ l := by
  simp only [faceCheck, Bool.and_eq_true, List.all_eq_true, List.mem_range, Bool.or_eq_true, decide_eq_true_eq] at h
  obtain ⟨⟨h0, hD⟩, h⟩ := h
  have hK : (0:ℝ) < 2 ^ 80 := by positivity
  have hD' : (0:ℝ) ≤ D := by exact_mod_cast hD
  have d1 := dot_has (faceVecs_has f hf) hv
  have near : ∀ F' ∈ H3.faceGeo, F' ≠ H3.faceGeo[f]'hf → H3.sqd (H3.faceGeo[f]'hf) φ l + D / 2 ^ 80 < H3.sqd F' φ l := by
    intro F' hF' hne
    obtain ⟨g, hg, rfl⟩ := List.mem_iff_getElem.1 hF'
    have hg : g < 20 := hg
    rcases h g hg with rfl | h
    · exact absurd rfl hne
    have d2 := dot_has (faceVecs_has g hg) hv
    have h' : ((D:ℝ) + 720) * 2 ^ 80 < 2 * (dot (faceVecs.getD f (0, 0, 0)) v - dot (faceVecs.getD g (0, 0, 0)) v) := by exact_mod_cast h
    rw [H3.sqd_eq, H3.sqd_eq]
    have aux : ∀ K D d e u w : ℝ, 0 < K → (D + 720) * K < 2 * (d - e) → |d - K * (K * u)| ≤ 180 * K → |e - K * (K * w)| ≤ 180 * K → 2 - 2 * u + D / K < 2 - 2 * w := by
      intro K D d e u w hK h1 h2 h3
      have h2 := (abs_le.1 h2).2
      have h3 := (abs_le.1 h3).1
      have : D * K < K * (2 * u - 2 * w) * K := by linarith
      have := lt_of_mul_lt_mul_right this hK.le
      rw [← div_lt_iff₀' hK] at this
      linarith
    exact aux _ _ _ _ _ _ hK h' d1 d2
  have far : D / 2 ^ 80 < H3.sqd (H3.faceGeo[f]'hf) φ l := by
    have h' : ((D:ℝ) + 360) * 2 ^ 80 < 2 * (2 ^ 160 - dot (faceVecs.getD f (0, 0, 0)) v) := by exact_mod_cast h0
    rw [show (2:ℝ) ^ 160 = 2 ^ 80 * 2 ^ 80 by norm_num] at h'
    rw [H3.sqd_eq]
    have aux : ∀ K D d u : ℝ, 0 < K → (D + 360) * K < 2 * (K * K - d) → |d - K * (K * u)| ≤ 180 * K → D / K < 2 - 2 * u := by
      intro K D d u hK h1 h2
      have h2 := (abs_le.1 h2).1
      have : D * K < K * (2 - 2 * u) * K := by linarith
      have := lt_of_mul_lt_mul_right this hK.le
      rwa [← div_lt_iff₀' hK] at this
    exact aux _ _ _ _ hK h' d1
  refine ⟨near, fun F' hF' => ?_⟩
  by_cases hne : F' = H3.faceGeo[f]'hf
  · rw [hne]; exact far
  · have := near F' hF' hne
    have : (0:ℝ) ≤ D / 2 ^ 80 := by positivity
    linarith

/-- The location with latitude `2^-80 A` and longitude `2^-80 B` (up to `2^-79`) lies inside the cell. -/
def insideCheck (D E : ℤ) (f n : ℕ) (A B : ℤ) (i j k : ℤ) : Bool :=
  let φ := ivTrig 28 A
  let l := ivTrig 28 B
  trigOk A 80 28 && trigOk B 80 28 && decide (f < 20) && vecOk φ l && faceCheck D f (ivVec φ l) && decide (0 ≤ i) && decide (0 ≤ j) && decide (0 ≤ k) &&
    (decide (i = 0) || decide (j = 0) || decide (k = 0)) && hexCheck (E + 1) (faceTab.getD f ivFace0) n φ l i j k

theorem insideCheck_sound {D E : ℤ} {f n : ℕ} {A B i j k : ℤ} (h : insideCheck D E f n A B i j k = true) {φ l : ℝ} (hφ : |(A:ℝ) / 2 ^ 80 - φ| ≤ 2 / 2 ^ 80)
    (hl : |(B:ℝ) / 2 ^ 80 - l| ≤ 2 / 2 ^ 80) : H3.Inside (D / 2 ^ 80) (E / 2 ^ 80) n φ l i j k ∧ ∀ F' ∈ H3.faceGeo, D / 2 ^ 80 < H3.sqd F' φ l := by
  simp only [insideCheck, Bool.and_eq_true, Bool.or_eq_true, decide_eq_true_eq] at h
  obtain ⟨⟨⟨⟨⟨⟨⟨⟨⟨h1, h2⟩, hf⟩, hv⟩, h3⟩, i0⟩, j0⟩, k0⟩, hz⟩, h4⟩ := h
  have aφ := trig_has h1 hφ
  have al := trig_has h2 hl
  obtain ⟨near, far⟩ := faceCheck_sound hf (vecOk_has hv aφ al) h3
  rw [List.getD_eq_getElem _ _ hf] at h4
  refine ⟨⟨H3.faceGeo[f]'hf, List.getElem_mem _, near, i0, j0, k0, or_assoc.1 hz, ((E + 1 : ℤ) : ℝ) / 2 ^ 80, ?_, hexCheck_sound (faceTab_has f hf) aφ al h4⟩, far⟩
  push_cast
  have : (0:ℝ) < 2 ^ 80 := by positivity
  rw [gt_iff_lt, div_lt_div_iff_of_pos_right this]
  linarith

end ZkLoc
