import Verif.TrigCircuits
import Verif.Width

/-!
# Range checks and table widths of the circuits of /repo/math/math_test.go
-/

namespace ZkLoc

variable {p : ℕ} {f : Fmt}

theorem shape_horner (cs : List (FloatVar p)) : ∃ l q, ∀ x r : FloatVar p, HasShape f.pow2Size (horner f x cs r) l q := by
  induction cs with
  | nil => exact ⟨[], 0, fun _ _ => ⟨rfl, rfl⟩⟩
  | cons c cs ih =>
    obtain ⟨l, q, ih⟩ := ih
    apply Exists.intro; apply Exists.intro; intro x r
    unfold horner
    simp only [Circ.bind_eq]
    shape_step
    shape_step
    exact ih _ _

theorem shape_evalK1 (cs : List (FloatVar p)) : ∃ l q, ∀ x r : FloatVar p,
    HasShape f.pow2Size (Circ.bind (evalKLoop f x cs [r]) fun parts => match parts with
      | [] => .assert false (pure (newConstant f 0))
      | q :: qs => sumParts f qs q) l q := by
  induction cs with
  | nil => exact ⟨[], 0, fun _ _ => ⟨rfl, rfl⟩⟩
  | cons c cs ih =>
    obtain ⟨l, q, ih⟩ := ih
    apply Exists.intro; apply Exists.intro; intro x r
    unfold evalKLoop
    simp only [evalKStep, Circ.bind_eq, Circ.pure_eq, Circ.bind_assoc, Circ.bind]
    shape_step
    shape_step
    exact ih _ _

theorem shape_evalK (cs : List (FloatVar p)) : ∃ l q, ∀ x : FloatVar p, HasShape f.pow2Size (evalK f cs x 1) l q := by
  obtain ⟨l, q, h⟩ := shape_evalK1 (f := f) cs
  exact ⟨l, q, fun x => h x _⟩

theorem shape_atan {k : TrigConsts} : ∃ l q, ∀ x : FloatVar p, HasShape f.pow2Size (atanRemez f k x) l q := by
  obtain ⟨l, q, h⟩ := shape_evalK (p := p) (f := f) (k.atanCoeffs.map (newConstant f))
  apply Exists.intro; apply Exists.intro; intro x
  unfold atanRemez atanMag
  simp only [Circ.bind_eq, Circ.pure_eq, Circ.bind_assoc, Circ.bind]
  shape_step
  shape_step
  shape_step
  shape_step
  apply shape_pre (h _); intro _
  shape_step
  shape_step
  shape_step
  shape_step

theorem shape_func {op : FloatVar p → Circ p (FloatVar p)} (h : ∃ l q, ∀ x, HasShape f.pow2Size (op x) l q) :
    ∃ l q, ∀ X Z, HasShape f.pow2Size (funcCircuit f op X Z) l q := by
  obtain ⟨l, q, h⟩ := h
  apply Exists.intro; apply Exists.intro; intro X Z
  unfold funcCircuit
  simp only [Circ.bind_eq, Circ.pure_eq]
  shape_step
  shape_step
  apply shape_pre (h _); intro _
  shape_step
  shape_step

theorem shape_leVar {s : ℕ} (v w : ZMod p) : HasShape s (assertLeVar v w) [] 0 := ⟨rfl, rfl⟩

theorem shape_ulp {op : FloatVar p → Circ p (FloatVar p)} (h : ∃ l q, ∀ x, HasShape f.pow2Size (op x) l q) :
    ∃ l q, ∀ X Z L U, HasShape f.pow2Size (ulpCircuit f op X Z L U) l q := by
  obtain ⟨l, q, h⟩ := h
  apply Exists.intro; apply Exists.intro; intro X Z L U
  unfold ulpCircuit
  simp only [Circ.bind_eq, Circ.pure_eq]
  shape_step
  shape_step
  shape_step
  shape_step
  apply shape_pre (h _); intro _
  shape_step
  exact shape_bind0 (shape_leVar _ _) fun _ => shape_leVar _ _

/-! The automatically chosen widths, evaluated from the recorded range checks. -/
theorem width_atan64 (be : Backend) : baseLength be 0 (atan64Circuit (p := bn254) 0 0).widths = 8 := optimal_of (by decide +kernel) (by decide +kernel) be
theorem width_sin64 (be : Backend) : baseLength be 0 (sin64Circuit (p := bn254) 0 0).widths = 8 := optimal_of (by decide +kernel) (by decide +kernel) be
theorem width_atan32Ulp (be : Backend) : baseLength be 0 (atan32UlpCircuit (p := bn254) 0 0 0 0).widths = 8 :=
  optimal_of (by decide +kernel) (by decide +kernel) be
theorem width_atan64Ulp (be : Backend) : baseLength be 0 (atan64UlpCircuit (p := bn254) 0 0 0 0).widths = 8 :=
  optimal_of (by decide +kernel) (by decide +kernel) be
theorem width_sin64Ulp (be : Backend) : baseLength be 0 (sin64UlpCircuit (p := bn254) 0 0 0 0).widths = 8 :=
  optimal_of (by decide +kernel) (by decide +kernel) be
theorem width_degTen (be : Backend) : baseLength be 0 (polyDegTenCircuit (p := bn254) 0 0).widths = 8 :=
  optimal_of (by decide +kernel) (by decide +kernel) be
theorem width_poly : baseLength .r1cs 0 (polyCircuit (p := bn254) 0 0).widths = 6 ∧ baseLength .scs 0 (polyCircuit (p := bn254) 0 0).widths = 7 := by
  decide +kernel

end ZkLoc
