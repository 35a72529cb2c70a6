import Verif.Props.Location
import Verif.Props.Forgery
import Verif.Width
import Verif.Width64
import Verif.WidthW

/-!
# Property theorems C40: what the location circuits accept as they are deployed

Acceptance under every back-end, at the table width which the code itself selects for the whole circuit.
-/

namespace ZkLoc

/-- **C40** The width of the range table chosen for the precompute circuit in single precision; it does not divide 32. -/
theorem C40_width32 (be : Backend) (v w : Pre bn254) (a b n i j m : ZMod bn254) (st : Bool) :
    Accepts be st 0 f32.pow2Size (precomputeCircuit32 v w a b n i j m) () ↔ (precomputeCircuit32 v w a b n i j m).Sat 9 st () := by
  obtain ⟨l, q, h⟩ := shape_precompute32 (p := bn254)
  rw [accepts_iff (h v w a b n i j m), (h (preOf f32 0 0 0 0) (preOf f32 0 0 0 0) 0 0 0 0 0 0).widths, width_precompute32]

/-- **C40** The width of the range table chosen for the precompute circuit in double precision; it does not divide 64. -/
theorem C40_width64 (be : Backend) (v w : Pre bn254) (a b n i j m : ZMod bn254) (st : Bool) :
    Accepts be st 0 f64.pow2Size (precomputeCircuit64 v w a b n i j m) () ↔ (precomputeCircuit64 v w a b n i j m).Sat 11 st () := by
  obtain ⟨l, q, h⟩ := shape_precompute64 (p := bn254)
  rw [accepts_iff (h v w a b n i j m), (h (preOf f64 0 0 0 0) (preOf f64 0 0 0 0) 0 0 0 0 0 0).widths, width_precompute64]

/-- **C40** The width of the range table chosen for the circuit that computes sines and cosines itself. -/
theorem C40_width_wrapper32 (be : Backend) (a b n i j m : ZMod bn254) (st : Bool) :
    Accepts be st 0 f32.pow2Size (wrapperCircuit f32 consts32 sinDenoms32 geo32 a b n i j m) () ↔
      (wrapperCircuit f32 consts32 sinDenoms32 geo32 a b n i j m).Sat 9 st () := by
  obtain ⟨l, q, h⟩ := shape_wrapper (p := bn254) (f := f32) (g := geo32) (k := consts32) (ds := sinDenoms32) (by rfl)
  rw [accepts_iff (h a b n i j m), (h 0 0 0 0 0 0).widths, width_wrapper32]

/-- **C40** (violated) Single precision, every back-end, at the deployed width: every location that passes the range check — the pole, NaN,
anything — is accepted as lying in cell `(0x35F61, 0, 0x3468C)` of resolution 13, which is near Munich. -/
theorem C40_every_location_accepted32 (be : Backend) (st : Bool) (h1 h2 : Pre bn254) {Lat Lng : ZMod bn254} (hin : InRange f32 geo32 Lat Lng 13) :
    Accepts be st 0 f32.pow2Size (precomputeCircuit32 h1 h2 Lat Lng 13 0x35F61 0 0x3468C) () := by
  rw [C40_width32]
  have G : Good bn254 9 f32 := goodField_bn254.1 9 ⟨by norm_num, by norm_num⟩
  have hr : (precomputeCircuit32 (preOf f32 0x3ebdd909 0x3f26e68f 0x3eb2013c 0x3f7007c5) (preOf f32 0x3e97e08c 0x3f0b980d 0x3e919b28 0x3f756dfe)
      0x3F35CD16 0x3F13A4D1 13 0x35F61 0 0x3468C).run 9 = some () := by decide +kernel
  have hs := Circ.sat_of_run (st := st) _ _ hr
  exact (C40_precompute32_exact G _ _ _ _ _ _ _ _ _).2 ⟨hin, ((C40_precompute32_exact G _ _ _ _ _ _ _ _ _).1 hs).2⟩

/-- **C40** (violated) The same in double precision, for a cell of resolution 15. -/
theorem C40_every_location_accepted64 (be : Backend) (st : Bool) (h1 h2 : Pre bn254) {Lat Lng : ZMod bn254} (hin : InRange f64 geo64 Lat Lng 15) :
    Accepts be st 0 f64.pow2Size (precomputeCircuit64 h1 h2 Lat Lng 15 0x179BA4 0 0x16EDD5) () := by
  rw [C40_width64]
  have G : Good bn254 11 f64 := goodField_bn254.2 11 ⟨by norm_num, by norm_num⟩
  have hr : (precomputeCircuit64
      (preOf f64 0x3fd7bb1f86e7a19d 0x3fe4dcd0d69d34f6 0x3fd6402625a3b5ea 0x3fee00f8e93af859)
      (preOf f64 0x3fd2fc1340dcc8e0 0x3fe17302e56d52fb 0x3fd23366788aac19 0x3feeadbf8c0585d3)
      0x3FE6B9A153801F55 0x3FE2749BB3346BFF 15 0x179BA4 0 0x16EDD5).run 11 = some () := by decide +kernel
  have hs := Circ.sat_of_run (st := st) _ _ hr
  exact (C40_precompute64_exact G _ _ _ _ _ _ _ _ _).2 ⟨hin, ((C40_precompute64_exact G _ _ _ _ _ _ _ _ _).1 hs).2⟩

/-- The hypothesis holds for the origin and for a NaN latitude. -/
example : InRange f32 geo32 (0 : ZMod bn254) 0 13 ∧ InRange f64 geo64 (0 : ZMod bn254) 0 15 ∧ InRange f32 geo32 (0x7fc00000 : ZMod bn254) 0 13 := by
  have h : ∀ {b : ℕ} {f : Fmt} {g : GeoConsts} (_ : Good bn254 b f) (_ : 1 + f.E + f.M ≤ 64) (_ : g.halfPi < 2 ^ (1 + f.E + f.M))
      (_ : g.pi < 2 ^ (1 + f.E + f.M)) {Lat Lng Res : ZMod bn254} {r : FloatVar bn254 × FloatVar bn254},
      (locInputs f g Lat Lng Res).run b = some r → InRange f g Lat Lng Res :=
    fun G h1 h2 h3 _ _ _ _ hr => ((C39_inputs_exact G h1 h2 h3 _ _ _ true _).1 (Circ.sat_of_run _ _ hr)).1
  exact ⟨h (f := f32) (g := geo32) (r := (w32 0, w32 0)) (goodField_bn254.1 9 ⟨by norm_num, by norm_num⟩) (by decide) (by decide) (by decide) (by decide +kernel),
    h (f := f64) (g := geo64) (r := (newConstant f64 0, newConstant f64 0)) (goodField_bn254.2 11 ⟨by norm_num, by norm_num⟩) (by decide) (by decide) (by decide)
      (by decide +kernel),
    h (f := f32) (g := geo32) (r := (w32 0x7fc00000, w32 0)) (goodField_bn254.1 9 ⟨by norm_num, by norm_num⟩) (by decide) (by decide) (by decide) (by decide +kernel)⟩

theorem wrapper_honest_cell :
    (wrapperCircuit (p := bn254) f32 consts32 sinDenoms32 geo32 0x3F311FBF 0x3F35A99C 1 2 0 3).run 9 = some () := by decide +kernel

theorem wrapper_forged_cell :
    (wrapperCircuit (p := bn254) f32 consts32 sinDenoms32 geo32 0x3F311FBF 0x3F35A99C 1 1 0 2).forge 9 (cheat 5592 0) = some () := by
  decide +kernel

/-- **C40** (violated) The circuit that computes sines and cosines itself, every back-end: the same location is accepted as lying in two different
cells of the same resolution. The first is the honest answer; the second overrides one hint of `Floor` (C26). -/
theorem C40_wrapper_two_cells32 (be : Backend) (st : Bool) :
    Accepts be st 0 f32.pow2Size (wrapperCircuit (p := bn254) f32 consts32 sinDenoms32 geo32 0x3F311FBF 0x3F35A99C 1 2 0 3) () ∧
    Accepts be st 0 f32.pow2Size (wrapperCircuit (p := bn254) f32 consts32 sinDenoms32 geo32 0x3F311FBF 0x3F35A99C 1 1 0 2) () := by
  have s1 := Circ.sat_of_run (st := st) _ _ wrapper_honest_cell
  have s2 := Circ.sat_of_forge (st := st) wrapper_forged_cell
  exact ⟨(C40_width_wrapper32 be 0x3F311FBF 0x3F35A99C 1 2 0 3 st).2 s1, (C40_width_wrapper32 be 0x3F311FBF 0x3F35A99C 1 1 0 2 st).2 s2⟩

end ZkLoc
