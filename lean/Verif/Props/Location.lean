import Verif.Props.Geo
import Verif.Props.Compare
import Verif.Props.Arith
import Verif.Loc2Index

/-!
# Property theorems C39, C40: what the location circuits check about the secret location
-/

namespace ZkLoc

variable {p : ℕ} [Fact p.Prime] {b : ℕ} {f : Fmt} {g : GeoConsts}

/-! ### C39 -/

/-- The location `(lat, lng)` passes the range check: bit patterns of the format, not above `π/2` and `π`, resolution at most 15. -/
structure InRange (f : Fmt) (g : GeoConsts) (Lat Lng Res : ZMod p) : Prop where
  lat : Lat.val < 2 ^ (1 + f.E + f.M)
  lng : Lng.val < 2 ^ (1 + f.E + f.M)
  notAboveHalfPi : ¬ Ieee.Lt (Ieee.decodeBits ⟨f.E, f.M⟩ g.halfPi) (Ieee.decodeBits ⟨f.E, f.M⟩ Lat.val)
  notAbovePi : ¬ Ieee.Lt (Ieee.decodeBits ⟨f.E, f.M⟩ g.pi) (Ieee.decodeBits ⟨f.E, f.M⟩ Lng.val)
  res : Res.val ≤ 15

theorem newConstant_encodes {v : ℕ} (hE : 2 ≤ f.E) (h64 : 1 + f.E + f.M ≤ 64) (hv : v < 2 ^ (1 + f.E + f.M)) :
    Encodes f (newConstant f v : FloatVar p) (Ieee.decodeBits ⟨f.E, f.M⟩ v) :=
  encodes_iff.2 ⟨_, fltOf_valid hE hv, fltOf_datum (by omega) hv, newConstant_toVar (by omega) h64 hv⟩

theorem wireOf_eq_zero {P : Prop} : (wireOf P : ZMod p) = 0 ↔ ¬ P := by
  classical
  unfold wireOf
  by_cases h : P <;> simp [h]

/-- **C39** Exactly which inputs the input section of the location circuits accepts, at every table width: whatever passes is allocated
faithfully, and nothing but the two upper bounds and the resolution is checked. -/
theorem C39_inputs_exact (G : Good p b f) (h64 : 1 + f.E + f.M ≤ 64) (hg : g.halfPi < 2 ^ (1 + f.E + f.M)) (hg' : g.pi < 2 ^ (1 + f.E + f.M))
    (Lat Lng Res : ZMod p) (st : Bool) (r : FloatVar p × FloatVar p) :
    (locInputs f g Lat Lng Res).Sat b st r ↔
      InRange f g Lat Lng Res ∧ r = ((componentsOf Lat.val f.E f.M).toVar, (componentsOf Lng.val f.E f.M).toVar) := by
  have hE := G.hE
  unfold locInputs
  simp only [Circ.bind_eq, Circ.pure_eq, Circ.sat_bind, C14_newFloat_exact G h64]
  constructor
  · rintro ⟨lat, ⟨h1, rfl⟩, lng, ⟨h2, rfl⟩, c1, hc1, u1, hu1, c2, hc2, u2, hu2, u3, hu3, hr⟩
    have e1 := C14_newFloat_encodes (st := st) G h64 ((C14_newFloat_exact G h64 _ _ _).2 ⟨h1, rfl⟩)
    have e2 := C14_newFloat_encodes (st := st) G h64 ((C14_newFloat_exact G h64 _ _ _).2 ⟨h2, rfl⟩)
    rw [(C24_isGt G e1 (newConstant_encodes (by omega) h64 hg)).2] at hc1
    rw [(C24_isGt G e2 (newConstant_encodes (by omega) h64 hg')).2] at hc2
    subst hc1 hc2
    simp only [assertIsEqual, Circ.Sat, decide_eq_true_eq] at hu1 hu2
    simp only [assertIsLessOrEqual, Circ.pure_eq, Circ.Sat, decide_eq_true_eq] at hu3
    simp only [Circ.Sat] at hr
    exact ⟨⟨h1, h2, wireOf_eq_zero.1 hu1.1, wireOf_eq_zero.1 hu2.1, hu3.1⟩, hr⟩
  · rintro ⟨⟨h1, h2, h3, h4, h5⟩, rfl⟩
    have e1 := C14_newFloat_encodes (st := st) G h64 ((C14_newFloat_exact G h64 _ _ _).2 ⟨h1, rfl⟩)
    have e2 := C14_newFloat_encodes (st := st) G h64 ((C14_newFloat_exact G h64 _ _ _).2 ⟨h2, rfl⟩)
    refine ⟨_, ⟨h1, rfl⟩, _, ⟨h2, rfl⟩, _, ((C24_isGt G e1 (newConstant_encodes (by omega) h64 hg)).2 _ _).2 rfl, (), ?_,
      _, ((C24_isGt G e2 (newConstant_encodes (by omega) h64 hg')).2 _ _).2 rfl, (), ?_, (), ?_, rfl⟩
    · simp only [assertIsEqual, Circ.Sat, decide_eq_true_eq]; exact ⟨wireOf_eq_zero.2 h3, trivial⟩
    · simp only [assertIsEqual, Circ.Sat, decide_eq_true_eq]; exact ⟨wireOf_eq_zero.2 h4, trivial⟩
    · simp only [assertIsLessOrEqual, Circ.pure_eq, Circ.Sat, decide_eq_true_eq]; exact ⟨h5, trivial⟩

/-- **C39** A finite latitude that passes is at most the constant `π/2`, a finite longitude at most `π`. -/
theorem C39_upper_bounds {Lat Lng Res : ZMod p} (h : InRange f g Lat Lng Res) {s t : Bool} {x y hp pi : ℝ}
    (hx : Ieee.decodeBits ⟨f.E, f.M⟩ Lat.val = .fin s x) (hy : Ieee.decodeBits ⟨f.E, f.M⟩ Lng.val = .fin t y)
    (hh : Ieee.decodeBits ⟨f.E, f.M⟩ g.halfPi = .fin false hp) (hpi : Ieee.decodeBits ⟨f.E, f.M⟩ g.pi = .fin false pi) :
    Ieee.signed s x ≤ hp ∧ Ieee.signed t y ≤ pi := by
  have h1 := h.notAboveHalfPi
  have h2 := h.notAbovePi
  rw [hx, hh] at h1
  rw [hy, hpi] at h2
  constructor
  · by_contra hc
    exact h1 ⟨_, _, rfl, rfl, by simpa [Ieee.signed] using not_le.1 hc⟩
  · by_contra hc
    exact h2 ⟨_, _, rfl, rfl, by simpa [Ieee.signed] using not_le.1 hc⟩

/-- **C39** NaN passes, for the latitude and the longitude, in both precisions. -/
theorem C39_nan_passes {Lat Lng Res : ZMod p} (h1 : Lat.val < 2 ^ (1 + f.E + f.M)) (h2 : Lng.val < 2 ^ (1 + f.E + f.M))
    (n1 : Ieee.decodeBits ⟨f.E, f.M⟩ Lat.val = .nan) (n2 : Ieee.decodeBits ⟨f.E, f.M⟩ Lng.val = .nan) (h3 : Res.val ≤ 15) : InRange f g Lat Lng Res := by
  refine ⟨h1, h2, ?_, ?_, h3⟩
  · rw [n1]; rintro ⟨a, b, _, hb, _⟩; simp [Ieee.Datum.value] at hb
  · rw [n2]; rintro ⟨a, b, _, hb, _⟩; simp [Ieee.Datum.value] at hb

/-- **C39** There is no lower bound: every negative number passes, also `-∞`. -/
theorem C39_no_lower_bound {Lat Lng Res : ZMod p} (h1 : Lat.val < 2 ^ (1 + f.E + f.M)) (h2 : Lng.val < 2 ^ (1 + f.E + f.M))
    {hp pi : ℝ} (hh : Ieee.decodeBits ⟨f.E, f.M⟩ g.halfPi = .fin false hp) (hpi : Ieee.decodeBits ⟨f.E, f.M⟩ g.pi = .fin false pi)
    (p1 : 0 ≤ hp) (p2 : 0 ≤ pi) (n1 : Ieee.decodeBits ⟨f.E, f.M⟩ Lat.val = .inf true ∨ ∃ x, 0 ≤ x ∧ Ieee.decodeBits ⟨f.E, f.M⟩ Lat.val = .fin true x)
    (n2 : Ieee.decodeBits ⟨f.E, f.M⟩ Lng.val = .inf true ∨ ∃ x, 0 ≤ x ∧ Ieee.decodeBits ⟨f.E, f.M⟩ Lng.val = .fin true x) (h3 : Res.val ≤ 15) :
    InRange f g Lat Lng Res := by
  have key : ∀ {c : ℝ} {d : Ieee.Datum}, 0 ≤ c → (d = .inf true ∨ ∃ x, 0 ≤ x ∧ d = .fin true x) → ¬ Ieee.Lt (.fin false c) d := by
    rintro c d hc (rfl | ⟨x, hx, rfl⟩)
    · rintro ⟨a, b, ha, hb, h⟩
      simp [Ieee.Datum.value] at ha hb
      rw [← ha, ← hb] at h
      simp at h
    · rintro ⟨a, b, ha, hb, h⟩
      simp [Ieee.Datum.value, Ieee.signed] at ha hb
      rw [← ha, ← hb] at h
      have h' : c < -x := by exact_mod_cast h
      linarith
  exact ⟨h1, h2, by rw [hh]; exact key p1 n1, by rw [hpi]; exact key p2 n2, h3⟩

/-- NaN as latitude, `-1000` as longitude pass; `2` as latitude does not. -/
example : (locInputs f32 geo32 0x7fc00000 0xc47a0000 7 : Circ bn254 _).run 8 = some (w32 0x7fc00000, w32 0xc47a0000) ∧
    (locInputs f32 geo32 0x40000000 0 7 : Circ bn254 _).run 8 = none := by decide +kernel

/-! ### C40 -/

/-- The hint wires take any value. -/
theorem hintFloat_sat (h r : FloatVar p) (st : Bool) : (hintFloat h).Sat b st r := ⟨r.sign, r.exponent, r.mantissa, r.isAbnormal, rfl⟩

/-- **C40** The sixteen wires for an angle can be given any values whatsoever, whatever the angle is. -/
theorem C40_precompute_free (G : Good p b f) (h64 : 1 + f.E + f.M ≤ 64) (h v : Pre p) (st : Bool) : (precompute f h).Sat b st v := by
  have hz : (newFloat f (0 : ZMod p)).Sat b st (componentsOf 0 f.E f.M).toVar := by
    have := (C14_newFloat_exact G h64 (0 : ZMod p) st (componentsOf (0 : ZMod p).val f.E f.M).toVar).2 ⟨by rw [ZMod.val_zero]; positivity, rfl⟩
    simpa using this
  unfold precompute
  simp only [Circ.bind_eq, Circ.pure_eq, Circ.sat_bind]
  exact ⟨_, hz, _, hz, _, hz, _, hz, _, hintFloat_sat _ v.alpha st, _, hintFloat_sat _ v.beta st, _, hintFloat_sat _ v.gamma st, _,
    hintFloat_sat _ v.delta st, rfl⟩

/-- A cell can be claimed: some values of the hint wires satisfy the rest of the circuit. The secret location does not occur. -/
def Claimable32 (b : ℕ) (st : Bool) (Res I J K : ZMod p) : Prop :=
  ∃ vLat vLng : Pre p, (preTail f32 geo32
    (preChecks f32 geo32 (fun x y => fAssertIsEqualOrCustomULP f32 x y 0x3f800000) (fun x y => fAssertIsEqualOrCustomULP f32 x y 0x3f800000)
      (fun x y => fAssertIsEqualOrCustomULP f32 x y 0x3f800000))
    (preChecks f32 geo32 (fun x y => fAssertIsEqualOrCustomULP f32 x y 0x3f800000) (fun x y => fAssertIsEqualOrCustomULP f32 x y 0x3f800000)
      (fun x y => fAssertIsEqualOrCustomULP f32 x y 0x3f800000)) Res I J K vLat vLng).Sat b st ()

/-- The same for double precision. -/
def Claimable64 (b : ℕ) (st : Bool) (Res I J K : ZMod p) : Prop :=
  ∃ vLat vLng : Pre p, (preTail f64 geo64
    (preChecks f64 geo64 (fun x y => fAssertIsEqualOrCustomULP f64 x y 0x4000000000000000)
      (fun x y => fAssertIsEqualOrCustomULP f64 x y 0x4000000000000000) (fun x y => fAssertIsEqualOrULP f64 x y))
    (preChecks f64 geo64 (fun x y => fAssertIsEqualOrCustomULP f64 x y 0x4000000000000000) (fun x y => fAssertIsEqualOrULP f64 x y)
      (fun x y => fAssertIsEqualOrULP f64 x y)) Res I J K vLat vLng).Sat b st ()

/-- **C40** What a proof of the single-precision circuit says, at every table width: the location passes the range check, and — independently of the
location — the cell can be claimed. -/
theorem C40_precompute32_exact (G : Good p b f32) (hLat hLng : Pre p) (Lat Lng Res I J K : ZMod p) (st : Bool) :
    (precomputeCircuit32 hLat hLng Lat Lng Res I J K).Sat b st () ↔ InRange f32 geo32 Lat Lng Res ∧ Claimable32 b st Res I J K := by
  unfold precomputeCircuit32 Claimable32
  simp only [Circ.bind_eq, Circ.sat_bind, C39_inputs_exact (g := geo32) G (by decide) (by decide) (by decide)]
  constructor
  · rintro ⟨r, ⟨h, rfl⟩, vLat, _, vLng, _, h2⟩
    exact ⟨h, vLat, vLng, h2⟩
  · rintro ⟨h, vLat, vLng, h2⟩
    exact ⟨_, ⟨h, rfl⟩, vLat, C40_precompute_free G (by decide) _ _ _, vLng, C40_precompute_free G (by decide) _ _ _, h2⟩

/-- **C40** A proof for a cell says nothing about the location: any two locations that pass the range check have proofs for the same cells. -/
theorem C40_not_bound32 (G : Good p b f32) (h1 h2 h3 h4 : Pre p) {Lat Lng Lat' Lng' Res : ZMod p} (hin : InRange f32 geo32 Lat Lng Res)
    (hin' : InRange f32 geo32 Lat' Lng' Res) (I J K : ZMod p) (st : Bool) :
    (precomputeCircuit32 h1 h2 Lat Lng Res I J K).Sat b st () ↔ (precomputeCircuit32 h3 h4 Lat' Lng' Res I J K).Sat b st () := by
  rw [C40_precompute32_exact G, C40_precompute32_exact G]
  simp only [hin, hin', true_and]


/-- The shifted longitude, which the double-precision circuit computes and discards, can be computed for every float. -/
theorem shiftedLng_runs (G : Good p b f) (h64 : 1 + f.E + f.M ≤ 64) (h1 : g.halfPi < 2 ^ (1 + f.E + f.M)) (h2 : g.pi < 2 ^ (1 + f.E + f.M))
    (h3 : g.twoPi < 2 ^ (1 + f.E + f.M)) {x : Flt} (hx : x.Valid f) : ∃ r, (shiftedLng f g (x.toVar : FloatVar p)).run b = some r := by
  have hE := G.hE
  unfold shiftedLng
  rw [newConstant_toVar (by omega) h64 h1, newConstant_toVar (by omega) h64 h2, newConstant_toVar (by omega) h64 h3]
  have v1 := hx.add G (fltOf_valid (f := f) (by omega) h1)
  simp only [Circ.bind_eq, Circ.run_bind, run_add G hx (fltOf_valid (by omega) h1), run_isGt G v1 (fltOf_valid (by omega) h2),
    run_sub G v1 (fltOf_valid (by omega) h3), Option.bind_some, run_select, Circ.pure_eq, Circ.run]
  exact ⟨_, rfl⟩

/-- **C40** The same for double precision. -/
theorem C40_precompute64_exact (G : Good p b f64) (hLat hLng : Pre p) (Lat Lng Res I J K : ZMod p) (st : Bool) :
    (precomputeCircuit64 hLat hLng Lat Lng Res I J K).Sat b st () ↔ InRange f64 geo64 Lat Lng Res ∧ Claimable64 b st Res I J K := by
  unfold precomputeCircuit64 Claimable64
  simp only [Circ.bind_eq, Circ.sat_bind, C39_inputs_exact (g := geo64) G (by decide) (by decide) (by decide)]
  constructor
  · rintro ⟨r, ⟨h, rfl⟩, _, _, _, _, vLat, _, vLng, _, h2⟩
    exact ⟨h, vLat, vLng, h2⟩
  · rintro ⟨h, vLat, vLng, h2⟩
    have e1 := C14_newFloat_encodes (st := st) G (by decide) ((C14_newFloat_exact G (by decide) _ _ _).2 ⟨h.lat, rfl⟩)
    have e2 := C14_newFloat_encodes (st := st) G (by decide) ((C14_newFloat_exact G (by decide) _ _ _).2 ⟨h.lng, rfl⟩)
    obtain ⟨x, hx, -, xe⟩ := encodes_iff.1 e1
    obtain ⟨y, hy, -, ye⟩ := encodes_iff.1 e2
    obtain ⟨r, hr⟩ := shiftedLng_runs (p := p) (g := geo64) G (by decide) (by decide) (by decide) (by decide) hy
    refine ⟨_, ⟨h, rfl⟩, (Flt.add f64 x (fltOf f64 geo64.halfPi)).toVar, Circ.sat_of_run _ _ ?_, r, Circ.sat_of_run _ _ ?_, vLat,
      C40_precompute_free G (by decide) _ _ _, vLng, C40_precompute_free G (by decide) _ _ _, h2⟩
    · rw [xe, newConstant_toVar (by decide) (by decide) (by decide)]
      exact run_add G hx (fltOf_valid (by decide) (by decide))
    · rw [ye]; exact hr

/-- **C40** A proof for a cell says nothing about the location, double precision. -/
theorem C40_not_bound64 (G : Good p b f64) (h1 h2 h3 h4 : Pre p) {Lat Lng Lat' Lng' Res : ZMod p} (hin : InRange f64 geo64 Lat Lng Res)
    (hin' : InRange f64 geo64 Lat' Lng' Res) (I J K : ZMod p) (st : Bool) :
    (precomputeCircuit64 h1 h2 Lat Lng Res I J K).Sat b st () ↔ (precomputeCircuit64 h3 h4 Lat' Lng' Res I J K).Sat b st () := by
  rw [C40_precompute64_exact G, C40_precompute64_exact G]
  simp only [hin, hin', true_and]

/-! ### Concrete cases -/

/-- `C39_inputs_exact` at width 8: the pair (0.25, -3) at resolution 7 is read, longitude 4 is not, and neither is resolution 16. -/
example : InRange f32 geo32 (0x3E800000 : ZMod bn254) 0xC0400000 7 ∧ ¬ InRange f32 geo32 (0 : ZMod bn254) 0x40800000 7 ∧ ¬ InRange f32 geo32 (0 : ZMod bn254) 0 16 := by
  have key := C39_inputs_exact (p := bn254) (g := geo32) good8 (by decide) (by decide) (by decide)
  refine ⟨((key _ _ _ true (w32 0x3E800000, w32 0xC0400000)).1 (Circ.sat_of_run _ _ (by decide +kernel))).1, fun h => h.notAbovePi ?_, fun h => absurd h.res (by decide +kernel)⟩
  have e1 : Ieee.decodeBits ⟨8, 23⟩ 0x40800000 = .fin false 4 := by unfold Ieee.decodeBits; norm_num [Ieee.Format.bias]; decide
  have e2 : Ieee.decodeBits ⟨8, 23⟩ geo32.pi = .fin false (13176795 / 2 ^ 22) := by unfold Ieee.decodeBits geo32; norm_num [Ieee.Format.bias]; decide
  rw [show (0x40800000 : ZMod bn254).val = 0x40800000 by decide +kernel]
  change Ieee.Lt (Ieee.decodeBits ⟨8, 23⟩ geo32.pi) (Ieee.decodeBits ⟨8, 23⟩ 0x40800000)
  rw [e1, e2]
  exact ⟨_, _, rfl, rfl, by norm_num [Ieee.signed]⟩

/-- `C39_nan_passes`, `C39_no_lower_bound`: the patterns of a NaN and of minus infinity and -1000 pass the range checks. -/
example : InRange f32 geo32 (0x7fc00000 : ZMod bn254) 0x7fc00000 15 ∧ InRange f32 geo32 (0xff800000 : ZMod bn254) 0xc47a0000 0 := by
  have v1 : (0x7fc00000 : ZMod bn254).val = 0x7fc00000 := by decide +kernel
  have v2 : (0xff800000 : ZMod bn254).val = 0xff800000 := by decide +kernel
  have v3 : (0xc47a0000 : ZMod bn254).val = 0xc47a0000 := by decide +kernel
  have n : Ieee.decodeBits ⟨8, 23⟩ 0x7fc00000 = .nan := by unfold Ieee.decodeBits; norm_num
  have i : Ieee.decodeBits ⟨8, 23⟩ 0xff800000 = .inf true := by unfold Ieee.decodeBits; norm_num; decide
  have m : Ieee.decodeBits ⟨8, 23⟩ 0xc47a0000 = .fin true 1000 := by unfold Ieee.decodeBits; norm_num [Ieee.Format.bias]; decide
  have e1 : Ieee.decodeBits ⟨8, 23⟩ geo32.halfPi = .fin false (13176795 / 2 ^ 23) := by unfold Ieee.decodeBits geo32; norm_num [Ieee.Format.bias]; decide
  have e2 : Ieee.decodeBits ⟨8, 23⟩ geo32.pi = .fin false (13176795 / 2 ^ 22) := by unfold Ieee.decodeBits geo32; norm_num [Ieee.Format.bias]; decide
  refine ⟨C39_nan_passes (by rw [v1]; decide) (by rw [v1]; decide) (by rw [v1]; exact n) (by rw [v1]; exact n) (by decide +kernel),
    C39_no_lower_bound (by rw [v2]; decide) (by rw [v3]; decide) e1 e2 (by positivity) (by positivity) (Or.inl (by rw [v2]; exact i))
      (Or.inr ⟨1000, by norm_num, by rw [v3]; exact m⟩) (by decide +kernel)⟩

end ZkLoc
