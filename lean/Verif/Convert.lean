import Verif.Spec.Real
import Mathlib.Analysis.Real.Pi.Bounds

/-!
# Model of the unit conversions of /repo/util/util.go and /repo/proximity/proximity.go

Go's `float64` arithmetic is IEEE-754 double precision; each operation is the relation `Ieee.Rounds`. The values here are far from overflow, so that data are identified with
the real numbers they denote (zeros of either sign with zero).
-/

namespace ZkLoc.Convert
open Ieee

/-- `float64` -/
def double : Format := ⟨11, 52⟩

/-- `ScaledIntToFloat64`, /repo/util/util.go:378-381: conversion of the integer, then division by `1e9` (which is a double). -/
def ScaledIntToFloat64 (scaledInt : ℤ) (w : ℝ) : Prop := ∃ c, Rounds double scaledInt c ∧ Rounds double (c / 10 ^ 9) w

/-- `RadiansToDegrees`, /repo/util/util.go:383-386: the untyped constant `180.0 / math.Pi` is rounded once, when it becomes a double (`math.Pi` has more digits than
matter here and is taken as π). -/
def RadiansToDegrees (rad w : ℝ) : Prop := ∃ c, Rounds double (180 / Real.pi) c ∧ Rounds double (rad * c) w

/-- `degreesToRadians`, /repo/proximity/proximity.go:31-33, in double arithmetic. -/
def DegreesToRadians (degrees w : ℝ) : Prop := ∃ c, Rounds double (Real.pi / 180) c ∧ Rounds double (degrees * c) w

end ZkLoc.Convert
