import Mathlib.Analysis.SpecialFunctions.Trigonometric.Arctan

/-!
# The physical quantity behind a number with a unit

Slopes are measured by the angle in radians, areas in square metres.
-/

namespace HB.Spec

/-- Kinds of units. -/
inductive Measure | angleDeg | angleRad | slopePercent | slopeRatio | areaM2 | areaHa | areaKm2
  deriving DecidableEq

/-- The supported spellings. -/
def measureOf (u : String) : Option Measure :=
  if u ∈ ["degrees", "degree", "deg", "°"] then some .angleDeg
  else if u ∈ ["radians", "rad"] then some .angleRad
  else if u ∈ ["percent", "%"] then some .slopePercent
  else if u ∈ ["m/m", "m_per_m"] then some .slopeRatio
  else if u ∈ ["m2", "m^2"] then some .areaM2
  else if u ∈ ["ha"] then some .areaHa
  else if u ∈ ["km2", "km^2"] then some .areaKm2
  else none

/-- The quantity a number stands for: an angle in radians or an area in square metres. -/
noncomputable def quantity : Measure → ℝ → ℝ
  | .angleDeg, v => v * Real.pi / 180
  | .angleRad, v => v
  | .slopePercent, v => Real.arctan (v / 100)
  | .slopeRatio, v => Real.arctan v
  | .areaM2, v => v
  | .areaHa, v => 10000 * v
  | .areaKm2, v => 1000000 * v

/-- Both units measure the same kind of thing. -/
def sameKind : Measure → Measure → Bool
  | .areaM2, b | .areaHa, b | .areaKm2, b => b = .areaM2 || b = .areaHa || b = .areaKm2
  | _, b => !(b = .areaM2 || b = .areaHa || b = .areaKm2)

end HB.Spec
