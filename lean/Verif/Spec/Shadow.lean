import Verif.Model.Shadow
import Mathlib.Analysis.SpecialFunctions.Trigonometric.Basic

/-!
# Shadows

The azimuth of the sun is measured from the south, positive to the west; rows go from north to south.
-/

namespace HB.Spec.Shadow

noncomputable section

/-- Radians. -/
def rad (deg : ℝ) : ℝ := deg * (Real.pi / 180)

/-- How far a cell is from the sun, in pixels along the direction of the sun. -/
def away (az : ℝ) (r c : ℕ) : ℝ := c * Real.sin (rad az) - r * Real.cos (rad az)

/-- How far a cell is to the side of the direction of the sun, in pixels. -/
def aside (az : ℝ) (r c : ℕ) : ℝ := c * Real.cos (rad az) + r * Real.sin (rad az)

end

end HB.Spec.Shadow
