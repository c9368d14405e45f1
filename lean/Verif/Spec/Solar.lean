import Mathlib.Analysis.SpecialFunctions.Trigonometric.Basic
import Mathlib.Analysis.SpecialFunctions.Pow.Real

/-! # What the sun does -/

namespace HB.Spec.Solar

/-- A direction, seen from the place. -/
structure Dir where
  south : ℝ
  west : ℝ
  up : ℝ

def Dir.dot (a b : Dir) : ℝ := a.south * b.south + a.west * b.west + a.up * b.up

/-- An angle in degrees, as one in radians. -/
noncomputable def deg (x : ℝ) : ℝ := x * Real.pi / 180

/-- The direction of the sun at the latitude `lat`, for the declination `decl`, when the earth has turned by `ha` since noon (all in radians).  In the frame of the
equator (meridian, west, pole) the sun stands at `(cos decl cos ha, cos decl sin ha, sin decl)`; there the vertical of the place is `(cos lat, 0, sin lat)` and its
south is `(sin lat, 0, -cos lat)`. -/
noncomputable def sun (lat decl ha : ℝ) : Dir where
  south := Real.cos decl * Real.cos ha * Real.sin lat - Real.sin decl * Real.cos lat
  west := Real.cos decl * Real.sin ha
  up := Real.cos decl * Real.cos ha * Real.cos lat + Real.sin decl * Real.sin lat

/-- The direction of zenith angle `z` and azimuth `a` from the south, positive to the west, both in degrees. -/
noncomputable def direction (z a : ℝ) : Dir := ⟨Real.sin (deg z) * Real.cos (deg a), Real.sin (deg z) * Real.sin (deg a), Real.cos (deg z)⟩

/-- The normal of the ground of a slope and an aspect in degrees, the aspect clockwise from the north. -/
noncomputable def normal (slope aspect : ℝ) : Dir :=
  ⟨-(Real.sin (deg slope) * Real.cos (deg aspect)), -(Real.sin (deg slope) * Real.sin (deg aspect)), Real.cos (deg slope)⟩

/-- The declination on a day: between the tropics, the highest on day 172. -/
noncomputable def decl (day : ℤ) : ℝ := deg (23.45 * Real.cos (2 * Real.pi * ((day : ℝ) - 172) / 365))

/-- How much stronger the sun shines than at its mean distance (eccentricity 0.017). -/
noncomputable def closeness (day : ℤ) : ℝ := ((1 + 0.017 * Real.cos (2 * Real.pi * (day : ℝ) / 365.5)) / (1 - 0.017 ^ 2)) ^ 2

/-- The share of the atmosphere above an elevation (the barometric formula). -/
noncomputable def air (elev : ℝ) : ℝ := (1 - 0.0065 * elev / 288) ^ ((9.80665 * 0.0289644) / (8.31432 * 0.0065) : ℝ)

/-- The direct radiation of a clear sky on a ground of normal `n`, with the sun in the direction `s`: none when the sun is under the horizon (or within 1e-10 degrees of
it), none when it is behind the ground. -/
noncomputable def radiation (elev trans : ℝ) (day : ℤ) (s n : Dir) : ℝ :=
  if Real.sin (deg (1 / 10 ^ 10)) ≤ s.up then 1368 * closeness day * trans ^ (air elev / s.up) * max 0 (s.dot n) else 0

end HB.Spec.Solar
