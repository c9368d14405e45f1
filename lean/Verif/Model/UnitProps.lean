import Mathlib.Analysis.SpecialFunctions.Trigonometric.Arctan

/-!
# Hydro unit properties and lateral connections

Model of `HydroUnitProperty::GetValue` (HydroUnitProperty.cpp:19-48), of the property access of `HydroUnit` and of
`HydroUnit::AddLateralConnection` (HydroUnit.cpp:205-211).  `constants::pi` is π.
-/

namespace HB

/-- `HydroUnitProperty::GetValue` (HydroUnitProperty.cpp:19-48) for a property stored with unit `own` and value `v`, asked
in unit `u`; `none` is NaN (after a logged error).  The conditions on lines 24 are transcribed as they stand: two of them
test the stored unit instead of the requested one. -/
noncomputable def propValue (own : String) (v : ℝ) (u : String) : Option ℝ :=
  if own = u then some v
  else if (own = "degrees" ∨ own = "degree" ∨ own = "deg" ∨ own = "°") ∧
      (u = "degrees" ∨ own = "degree" ∨ u = "deg" ∨ own = "°") then some v
  else if (own = "degrees" ∨ own = "degree" ∨ own = "deg" ∨ own = "°") ∧ (u = "radians" ∨ u = "rad") then
    some (v * Real.pi / 180)
  else if (own = "degrees" ∨ own = "degree" ∨ own = "deg" ∨ own = "°") ∧ (u = "percent" ∨ u = "%") then
    some (100 * Real.tan (v * Real.pi / 180))
  else if (own = "degrees" ∨ own = "degree" ∨ own = "deg" ∨ own = "°") ∧ (u = "m/m" ∨ u = "m_per_m") then
    some (Real.tan (v * Real.pi / 180))
  else if (own = "m2" ∨ own = "m^2") ∧ u = "ha" then some (v / 10000)
  else if (own = "m2" ∨ own = "m^2") ∧ (u = "km2" ∨ u = "km^2") then some (v / 1000000)
  else none

/-- A lateral connection (HydroUnitLateralConnection.h): receiver id, fraction, type. -/
structure LatConn (K : Type) where
  receiver : ℕ
  fraction : K
  type : String
  deriving DecidableEq, Repr

/-- `HydroUnit::AddLateralConnection` (HydroUnit.cpp:205-211) on the unit's list of connections; `none` = exception, list
unchanged. -/
def addLateral {K : Type} [Zero K] [One K] [LinearOrder K] (l : List (LatConn K)) (receiver : ℕ) (fraction : K)
    (type : String) : Option (List (LatConn K)) :=
  if fraction ≤ 0 ∨ fraction > 1 then none else some (l ++ [⟨receiver, fraction, type⟩])

end HB
