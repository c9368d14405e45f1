import Mathlib.Analysis.SpecialFunctions.Trigonometric.Inverse
import Mathlib.Analysis.SpecialFunctions.Trigonometric.Arctan
import Mathlib.Analysis.SpecialFunctions.Pow.Real
import Mathlib.Analysis.Real.Pi.Bounds

/-!
# Potential solar radiation (Python side)

`PotentialSolarRadiation` (python/src/hydrobricks/preprocessing/potential_solar_radiation.py), except the reading of the terrain, the cast shadows themselves
(`Model/Shadow.lean`) and the writing of the files.

Simplifications.  Numbers are real numbers; NaN is `none`.  The cells of the raster are the elements of a type `ι`; a cell holds its slope and its aspect, in degrees,
or `none` when they are NaN (both are NaN in the same cells).  The cast shadows are a parameter.
-/

open Classical

namespace HB.Solar

inductive Err
  /-- `np.arange` with a NaN bound. -/
  | arange
  /-- the `ConfigurationError` of `_calculate_angle_of_incidence` -/
  | incidence

/-- `TO_RAD` and `TO_DEG` (python/src/hydrobricks/_constants.py:4-5). -/
noncomputable def toRad : ℝ := Real.pi / 180
noncomputable def toDeg : ℝ := 180 / Real.pi

/-- The other constants (_constants.py:9-21). -/
noncomputable def axis : ℝ := 149.6
noncomputable def ecc : ℝ := 0.017
noncomputable def solarCst : ℝ := 1368
noncomputable def seaPressure : ℝ := 101325
noncomputable def seaHeight : ℝ := 0
noncomputable def seaTemp : ℝ := 288
noncomputable def lapse : ℝ := -0.0065
noncomputable def gravity : ℝ := 9.80665
noncomputable def rGas : ℝ := 8.31432
noncomputable def molar : ℝ := 0.0289644

/-- `np.arccos`: NaN outside [-1, 1]. -/
noncomputable def npArccos (x : ℝ) : Option ℝ := if -1 ≤ x ∧ x ≤ 1 then some (Real.arccos x) else none

/-- `get_solar_declination_rad` (412-447). -/
noncomputable def declination (day : ℤ) : ℝ := 23.45 * Real.cos ((360 * ((day : ℝ) - 172)) / 365 * toRad) * toRad

/-- `get_solar_hour_angle_limit` (450-480). -/
noncomputable def hourLimit (decl lat : ℝ) : Option ℝ := npArccos (-Real.tan decl * Real.tan lat)

/-- `get_solar_zenith` (483-515), in degrees. -/
noncomputable def zenith (ha lat decl : ℝ) : Option ℝ :=
  (npArccos (Real.sin lat * Real.sin decl + Real.cos lat * Real.cos decl * Real.cos ha)).map (· * toDeg)

/-- `np.arctan(a / b)`: a division by zero gives an infinity of the sign of `a`, or NaN. -/
noncomputable def arctanDiv (a b : ℝ) : Option ℝ :=
  if b ≠ 0 then some (Real.arctan (a / b)) else if 0 < a then some (Real.pi / 2) else if a < 0 then some (-(Real.pi / 2)) else none

/-- The two corrections by 180 degrees (557-558); the second looks at the value the first has left. -/
noncomputable def fixPlus (ha az : ℝ) : ℝ := if az < 0 ∧ 0 < ha then az + 180 else az
noncomputable def fixMinus (ha az : ℝ) : ℝ := if 0 < az ∧ ha < 0 then az - 180 else az

/-- `get_solar_azimuth_to_south` (518-563), in degrees. -/
noncomputable def azimuth (ha lat decl : ℝ) : Option ℝ :=
  (arctanDiv (Real.sin ha) (Real.sin lat * Real.cos ha - Real.cos lat * Real.tan decl)).map fun t => fixMinus ha (fixPlus ha (t * (180 / Real.pi)))

/-- `get_solar_azimuth_to_north` (566-579). -/
noncomputable def azimuthNorth (ha lat decl : ℝ) : Option ℝ := (azimuth ha lat decl).map (· + 180)

/-- The cosine of the angle of incidence in a cell (702-709). -/
noncomputable def cosTerm (z az slope aspect : ℝ) : ℝ :=
  Real.cos (z * toRad) * Real.cos (slope * toRad) + Real.sin (z * toRad) * Real.sin (slope * toRad) * Real.cos (az * toRad - (aspect - 180) * toRad)

/-- The same over the raster: NaN where the terrain or the azimuth is. -/
noncomputable def cosTerms {ι : Type} (z : ℝ) (az : Option ℝ) (cell : ι → Option (ℝ × ℝ)) (i : ι) : Option ℝ :=
  az.bind fun a => (cell i).map fun s => cosTerm z a s.1 s.2

/-- `np.nanmax(np.abs(cosine_term) - 1) < tolerance` (711): false when all are NaN. -/
def within {ι : Type} (tol : ℝ) (t : ι → Option ℝ) : Prop := (∃ i c, t i = some c) ∧ ∀ i c, t i = some c → |c| - 1 < tol

/-- `np.arccos(np.clip(x, -1, 1))`, then at most 90 degrees (712-725). -/
noncomputable def clipped (c : ℝ) : ℝ := Real.arccos (max (-1) (min c 1))
noncomputable def capped (t : ℝ) : ℝ := if 90 * toRad < t then 90 * toRad else t

/-- `_calculate_angle_of_incidence` (663-727), in radians. -/
noncomputable def incidence {ι : Type} (z : ℝ) (az : Option ℝ) (cell : ι → Option (ℝ × ℝ)) : Except Err (ι → Option ℝ) :=
  if within (10 ^ (-6 : ℤ)) (cosTerms z az cell) then .ok fun i => (cosTerms z az cell i).map fun c => capped (clipped c)
  else .error .incidence

/-- The distance of the sun (625-631). -/
noncomputable def distance (day : ℤ) : ℝ := (axis * (1 - ecc * ecc)) / (1 + ecc * Real.cos (360 / 365.5 * (day : ℝ) * toRad))

/-- The atmospheric pressure (634-636). -/
noncomputable def pressure (elev : ℝ) : ℝ := seaPressure * (1 + (lapse / seaTemp) * (elev - seaHeight)) ^ ((-gravity * molar) / (rGas * lapse))

/-- `_calculate_radiation_hock_equation` in a cell (640-660).  Simplified: when the sun is on the horizon the borders are zero as the rest, instead of NaN; the sum over
the day ignores NaN, so that the outcome is the same. -/
noncomputable def hock (elev trans : ℝ) (day : ℤ) (z inc : ℝ) : ℝ :=
  if 90 - 10 ^ (-10 : ℤ) < z then 0
  else solarCst * (axis / distance day) ^ 2 * trans ^ (pressure elev / (seaPressure * Real.cos (z * toRad))) * Real.cos inc

/-- What a day's computation is given. -/
structure Inputs (ι : Type) where
  steps : ℕ
  elev : ℝ
  lat : ℝ
  trans : ℝ
  cell : ι → Option (ℝ × ℝ)
  /-- `calculate_cast_shadows`, for the zenith and the azimuth: 1 in the shade, 0 in the sun; zero everywhere when the shadows are not asked for -/
  shade : ℝ → ℝ → ι → ℝ

/-- The radiation of the raster at one hour angle (147-179). -/
noncomputable def instant {ι : Type} (I : Inputs ι) (day : ℤ) (ha : ℝ) : Except Err (ι → Option ℝ) :=
  match zenith ha I.lat (declination day) with
  | none => .error .incidence
  | some z =>
    if 90 ≤ z then .ok fun _ => some 0
    else do
      let inc ← incidence z (azimuth ha I.lat (declination day)) I.cell
      pure fun i => (inc i).map fun t => hock I.elev I.trans day z t * (1 - ((azimuth ha I.lat (declination day)).map fun a => I.shade z a i).getD 0)

/-- `(15 / steps_per_hour) * TO_RAD` (126). -/
noncomputable def interval (steps : ℕ) : ℝ := 15 / (steps : ℝ) * toRad

/-- `np.arange(start, stop, step)` (139-141). -/
noncomputable def arangeLen (start stop step : ℝ) : ℕ := ⌈(stop - start) / step⌉.toNat
noncomputable def arangeAt (start step : ℝ) (j : ℕ) : ℝ := start + j * step

/-- The radiation of a day, in a cell: `np.nansum` over the instants, divided by `24 * steps_per_hour` (132-188). -/
noncomputable def daily {ι : Type} (I : Inputs ι) (day : ℤ) : Except Err (ι → ℝ) :=
  match hourLimit (declination day) I.lat with
  | none => .error .arange
  | some l => do
    let all ← (List.range (arangeLen (-l) (l + interval I.steps) (interval I.steps))).mapM fun j => instant I day (arangeAt (-l) (interval I.steps) j)
    pure fun i => (all.map fun f => (f i).getD 0).sum / (24 * (I.steps : ℝ))

end HB.Solar
