import Mathlib.Analysis.SpecialFunctions.Complex.Arg
import Mathlib.Analysis.SpecialFunctions.Trigonometric.Arctan

/-!
# Hillshade of the DEM (Python side)

`CatchmentTopography.get_hillshade` (python/src/hydrobricks/preprocessing/catchment_topography.py:200-260).

Simplifications.  Numbers are real numbers; cells without elevation (NaN, which gives NaN around them) are left out.
-/

namespace HB.Hillshade

inductive Err
  | azimuth
  | altitude
  /-- `np.gradient` needs two cells in each direction -/
  | tooSmall

/-- A raster: rows from north to south, columns from west to east. -/
structure Dem where
  rows : ℕ
  cols : ℕ
  z : ℕ → ℕ → ℝ
  /-- size of a pixel from west to east, `transform[0]` -/
  resX : ℝ
  /-- size of a pixel from north to south, `transform[4]` -/
  resY : ℝ

/-- `np.gradient` along one axis: central differences, one-sided at the ends. -/
noncomputable def gradient (n : ℕ) (f : ℕ → ℝ) (i : ℕ) : ℝ :=
  if i = 0 then f 1 - f 0 else if i + 1 = n then f i - f (i - 1) else (f (i + 1) - f (i - 1)) / 2

/-- `np.arctan2`. -/
noncomputable def arctan2 (y x : ℝ) : ℝ := Complex.arg ⟨x, y⟩

/-- The shade from the two gradients (245-260). -/
noncomputable def shade (azimuth altitude zFactor sizeX sizeY gx gy : ℝ) : ℝ :=
  let x := zFactor * gx / sizeX
  let y := zFactor * gy / sizeY
  let azimuthRad := (360 - azimuth) * Real.pi / 180
  let altitudeRad := altitude * Real.pi / 180
  let slope := Real.pi / 2 - Real.arctan (Real.sqrt (x * x + y * y))
  let aspect := arctan2 (-x) y
  let shaded := Real.sin altitudeRad * Real.sin slope + Real.cos altitudeRad * Real.cos slope * Real.cos ((azimuthRad - Real.pi / 2) - aspect)
  255 * (shaded + 1) / 2

/-- `get_hillshade`: `x, y = np.gradient(dem)` gives the gradient along the rows' axis first. -/
noncomputable def hillshade (d : Dem) (azimuth altitude zFactor : ℝ) : Except Err (ℕ → ℕ → ℝ) :=
  if d.rows < 2 ∨ d.cols < 2 then .error .tooSmall
  else if 360 < azimuth then .error .azimuth
  else if 90 < altitude then .error .altitude
  else .ok fun i j => shade azimuth altitude zFactor |d.resX| |d.resY| (gradient d.rows (fun k => d.z k j) i) (gradient d.cols (fun k => d.z i k) j)

end HB.Hillshade
