import Mathlib.Analysis.SpecialFunctions.Complex.Arg
import Mathlib.Algebra.Order.Floor.Ring

/-!
# Attributes of the hydro units, from the rasters (Python side)

`Catchment.get_hydro_units_attributes` (python/src/hydrobricks/catchment.py:509-585) with the `extract_unit_*` functions of
python/src/hydrobricks/preprocessing/catchment_topography.py:262-353.

Simplifications.  Numbers are real numbers, NaN is `none`.  A raster is the list of its cells, each with its id, elevation, slope and aspect.  Latitudes and longitudes
(an external library) are left out, as is the check of the land covers.
-/

open Classical

namespace HB.UnitStats

structure Cell where
  id : ℤ
  elev : Option ℝ
  slope : Option ℝ
  aspect : Option ℝ

inductive Err
  /-- `np.nanmin` of nothing -/
  | empty

/-- The valid values. -/
def valid (vs : List (Option ℝ)) : List ℝ := vs.filterMap id

/-- `np.nanmean`. -/
noncomputable def nanmean (vs : List (Option ℝ)) : Option ℝ := if valid vs = [] then none else some ((valid vs).sum / ((valid vs).length : ℝ))

/-- `np.nanmin` and `np.nanmax`; with no value at all Python raises an error, with NaN only it gives NaN. -/
noncomputable def extreme (f : ℝ → ℝ → ℝ) (vs : List (Option ℝ)) : Except Err (Option ℝ) :=
  if vs = [] then .error .empty
  else match valid vs with
    | [] => .ok none
    | x :: xs => .ok (some (xs.foldl f x))

/-- `round(x)`: to the nearest, halves to the even one. -/
noncomputable def roundEven (x : ℝ) : ℤ :=
  if x - ⌊x⌋ < 1 / 2 then ⌊x⌋ else if 1 / 2 < x - ⌊x⌋ then ⌊x⌋ + 1 else if ⌊x⌋ % 2 = 0 then ⌊x⌋ else ⌊x⌋ + 1

/-- `round(x, 2)`. -/
noncomputable def round2 (x : ℝ) : ℝ := (roundEven (x * 100) : ℝ) / 100

/-- `math.atan2`. -/
noncomputable def atan2 (y x : ℝ) : ℝ := Complex.arg ⟨x, y⟩

/-- `np.radians` and `np.degrees`. -/
noncomputable def radians (x : ℝ) : ℝ := x * (Real.pi / 180)
noncomputable def degrees (x : ℝ) : ℝ := x * (180 / Real.pi)

/-- `if deg < 0: deg + 360`. -/
noncomputable def positive (d : ℝ) : ℝ := if d < 0 then d + 360 else d

/-- `extract_unit_mean_aspect` (catchment_topography.py:262-289). -/
noncomputable def meanAspect (as : List (Option ℝ)) : Option ℝ :=
  match nanmean (as.map fun a => a.map fun x => Real.sin (radians x)), nanmean (as.map fun a => a.map fun x => Real.cos (radians x)) with
  | some s, some c => some (positive (degrees (atan2 s c)))
  | _, _ => none

/-- One row of the table. -/
structure Row where
  id : ℤ
  area : ℝ
  elevationMean : Option ℝ
  elevationMin : Option ℝ
  elevationMax : Option ℝ
  slope : Option ℝ
  aspect : Option ℝ

/-- `map_unit_ids == unit_id`. -/
def cellsOf (u : ℤ) (cells : List Cell) : List Cell := cells.filter fun c => decide (c.id = u)

/-- The attributes of one unit (541-569), when the table has no elevation yet. -/
noncomputable def row (resX resY : ℝ) (cells : List Cell) (u : ℤ) : Except Err Row := do
  let mine := cellsOf u cells
  let lo ← extreme min (mine.map (·.elev))
  let hi ← extreme max (mine.map (·.elev))
  .ok ⟨u, round2 ((mine.length : ℝ) * resX * resY), (nanmean (mine.map (·.elev))).map round2, lo.map round2, hi.map round2,
    (nanmean (mine.map (·.slope))).map round2, meanAspect (mine.map (·.aspect))⟩

/-- `np.unique(self.map_unit_ids)` without zero (523-524). -/
def unitIds (cells : List Cell) : List ℤ := ((cells.map (·.id)).dedup.mergeSort fun a b => decide (a ≤ b)).filter fun u => decide (u ≠ 0)

/-- `get_hydro_units_attributes`: the table and the area of the catchment (583). -/
noncomputable def attributes (resX resY : ℝ) (cells : List Cell) : Except Err (List Row × ℝ) := do
  let rows ← (unitIds cells).mapM (row resX resY cells)
  .ok (rows, (rows.map (·.area)).sum)

end HB.UnitStats
