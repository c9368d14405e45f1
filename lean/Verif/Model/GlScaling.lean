import Mathlib.Algebra.Order.Field.Basic
import Mathlib.Algebra.BigOperators.Group.List.Basic
import Mathlib.Data.List.Dedup
import Mathlib.Data.List.Sort

/-!
# The look-up tables of the area-scaling method (Python side)

`GlacierEvolutionAreaScaling.compute_lookup_table` (python/src/hydrobricks/preprocessing/glacier_evolution_area_scaling.py): the
tables of areas and volumes that `ActionGlacierEvolutionAreaScaling` of the C++ core (C38) reads.

Simplifications.  Numbers are exact.  The maps are lists of cells; the resampling of the raster (rasterio) is an input of the model:
the thickness of each cell, `none` for `nan`, zero outside of the catchment (glacier_cover.py:47-60).  The columns of the tables are
independent of each other: the model gives the column of one unit.  The `while` loop has as many turns as there are pixels; `none`
is a loop that needs more, or a failed assertion.
-/

namespace HB.GlScaling

set_option linter.unusedSectionVars false

section
variable {K : Type} [Field K] [LinearOrder K]

/-- A cell: hydro unit (0 outside) and ice thickness, m. -/
abbrev Cell (K : Type) := ℤ × Option K

/-- `ice_thickness > 0` (false for `nan`). -/
def hasIce (c : Cell K) : Bool :=
  match c.2 with
  | some x => decide (0 < x)
  | none => false

/-- The units of the table: `np.unique` of those under the glacier, 0 excluded (411-413). -/
def unitIds (cells : List (Cell K)) : List ℤ :=
  (((cells.filter hasIce).map Prod.fst).dedup.insertionSort fun a b => a ≤ b).filter fun u => u != 0

/-- Number of glacier cells of a unit (415-418). -/
def patch (cells : List (Cell K)) (u : ℤ) : ℕ := ((cells.filter hasIce).filter fun c => c.1 == u).length

/-- The thicknesses of the glacier pixels of a unit (229-232). -/
def thicknesses (cells : List (Cell K)) (u : ℤ) : List K :=
  ((cells.filter fun c => c.1 == u).filter hasIce).map fun c => c.2.getD 0

/-- `np.mean`. -/
def mean (xs : List K) : K := xs.sum / xs.length

/-- A unit at a row: water equivalents of the pixels (mm), area divided by the area of the catchment, mean water equivalent. -/
structure Row (K : Type) where
  px : List K
  area : K
  we : K

/-- Row 0 (`_extract_ice_thickness`, 222-243; `_initialization`, 261-281); `iceWe` is `ICE_WE`, `cell` the area of a cell. -/
def start (iceWe cell catchment : K) (cells : List (Cell K)) (u : ℤ) : Row K :=
  ⟨(thicknesses cells u).map fun x => x * iceWe * 1000, (patch cells u : K) * cell / catchment,
    (if 0 < (thicknesses cells u).length then mean (thicknesses cells u) else 0) * iceWe * 1000⟩

/-- `np.any(px_values < 0)` (319). -/
def anyNeg (xs : List K) : Bool := xs.any fun x => decide (x < 0)

/-- The body of the `while` (320-322): without pixels above zero numpy divides by zero, and the result is not used. -/
def share (xs : List K) : List K :=
  let deficit := -(xs.filter fun x => decide (x < 0)).sum
  let m := deficit / ((xs.filter fun x => decide (0 < x)).length : K)
  xs.map fun x => if x ≤ 0 then 0 else x - m

/-- The `while` loop (318-322) with at most `fuel` turns. -/
def level : ℕ → List K → Option (List K)
  | 0, xs => if anyNeg xs then none else some xs
  | fuel + 1, xs => if anyNeg xs then level fuel (share xs) else some xs

/-- `np.isclose(new_we, ref, atol=1e-2)`. -/
def isClose (a b : K) : Bool := decide (|a - b| ≤ 1 / 100 + 1 / 10 ^ 5 * |b|)

/-- `_update_glacier_thickness` for one unit (283-332): the pixels afterwards. -/
def melt (change : K) (r : Row K) : Option (List K) :=
  if r.area = 0 then some r.px
  else
    (level r.px.length (r.px.map fun x => x - change / r.area)).bind fun px =>
      if isClose (mean px) (r.we - change / r.area) then some px else none

/-- `_width_scaling` for one unit (334-369). -/
def scale (cell catchment : K) (px : List K) : Row K :=
  ⟨px.filter fun x => decide (0 < x), ((px.filter fun x => decide (x ≠ 0)).length : K) * cell / catchment,
    if 0 < (px.filter fun x => decide (0 < x)).length then mean (px.filter fun x => decide (0 < x)) else 0⟩

/-- The rows of the loop (93-98); `change` is the mass to remove at each increment. -/
def rows (cell catchment change : K) (first : Row K) : ℕ → Option (Row K)
  | 0 => some first
  | k + 1 => (rows cell catchment change first k).bind fun r => (melt change r).map (scale cell catchment)

/-- `mass_change` (94). -/
def massChange (first : Row K) (n : ℕ) : K := first.we * first.area / n

/-- Row `k` for `n` increments: the last row is kept with zeros (96). -/
def tableRow (iceWe cell catchment : K) (cells : List (Cell K)) (n : ℕ) (u : ℤ) (k : ℕ) : Option (Row K) :=
  let first := start iceWe cell catchment cells u
  if k < n then rows cell catchment (massChange first n) first k else some ⟨[], 0, 0⟩

/-- The table of areas, m² (`_update_lookup_tables`, 371-390). -/
def Row.tabArea (catchment : K) (r : Row K) : K := r.area * catchment

/-- The table of volumes, m³. -/
def Row.tabVolume (iceWe catchment : K) (r : Row K) : K := r.we * (r.area * catchment) / (iceWe * 1000)

end
end HB.GlScaling
