import Verif.Model.Calendar
import Mathlib.Algebra.Order.Field.Basic
import Mathlib.Algebra.BigOperators.Group.Finset.Basic
import Mathlib.Data.List.Count

/-!
# Regridding of gridded forcing to the hydro units (Python side)

`TimeSeries2D.regrid_from_netcdf` (python/src/hydrobricks/time_series.py:122-662), with its pool of threads.

Simplifications.  NaN is `none`.  Opening, clipping and reprojection are inputs: for each pixel of the raster of the units its unit and the data cell
nearest to it, for each data cell its mean elevation and the gradient of the data.  Times are numbers of days.  `weights_block_size` is positive.
-/

namespace HB.Regrid

section
variable {K : Type}

inductive Err | noTime | length | start | stop | assertion | index | doyLength
deriving DecidableEq

/-- The clipped data: number of times and of cells, values. -/
structure Data (K : Type) where
  nTime : ℕ
  nCells : ℕ
  value : ℕ → ℕ → Option K

/-- Elevation of the cells, gradient of the data by time and cell, elevation of the units. -/
structure Relief (K : Type) where
  dem : ℕ → Option K
  grad : ℕ → ℕ → Option K
  elev : ℕ → K

/-- What is done with the gradient. -/
inductive How (K : Type) where
  | plain
  | gradient (type : String) (r : Relief K)

/-- The data cells under the pixels of a unit (427-433): pixels outside of the data do not count. -/
def cellsOf (pixels : List (ℤ × Option ℕ)) (uid : ℤ) : List ℕ := pixels.filterMap fun p => if p.1 = uid then p.2 else none

/-- Rows of a block (527-531, 649-653). -/
def blockRows (nt nData size i : ℕ) (t : ℕ) : Bool := decide (i * size < nt ∧ i * size ≤ t ∧ t < min (min ((i + 1) * size) nt) nData)

/-- `n_steps` (444). -/
def nBlocks (timeLen size : ℕ) : ℕ := 1 + (timeLen + size - 1) / size

/-- `strftime("%j")`: the day of the year. -/
def dayNumber (z : ℤ) : ℤ := z - sysDays (civil z).1 1 1 + 1

/-- `np.searchsorted` (484), on a sorted array: the number of smaller entries. -/
def searchsorted (l : List ℤ) (x : ℤ) : ℕ := l.countP fun y => decide (y < x)

end

section
variable {K : Type} [Field K] [LinearOrder K]

/-- `weights_mask` (434-437). -/
def weight (cells : List ℕ) (c : ℕ) : K := (cells.count c : K) / (cells.length : K)

/-- The weighted sum without gradient (658-662): `nansum` over all cells. -/
def plainValue (d : Data K) (cells : List ℕ) (t : ℕ) : K :=
  ∑ c ∈ Finset.range d.nCells, ((d.value t c).map fun v => v * weight cells c).getD 0

/-- `dh` (598-599). -/
def heightOver (r : Relief K) (u c : ℕ) : K :=
  match r.dem c with
  | none => 0
  | some h => r.elev u - h

/-- The corrected value of a cell (600-607); `none` for a type that is not known. -/
def corrected (type : String) (d : Data K) (r : Relief K) (u t c : ℕ) : Option (Option K) :=
  if type = "additive" then some ((d.value t c).bind fun v => (r.grad t c).map fun g => v + g * heightOver r u c)
  else if type = "multiplicative" then
    some ((d.value t c).bind fun v => (r.grad t c).map fun g => v * (1 + (if g * heightOver r u c < -1 then -1 else g * heightOver r u c)))
  else none

/-- The weighted sum with gradient (594-616): over the cells with a weight. -/
def gradientValue (type : String) (d : Data K) (r : Relief K) (cells : List ℕ) (u t : ℕ) : Option K :=
  if type = "additive" ∨ type = "multiplicative" then
    some (∑ c ∈ (Finset.range d.nCells).filter (fun c => 0 < (weight cells c : K)),
      (((corrected type d r u t c).bind id).map fun v => v * weight cells c).getD 0)
  else none

/-- The value written for a time and unit; `none`: the task has raised an exception before writing (544-549). -/
def value (how : How K) (d : Data K) (cells : List ℕ) (u t : ℕ) : Option K :=
  match how with
  | .plain => some (plainValue d cells t)
  | .gradient type r => gradientValue type d r cells u t

/-- One assignment of a task: block and unit (494-616, 628-662).  An exception leaves the array as it is. -/
def assign (how : How K) (d : Data K) (cells : ℕ → List ℕ) (nt size : ℕ) (s : ℕ → ℕ → K) (p : ℕ × ℕ) : ℕ → ℕ → K := fun t u =>
  if u = p.2 ∧ blockRows nt d.nTime size p.1 t then (value how d (cells u) u t).getD (s t u) else s t u

/-- The pool of threads (446-477): the assignments in the order in which they happen, on an array of zeros (316).  `concurrent.futures.wait` does not
raise the exceptions of the tasks. -/
def runPool (how : How K) (d : Data K) (cells : ℕ → List ℕ) (nt size : ℕ) (order : List (ℕ × ℕ)) : ℕ → ℕ → K :=
  order.foldl (assign how d cells nt size) fun _ _ => 0

/-- The checks of the times (277-306) and the time axis kept. -/
def checkTimes (time file : List ℤ) : Except Err (List ℤ) :=
  let time := if time.isEmpty then file else time
  if time.length ≠ file.length then .error .length
  else if time.head? ≠ file.head? then .error .start
  else if time.getLast? ≠ file.getLast? then .error .stop
  else .ok time

/-- The cells of the units (422-442): the assertion fails for a unit without cells. -/
def unitCells (pixels : List (ℤ × Option ℕ)) (ids : List ℤ) : Except Err (List (List ℕ)) :=
  if ids.any fun u => (cellsOf pixels u).isEmpty then .error .assertion else .ok (ids.map (cellsOf pixels))

/-- `regrid_from_netcdf` for a full time series: the axis and the array. -/
def regrid (how : How K) (d : Data K) (pixels : List (ℤ × Option ℕ)) (ids : List ℤ) (time file : List ℤ) (size : ℕ) (order : List (ℕ × ℕ)) :
    Except Err (List ℤ × (ℕ → ℕ → K)) :=
  match checkTimes time file with
  | .error e => .error e
  | .ok axis =>
    match unitCells pixels ids with
    | .error e => .error e
    | .ok cells => .ok (axis, runPool how d (fun u => cells.getD u []) axis.length size order)

/-- `regrid_from_netcdf` for data by day of the year (265-274, 357-365, 479-486). -/
def regridDoy (how : How K) (d : Data K) (pixels : List (ℤ × Option ℕ)) (ids : List ℤ) (time doy : List ℤ) (size : ℕ) (order : List (ℕ × ℕ)) :
    Except Err (ℕ → ℕ → K) :=
  if time.isEmpty then .error .noTime
  else if doy.length ≠ 366 then .error .doyLength
  else
    match unitCells pixels ids with
    | .error e => .error e
    | .ok cells =>
      if time.any fun z => decide (time.length ≤ searchsorted doy (dayNumber z)) then .error .index
      else .ok fun t u => runPool how d (fun u => cells.getD u []) time.length size order (searchsorted doy (dayNumber (time.getD t 0))) u

end
end HB.Regrid
