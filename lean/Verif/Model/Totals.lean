import Mathlib.Algebra.BigOperators.Group.Finset.Basic
import Mathlib.Algebra.Field.Basic

/-!
# Totals reported after a run

Model of the reporting part of `Logger` (Logger.cpp:135-339) on the recorded tables.  Matrices are functions of the row
(time) and the column (hydro unit) with the dimensions `rows` and `units`; NaN cells are `none`.  Strings are compared as
lists of characters.
-/

namespace HB

open Finset

/-- `string::starts_with`. -/
def startsWith (s p : String) : Bool := p.toList.isPrefixOf s.toList

/-- `string::find(p) != npos`. -/
def containsStr (s p : String) : Bool := s.toList.tails.any p.toList.isPrefixOf

/-- The recorded tables (Logger.h:310-330). -/
structure LogTable (K : Type) where
  rows : ℕ
  units : ℕ
  areas : ℕ → K
  basinLabels : List String
  /-- `_subBasinInitialValues[label]` -/
  basinInit : ℕ → Option K
  /-- `_subBasinValues[label][row]` -/
  basinVals : ℕ → ℕ → Option K
  unitLabels : List String
  /-- `_hydroUnitInitialValues[label](unit)` -/
  unitInit : ℕ → ℕ → Option K
  /-- `_hydroUnitValues[label](row, unit)` -/
  unitVals : ℕ → ℕ → ℕ → Option K
  /-- `_hydroUnitFractionLabels`, empty if the fractions are not recorded -/
  fracLabels : List String
  /-- `_hydroUnitFractions[label](row, unit)` -/
  fracs : ℕ → ℕ → ℕ → Option K
  basinEt : List ℕ
  unitEt : List ℕ

section
variable {K : Type} [Field K]

/-- `NanToZero` (Logger.cpp:11-13). -/
def nanToZero (v : Option K) : K := v.getD 0

/-- Addition of doubles that may be NaN. -/
def nanAdd (a b : Option K) : Option K := a.bind fun x => b.map fun y => x + y

/-- Sum of an array that may hold NaN (Eigen `sum()`, and the accumulating loops). -/
def nanSum (l : List (Option K)) : Option K := l.foldl nanAdd (some 0)

/-- Positions of the labels containing an item (Logger.cpp:144-166). -/
def indicesFor (labels : List String) (item : String) : List ℕ :=
  (List.range labels.length).filter fun i => containsStr (labels.getD i "") item

/-- `GetOutletDischarge` (Logger.cpp:135-142): `none` = exception. -/
def LogTable.outletDischarge (T : LogTable K) : Option (List (Option K)) :=
  if "outlet" ∈ T.basinLabels then some ((List.range T.rows).map (T.basinVals (T.basinLabels.idxOf "outlet"))) else none

/-- `GetTotalSubBasin` (Logger.cpp:168-176). -/
def LogTable.totalSubBasin (T : LogTable K) (item : String) : Option K :=
  nanSum ((indicesFor T.basinLabels item).map fun i => nanSum ((List.range T.rows).map (T.basinVals i)))

/-- `GetTotalOutletDischarge` (Logger.cpp:222-224). -/
def LogTable.totalOutletDischarge (T : LogTable K) : Option K := T.totalSubBasin "outlet"

/-- `(values * areas).sum() / areasSum` on a matrix (Logger.cpp:199, 210, 251). -/
def LogTable.matrixMean (T : LogTable K) (f : ℕ → ℕ → K) : K :=
  (∑ t ∈ range T.rows, ∑ u ∈ range T.units, f t u * T.areas u) / ∑ u ∈ range T.units, T.areas u

/-- `GetTotalHydroUnits` (Logger.cpp:178-220): in the first branch the fraction is not protected against NaN, a cover absent
from a unit makes the total NaN (`none`). -/
def LogTable.totalHydroUnits (T : LogTable K) (item : String) (areaWeighting : Bool) : Option K :=
  let idx := indicesFor T.unitLabels item
  if containsStr item ":content" then
    nanSum (idx.map fun i =>
      match T.fracLabels.findIdx? fun c => T.unitLabels.getD i "" == c ++ ":content" with
      | some j =>
        if (List.range T.rows).all fun t => (List.range T.units).all fun u => (T.fracs j t u).isSome then
          some (T.matrixMean fun t u => nanToZero (T.fracs j t u) * nanToZero (T.unitVals i t u))
        else none
      | none => some (T.matrixMean fun t u => nanToZero (T.unitVals i t u)))
  else if areaWeighting then some (idx.map fun i => T.matrixMean fun t u => nanToZero (T.unitVals i t u)).sum
  else some (idx.map fun i => ∑ t ∈ range T.rows, ∑ u ∈ range T.units, nanToZero (T.unitVals i t u)).sum

/-- `GetFractionIndexForComponent` (Logger.cpp:258-267); `none` = -1. -/
def fractionIndex (fracLabels : List String) (label : String) : Option ℕ :=
  fracLabels.findIdx? fun c => startsWith label (c ++ ":") || startsWith label (c ++ "_snowpack:") ||
    startsWith label (c ++ "_canopy:")

/-- The fraction row or matrix used for a label (Logger.cpp:245-250, 293-298, 311-317): ones without a cover. -/
def LogTable.fractionFor (T : LogTable K) (label : String) (t u : ℕ) : K :=
  match fractionIndex T.fracLabels label with
  | some j => nanToZero (T.fracs j t u)
  | none => 1

/-- `GetTotalET` (Logger.cpp:226-256). -/
def LogTable.totalET (T : LogTable K) : Option K :=
  nanAdd (nanSum (T.basinEt.map fun i => nanSum ((List.range T.rows).map (T.basinVals i))))
    (some (T.unitEt.map fun i => T.matrixMean fun t u =>
      nanToZero (T.unitVals i t u) * T.fractionFor (T.unitLabels.getD i "") t u).sum)

/-- `GetSubBasinInitialStorageState` (Logger.cpp:269-277). -/
def LogTable.basinInitial (T : LogTable K) (tag : String) : Option K :=
  nanSum ((indicesFor T.basinLabels tag).map T.basinInit)

/-- `GetSubBasinFinalStorageState` (Logger.cpp:279-287). -/
def LogTable.basinFinal (T : LogTable K) (tag : String) : Option K :=
  nanSum ((indicesFor T.basinLabels tag).map fun i => T.basinVals i (T.rows - 1))

/-- `(values * fraction * areas).sum() / areas.sum()` on a row. -/
def LogTable.rowMean (T : LogTable K) (f : ℕ → K) : K :=
  (∑ u ∈ range T.units, f u * T.areas u) / ∑ u ∈ range T.units, T.areas u

/-- `GetHydroUnitsInitialStorageState` (Logger.cpp:289-305): fractions of the first recorded row. -/
def LogTable.unitsInitial (T : LogTable K) (tag : String) : K :=
  ((indicesFor T.unitLabels tag).map fun i => T.rowMean fun u =>
    nanToZero (T.unitInit i u) * T.fractionFor (T.unitLabels.getD i "") 0 u).sum

/-- `GetHydroUnitsFinalStorageState` (Logger.cpp:307-324): fractions and values of the last row. -/
def LogTable.unitsFinal (T : LogTable K) (tag : String) : K :=
  ((indicesFor T.unitLabels tag).map fun i => T.rowMean fun u =>
    nanToZero (T.unitVals i (T.rows - 1) u) * T.fractionFor (T.unitLabels.getD i "") (T.rows - 1) u).sum

/-- `GetTotalWaterStorageChanges`, `GetTotalSnowStorageChanges`, `GetTotalGlacierStorageChanges` (Logger.cpp:326-339) with
the tags `:water_content`, `:snow_content`, `:ice_content`. -/
def LogTable.storageChange (T : LogTable K) (tag : String) : Option K :=
  (T.basinFinal tag).bind fun a => (T.basinInitial tag).map fun b => a - b + T.unitsFinal tag - T.unitsInitial tag

end
end HB
