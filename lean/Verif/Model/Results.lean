import Verif.Model.Totals

/-!
# Writing and reading a results file

`Logger::DumpOutputs` → `ResultWriter::WriteNetCDF` (ResultWriter.cpp:8-88) → `FileNetcdf::PutVar` (FileNetcdf.cpp:171-201) on
the writing side; the Python class `Results` (results.py) on the reading side.

Simplifications: the netCDF library stores and returns what it is given (the parts of it that decide where a value lands —
row-major hyperslabs, limits of the dimensions — are modelled); compression and descriptive attributes are left out; a text
attribute with one entry is returned as a string and otherwise as a list (netCDF4-python); dates are whole days (daily time
step; xarray then selects a date by equality and a period as a closed interval); NaN is `none`; a division by zero is NaN (its
numerator is then zero too, areas being non-negative).
-/

namespace HB.Results

open Finset

/-- What the caller gets instead of a value. -/
inductive Err
  /-- a netCDF call failed -/
  | nc
  | notFound | ambiguous | key | index | attribute | axis | shape
deriving DecidableEq

/-- An Eigen matrix `axxd` (column major). -/
structure Mat (α : Type) where
  rows : ℕ
  cols : ℕ
  val : ℕ → ℕ → α

/-- The cell at an offset from `&m(0, 0)`: Eigen arrays are stored column by column. -/
def Mat.data {α : Type} (m : Mat α) (k : ℕ) : α := m.val (k % m.rows) (k / m.rows)

/-- A variable of two dimensions in the file. -/
structure Var2 (α : Type) where
  d0 : ℕ
  d1 : ℕ
  val : ℕ → ℕ → α

/-- A variable of three dimensions in the file. -/
structure Var3 (α : Type) where
  d0 : ℕ
  d1 : ℕ
  d2 : ℕ
  val : ℕ → ℕ → ℕ → α

/-- `nc_put_vara_double` with start `{i, 0}` and count `{1, n}`: refused beyond the dimensions. -/
def Var2.put {α : Type} (v : Var2 α) (i n : ℕ) (data : ℕ → α) : Except Err (Var2 α) :=
  if i < v.d0 ∧ n ≤ v.d1 then .ok { v with val := fun j t => if j = i ∧ t < n then data t else v.val j t }
  else .error .nc

/-- `nc_put_vara_double` with start `{i, 0, 0}` and count `{1, n1, n2}`: the data are read row by row. -/
def Var3.put {α : Type} (v : Var3 α) (i n1 n2 : ℕ) (data : ℕ → α) : Except Err (Var3 α) :=
  if i < v.d0 ∧ n1 ≤ v.d1 ∧ n2 ≤ v.d2 then
    .ok { v with val := fun j u t => if j = i ∧ u < n1 ∧ t < n2 then data (u * n2 + t) else v.val j u t }
  else .error .nc

/-- `PutVar(int, const vecAxd&)` (FileNetcdf.cpp:187-193), from entry `i` on. -/
def putVecs {α : Type} (v : Var2 α) : ℕ → List (ℕ × (ℕ → α)) → Except Err (Var2 α)
  | _, [] => .ok v
  | i, x :: r => (v.put i x.1 x.2).bind fun v' => putVecs v' (i + 1) r

/-- `PutVar(int, const vecAxxd&)` (FileNetcdf.cpp:195-201), from entry `i` on. -/
def putMats {α : Type} (v : Var3 α) : ℕ → List (Mat α) → Except Err (Var3 α)
  | _, [] => .ok v
  | i, m :: r => (v.put i m.cols m.rows m.data).bind fun v' => putMats v' (i + 1) r

/-- What the logger holds after a run: its tables (Model/Totals), the dates of the rows and the ids of the units. -/
structure Recorded (K : Type) where
  tab : LogTable K
  date : ℕ → ℤ
  ids : ℕ → ℤ

/-- The file `results.nc`. -/
structure File (K : Type) where
  times : List ℤ
  ids : List ℤ
  areas : List K
  basinVals : Var2 (Option K)
  unitVals : Var3 (Option K)
  fracs : Option (Var3 (Option K))
  labelsAgg : List String
  labelsDist : List String
  labelsCover : Option (List String)

section
variable {K : Type} [Field K]

/-- `WriteNetCDF` (ResultWriter.cpp:8-88) on the tables of `DumpOutputs` (Logger.cpp:127-134): `_subBasinValues` has one array
per label and `_hydroUnitValues`, `_hydroUnitFractions` one matrix (time × units) per label (Logger.cpp:20-48).  `fill` is what
the cells hold before anything is written. -/
def write (fill : Option K) (R : Recorded K) : Except Err (File K) :=
  let T := R.tab
  let nA := T.basinLabels.length
  let nD := T.unitLabels.length
  let nC := T.fracLabels.length
  (putVecs ⟨nA, T.rows, fun _ _ => fill⟩ 0 ((List.range nA).map fun i => (T.rows, T.basinVals i))).bind fun vA =>
  (putMats ⟨nD, T.units, T.rows, fun _ _ _ => fill⟩ 0
    ((List.range nD).map fun i => ⟨T.rows, T.units, T.unitVals i⟩)).bind fun vD =>
  (if nC = 0 then .ok none
    else (putMats ⟨nC, T.units, T.rows, fun _ _ _ => fill⟩ 0
      ((List.range nC).map fun i => ⟨T.rows, T.units, T.fracs i⟩)).map some).bind fun vC =>
  .ok ⟨(List.range T.rows).map R.date, (List.range T.units).map R.ids, (List.range T.units).map T.areas, vA, vD, vC,
    T.basinLabels, T.unitLabels, if nC = 0 then none else some T.fracLabels⟩

/-- A text attribute as Python gets it. -/
inductive Attr
  | one (s : String)
  | many (l : List String)

/-- netCDF4-python: a string when there is one entry. -/
def attr : List String → Attr
  | [s] => .one s
  | l => .many l

/-- A numpy array of any number of dimensions. -/
structure Arr (K : Type) where
  shape : List ℕ
  val : List ℕ → Option K

/-- `Results._select_time` (results.py:385-395); the time is the last axis. -/
def selectTime (times : List ℤ) (a : Arr K) : Option ℤ → Option ℤ → Except Err (Arr K)
  | none, _ => .ok a
  | some s, none =>
    if s ∈ times then .ok ⟨a.shape.dropLast, fun idx => a.val (idx ++ [times.idxOf s])⟩ else .error .key
  | some s, some e =>
    let keep := (List.range times.length).filter fun t => decide (s ≤ times.getD t 0 ∧ times.getD t 0 ≤ e)
    .ok ⟨a.shape.dropLast ++ [keep.length], fun idx => a.val (idx.dropLast ++ [keep.getD (idx.getLast?.getD 0) 0])⟩

/-- `Results.get_time_array` (results.py:358-383). -/
def timeArray (F : File K) (s e : ℤ) : List ℤ := F.times.filter fun t => decide (s ≤ t ∧ t ≤ e)

/-- `label.endswith(component)`. -/
def endsWith (s p : String) : Bool := p.toList.isSuffixOf s.toList

/-- `_get_distributed_labels` (results.py:423-429). -/
def distLabels (F : File K) : List String :=
  match attr F.labelsDist with
  | .one s => [s]
  | .many l => l

/-- `_resolve_component_label` (results.py:431-456): position of the label. -/
def resolve (F : File K) (component : String) : Except Err ℕ :=
  let labels := distLabels F
  if component ∈ labels then .ok (labels.idxOf component)
  else match labels.filter fun l => endsWith l component with
    | [l] => .ok (labels.idxOf l)
    | [] => .error .notFound
    | _ => .error .ambiguous

/-- `DataArray[i]` on a variable of three dimensions. -/
def sheet (v : Var3 (Option K)) (i : ℕ) : Except Err (Arr K) :=
  if i < v.d0 then .ok ⟨[v.d1, v.d2], fun
    | [u, t] => v.val i u t
    | _ => none⟩
  else .error .index

/-- `get_hydro_units_values` (results.py:164-203). -/
def unitsValues (F : File K) (component : String) (s e : Option ℤ) : Except Err (Arr K) :=
  (resolve F component).bind fun i => (sheet F.unitVals i).bind fun a => selectTime F.times a s e

/-- `str.index` on a string: the first position where the text occurs. -/
def strIndex (s p : String) : Option ℕ :=
  (List.range (s.toList.length + 1)).find? fun k => p.toList.isPrefixOf (s.toList.drop k)

/-- `self.labels_land_cover.index(land_cover)` (results.py:143): not normalised, so a single cover is searched as a text. -/
def coverIndex (F : File K) (cover : String) : Except Err ℕ :=
  match F.labelsCover with
  | none => .error .attribute
  | some l => match attr l with
    | .one s => match strIndex s cover with
      | some k => .ok k
      | none => .error .notFound
    | .many l => if cover ∈ l then .ok (l.idxOf cover) else .error .notFound

/-- `get_land_cover_areas` (results.py:104-147): the product is taken along the hydro units. -/
def coverAreas (F : File K) (cover : String) (s e : Option ℤ) : Except Err (Arr K) :=
  (coverIndex F cover).bind fun i =>
  match F.fracs with
  | none => .error .attribute
  | some v => (sheet v i).bind fun f =>
    selectTime F.times ⟨f.shape, fun idx => (f.val idx).map fun x => F.areas.getD (idx.headD 0) 0 * x⟩ s e

/-- The weight of a cell in `_area_weighted_nanmean` (results.py:416). -/
def weight (v a : Option K) : K := if v.isNone || a.isNone then 0 else a.getD 0

/-- `_area_weighted_nanmean` (results.py:406-421). -/
def nanMean [DecidableEq K] (v a : Arr K) (axis : ℕ) : Except Err (Arr K) :=
  if v.shape ≠ a.shape then .error .shape
  else if axis < v.shape.length then
    let n := v.shape.getD axis 0
    .ok ⟨v.shape.eraseIdx axis, fun idx =>
      let at' := fun k => idx.take axis ++ k :: idx.drop axis
      let num := ∑ k ∈ range n, (v.val (at' k)).getD 0 * weight (v.val (at' k)) (a.val (at' k))
      let den := ∑ k ∈ range n, weight (v.val (at' k)) (a.val (at' k))
      if den = 0 then none else some (num / den)⟩
  else .error .axis

/-- `get_mean_hydro_units_values` (results.py:205-249). -/
def meanValues [DecidableEq K] (F : File K) (cover component : String) (s e : Option ℤ) : Except Err (Arr K) :=
  (unitsValues F component s e).bind fun v => (coverAreas F cover s e).bind fun a => nanMean v a 1

/-- `for land_cover in self.labels_land_cover` (results.py:341): over the characters if it is a string. -/
def coverLoop (F : File K) : Except Err (List String) :=
  match F.labelsCover with
  | none => .error .attribute
  | some l => match attr l with
    | .one s => .ok (s.toList.map fun c => String.ofList [c])
    | .many l => .ok l

/-- The body of the loop of `_stack_land_cover_swe` (results.py:341-354). -/
def coverSwe (F : File K) (s e : Option ℤ) (cover : String) : Except Err (Arr K × Arr K) :=
  (coverAreas F cover s e).bind fun a =>
  let label := cover ++ "_snowpack:snow_content"
  match resolve F label with
  | .ok _ => (unitsValues F label s e).map fun v => (v, a)
  | .error _ => .ok (⟨a.shape, fun _ => some 0⟩, a)

/-- `np.array` of arrays of one shape. -/
def stack (l : List (Arr K)) : Except Err (Arr K) :=
  match l with
  | [] => .ok ⟨[0], fun _ => none⟩
  | a :: _ =>
    if l.all fun b => b.shape == a.shape then
      .ok ⟨l.length :: a.shape, fun
        | [] => none
        | j :: idx => (l[j]?).bind fun b => b.val idx⟩
    else .error .shape

/-- `_stack_land_cover_swe` (results.py:328-356). -/
def stackSwe (F : File K) (s e : Option ℤ) : Except Err (Arr K × Arr K) :=
  (coverLoop F).bind fun covers => (covers.mapM (coverSwe F s e)).bind fun l =>
  (stack (l.map Prod.fst)).bind fun v => (stack (l.map Prod.snd)).map fun a => (v, a)

/-- `a.reshape(-1, *a.shape[2:])` (results.py:285-286). -/
def mergeAxes (a : Arr K) : Arr K :=
  let n := a.shape.getD 1 1
  ⟨a.shape.getD 0 1 * n :: a.shape.drop 2, fun
    | [] => none
    | p :: idx => a.val (p / n :: p % n :: idx)⟩

/-- `get_mean_swe` (results.py:251-289). -/
def meanSwe [DecidableEq K] (F : File K) (s e : Option ℤ) : Except Err (Arr K) :=
  (stackSwe F s e).bind fun p => nanMean (mergeAxes p.1) (mergeAxes p.2) 0

/-- `get_total_swe` (results.py:291-326). -/
def totalSwe [DecidableEq K] (F : File K) (s e : Option ℤ) : Except Err (Arr K) :=
  (stackSwe F s e).bind fun p => nanMean p.1 p.2 0

end
end HB.Results
