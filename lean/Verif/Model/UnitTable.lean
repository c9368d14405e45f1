import Verif.Model.Basin
import Verif.Model.CoverTable
import Mathlib.Data.List.Sort

/-!
# The table of hydro units and its land cover fractions (Python side)

`HydroUnits` (python/src/hydrobricks/hydro_units.py) and `CatchmentLandCover` (python/src/hydrobricks/preprocessing/catchment_land_cover.py).

Simplifications.  Numbers are exact.  A row of the DataFrame is a record; `none` is `nan`; the sorting by elevation is stable
(pandas' default is not, for equal elevations).  The maps of classes (resampled raster, rasterised polygons) are inputs: a list of cells
(unit, class).  Reading the file is left out: the columns are inputs.
-/

namespace HB.UnitTable

open HB.Basin

set_option linter.unusedSectionVars false

inductive Err
  | data | index | config
  deriving DecidableEq, Repr

/-- A row: id, area, elevation, land cover fractions (column `fraction-<name>`), other columns (number with unit, or text). -/
structure Row (K : Type) where
  id : ℤ
  area : K
  elev : K
  frac : String → Option K
  props : List (String × ((K × String) ⊕ String))

/-- `HydroUnits`: names and types of the land covers, rows. -/
structure Table (K : Type) where
  covers : List (String × String)
  rows : List (Row K)

/-- `GENERIC_COVER_ALIASES` (hydro_units.py:553). -/
def aliases : List String := ["open", "ground", "generic", "generic_land_cover"]

def isGeneric (c : String × String) : Bool := aliases.contains c.1 || aliases.contains c.2

/-- `get_generic_cover_name` (555-566); a table always has a cover. -/
def generic (covers : List (String × String)) : String :=
  match covers.find? isGeneric with
  | some c => c.1
  | none => (covers.headD ("open", "open")).1

section
variable {K : Type} [Field K] [LinearOrder K]

def Row.set (r : Row K) (name : String) (x : Option K) : Row K := { r with frac := Function.update r.frac name x }

/-- `initialize_land_cover_fractions` (535-548): zero for every cover, then one for the generic one. -/
def initFractions (t : Table K) : Table K :=
  { t with rows := t.rows.map fun r => (t.covers.foldl (fun r c => r.set c.1 (some 0)) r).set (generic t.covers) (some 1) }

/-- `add_land_cover` (568-599). -/
def addCover (t : Table K) (name type : String) : Except Err (Table K) :=
  if t.covers.any (fun c => c.1 == name) then .error .data
  else .ok ⟨t.covers ++ [(name, type)], t.rows.map fun r => r.set name (some 0)⟩

/-- Total area and fractions of a row from the areas of its covers (`_compute_area_portions`, 954-979): `0/0` is `nan`; another
value divided by zero is infinite and refused at the end (708-717). -/
def portions (areas : List (String × K)) : Except Err (K × List (String × Option K)) :=
  let total := (areas.map Prod.snd).sum
  if total = 0 then
    if areas.all (fun a => decide (a.2 = 0)) then .ok (0, areas.map fun a => (a.1, none)) else .error .data
  else .ok (total, areas.map fun a => (a.1, some (a.2 / total)))

/-- A row read with one area per cover (`_load_land_cover_areas`, 284-319), area converted to m² (339-352). -/
def loadRow (unit : String) (id : ℤ) (elev : K) (areas : List (String × K)) : Except Err (Row K) :=
  match portions areas, (CoverTable.parse unit).bind fun u => CoverTable.convert (K := K) u .m2 with
  | .ok (total, fs), some f => .ok ⟨id, f total, elev, fun n => ((fs.find? fun p => p.1 == n).map Prod.snd).join, []⟩
  | .error e, _ => .error e
  | _, none => .error .data

/-- The same with the area of the unit only (`_load_single_area`, 254-282): the first cover has everything. -/
def loadSingle (unit : String) (covers : List (String × String)) (id : ℤ) (elev area : K) : Except Err (Row K) :=
  match (CoverTable.parse unit).bind fun u => CoverTable.convert (K := K) u .m2 with
  | some f => .ok ⟨id, f area, elev, fun n => if n = (covers.headD ("open", "open")).1 then some 1 else none, []⟩
  | none => .error .data

/-- One row of the land cover change table (640-665): the first unit with the id. -/
def setOne (g name : String) (rows : List (Row K)) (ch : ℤ × K) : Except Err (List (Row K)) :=
  match rows.findIdx? fun r => r.id == ch.1 with
  | none => .error .index
  | some i => match rows[i]? with
    | none => .error .index
    | some r =>
      if r.area = 0 then .error .data
      else
        let f := ch.2 / r.area
        if 0 ≤ f ∧ f ≤ 1 then
          let r1 := r.set name (some f)
          let o := (r1.frac g).map fun x => x - f
          match o with
          | some x => if x < -(1 / 10 ^ 8) then .error .data else .ok (rows.set i (r1.set g o))
          | none => .ok (rows.set i (r1.set g o))
        else .error .data

/-- `initialize_from_land_cover_change` (601-667). -/
def setFrom (name : String) (t : Table K) (changes : List (ℤ × K)) : Except Err (Table K) :=
  match changes.foldlM (setOne (generic t.covers) name) t.rows with
  | .ok rows => .ok { t with rows := rows }
  | .error e => .error e

/-- The fraction passed to the core (693-717). -/
def checked (x : Option K) : Except Err K :=
  let f := x.getD 0
  let f := if -(1 / 10 ^ 8) ≤ f ∧ f < 0 then 0 else if 1 < f ∧ f ≤ 1 + 1 / 10 ^ 8 then 1 else f
  if 0 ≤ f ∧ f ≤ 1 then .ok f else .error .data

/-- The calls for one unit (684-734). -/
def rowCmds (covers : List (String × String)) (r : Row K) : Except Err (List (Cmd K)) :=
  match covers.mapM fun c => (checked (r.frac c.1)).map fun f => (Cmd.cover c.1 c.2 f : Cmd K) with
  | .ok cs => .ok (Cmd.unit r.id r.area r.elev :: (r.props.map fun p => match p.2 with
      | .inl (x, u) => Cmd.propD p.1 x u
      | .inr s => Cmd.propS p.1 s) ++ cs)
  | .error e => .error e

/-- `populate_bounded_instance` (669-736): the calls of the settings, units by decreasing elevation. -/
def populate (t : Table K) : Except Err (List (Cmd K)) :=
  match (t.rows.insertionSort fun a b => b.elev ≤ a.elev).mapM (rowCmds t.covers) with
  | .ok l => .ok (Cmd.clear :: l.flatten)
  | .error e => .error e

/-! ## Land covers from a map -/

/-- Add to a dictionary. -/
def addArea (d : List (ℤ × K)) (u : ℤ) (a : K) : List (ℤ × K) :=
  if d.any (fun e => e.1 == u) then d.map fun e => if e.1 = u then (e.1, e.2 + a) else e else d ++ [(u, a)]

/-- The units of the cells of a class: `np.unique`, 0 excluded (catchment_land_cover.py:287-289). -/
def unitsOf (cells : List (ℤ × ℤ)) (cl : ℤ) : List ℤ :=
  (((cells.filter fun c => c.2 == cl).map Prod.fst).dedup.insertionSort fun a b => a ≤ b).filter fun u => u != 0

/-- The areas of one cover (`_areas_from_class_grid`, 270-295). -/
def coverAreas (px : K) (cells : List (ℤ × ℤ)) (mapping : List (ℤ × String)) (name : String) : List (ℤ × K) :=
  (mapping.filter fun m => m.2 == name).foldl (fun d m => (unitsOf cells m.1).foldl (fun d u =>
    addArea d u (((cells.filter fun c => c.2 == m.1).filter fun c => c.1 == u).length * px)) d) []

/-- `KNOWN_COVER_TYPES` (118-127). -/
def coverType (name : String) : String :=
  if name = "glacier" then "glacier" else if name = "forest" then "forest" else if name = "lake" then "lake"
  else if name = "open" then "open" else "generic_land_cover"

/-- One cover of `_apply_cover_areas` (306-324). -/
def applyOne (px : K) (cells : List (ℤ × ℤ)) (mapping : List (ℤ × String)) (t : Table K) (name : String) : Except Err (Table K) :=
  let areas := coverAreas px cells mapping name
  if areas = [] then .ok t
  else
    match (if t.covers.any (fun c => c.1 == name) then .ok t else addCover t name (coverType name)) with
    | .error e => .error e
    | .ok t =>
      if isGeneric (name, ((t.covers.find? fun c => c.1 == name).map Prod.snd).getD "") then .ok t
      else setFrom name t areas

/-- The covers of the mapping in alphabetical order (304). -/
def coverNames (mapping : List (ℤ × String)) : List String :=
  (mapping.map Prod.snd).dedup.insertionSort fun a b => a ≤ b

/-- `extract_from_raster`, `extract_from_shapefile` (138-245) on the map of classes. -/
def extract (px : K) (cells : List (ℤ × ℤ)) (mapping : List (ℤ × String)) (t : Table K) : Except Err (Table K) :=
  (coverNames mapping).foldlM (applyOne px cells mapping) t

end
end HB.UnitTable
