import Verif.Model.Actions
import Verif.Model.Terrain

/-!
# Tables of land cover changes (Python side)

`ActionLandCoverChange.load_from_csv` and the yearly interpolation of `create_action_for_glaciers`
(python/src/hydrobricks/actions/action_land_cover_change.py), the units (python/src/hydrobricks/_units.py).

Simplifications.  Numbers are exact; a file is its table (read by pandas: a cell that is missing is `none`, every row has as many
cells as there are dates); the dates are their modified Julian dates; the extraction of areas from shapefiles (geopandas,
rasterio) is not modelled.
-/

namespace HB.CoverTable

set_option linter.unusedSectionVars false

/-! ## Units -/

/-- `Unit` (_units.py:11-35). -/
inductive U where
  | noUnit | mm | m | km | m2 | km2 | deg | year | month | day | h | s | mmD | mmH | mS | c | k | pc | frac | mjM2D | wM2 | kpa
  deriving DecidableEq, Repr

def U.all : List U :=
  [.noUnit, .mm, .m, .km, .m2, .km2, .deg, .year, .month, .day, .h, .s, .mmD, .mmH, .mS, .c, .k, .pc, .frac, .mjM2D, .wM2, .kpa]

/-- `Unit.__members__`. -/
def U.member : U → String
  | .noUnit => "NO_UNIT" | .mm => "MM" | .m => "M" | .km => "KM" | .m2 => "M2" | .km2 => "KM2" | .deg => "DEG"
  | .year => "YEAR" | .month => "MONTH" | .day => "DAY" | .h => "H" | .s => "S" | .mmD => "MM_D" | .mmH => "MM_H"
  | .mS => "M_S" | .c => "C" | .k => "K" | .pc => "PC" | .frac => "FRAC" | .mjM2D => "MJ_M2_D" | .wM2 => "W_M2" | .kpa => "KPA"

/-- The text of a member of the enumeration (`auto()`: its name in lower case; ASCII). -/
def U.text (u : U) : String := String.ofList (u.member.toList.map Char.toLower)

/-- `_UNIT_ALIASES` (_units.py:38-104). -/
def aliases : List (String × U) :=
  [("mm", .mm), ("millimeter", .mm), ("m", .m), ("meter", .m), ("km", .km), ("kilometer", .km), ("m2", .m2), ("m^2", .m2),
   ("m**2", .m2), ("square meter", .m2), ("km2", .km2), ("km^2", .km2), ("km**2", .km2), ("square kilometer", .km2),
   ("deg", .deg), ("degree", .deg), ("degrees", .deg), ("year", .year), ("years", .year), ("month", .month),
   ("months", .month), ("day", .day), ("days", .day), ("h", .h), ("hour", .h), ("hours", .h), ("s", .s), ("second", .s),
   ("seconds", .s), ("mm/d", .mmD), ("mm/day", .mmD), ("mm_d", .mmD), ("mm_day", .mmD), ("millimeter per day", .mmD),
   ("mm/h", .mmH), ("mm/hour", .mmH), ("mm_h", .mmH), ("mm_hour", .mmH), ("millimeter per hour", .mmH), ("m/s", .mS),
   ("m/second", .mS), ("m_s", .mS), ("m_second", .mS), ("meter per second", .mS), ("°C", .c), ("C", .c), ("celsius", .c),
   ("°K", .k), ("K", .k), ("kelvin", .k), ("%", .pc), ("percent", .pc), ("frac", .frac), ("fraction", .frac),
   ("MJ/m2/d", .mjM2D), ("MJ/m2/day", .mjM2D), ("MJ_m2_d", .mjM2D), ("MJ_m2_day", .mjM2D), ("W/m2", .wM2), ("W_m2", .wM2),
   ("W/m^2", .wM2), ("W/m**2", .wM2), ("Watt per square meter", .wM2), ("kPa", .kpa), ("kilopascal", .kpa)]

/-- `remove_chars(unit, "([{<)]}> ")` (_units.py:313-341). -/
def strip (s : String) : List Char := s.toList.filter fun ch => !("([{<)]}> ".toList.contains ch)

/-- The text has the word `Unnamed` in it. -/
def unnamed : List Char → Bool
  | [] => false
  | ch :: r => "Unnamed".toList.isPrefixOf (ch :: r) || unnamed r

/-- `get_unit_enum` (_units.py:107-151); `none` is the exception. -/
def parse (s : String) : Option U :=
  match U.all.find? fun u => u.member == s with
  | some u => some u
  | none =>
    if strip s = ['-'] ∨ strip s = [] ∨ unnamed (strip s) = true then some .noUnit
    else (aliases.find? fun a => a.1.toList == strip s).map Prod.snd

section
variable {K : Type} [Field K]

/-- `convert_unit` between two units (_units.py:255-304); `none` is the exception. -/
def convert (a b : U) : Option (K → K) :=
  if a = b then some fun x => x
  else match a, b with
    | .mm, .m => some fun x => x / 1000
    | .m, .mm => some fun x => x * 1000
    | .m, .km => some fun x => x / 1000
    | .km, .m => some fun x => x * 1000
    | .m2, .km2 => some fun x => x / 1000000
    | .km2, .m2 => some fun x => x * 1000000
    | .day, .h => some fun x => x * 24
    | .day, .s => some fun x => x * 86400
    | .h, .day => some fun x => x / 24
    | .h, .s => some fun x => x * 3600
    | .s, .day => some fun x => x / 86400
    | .s, .h => some fun x => x / 3600
    | .mmD, .mmH => some fun x => x / 24
    | .mmH, .mmD => some fun x => x * 24
    | _, _ => none

end

/-! ## The table -/

inductive Err
  | data | config | index
deriving DecidableEq

/-- A row: the key (elevation or id) and the areas at the dates. -/
structure Line (A K : Type) where
  key : A
  cells : List (Option K)

/-- A stored change: date, then hydro unit, cover, area in m². -/
abbrev Change (K : Type) := K × (ℤ × String × K)

section
variable {K : Type} [Field K] [LinearOrder K]

/-- `_remove_rows_with_no_changes` for one row (749-774): a value equal to the one of the column before (in the file) is
dropped. -/
def blankFrom : Option K → List (Option K) → List (Option K)
  | _, [] => []
  | p, c :: r => (match p, c with
    | some x, some y => if x = y then none else c
    | _, _ => c) :: blankFrom c r

def blank (l : List (Option K)) : List (Option K) := blankFrom none l

/-- `_populate_bounded_instance` (803-837): column by column, the calls of `add_change`. -/
def calls (cover : String) (f : K → K) (dates : List K) (rows : List (Line ℤ K)) : List (Change K) :=
  (List.range dates.length).flatMap fun j => rows.filterMap fun r =>
    ((r.cells[j]?).join).map fun a => (dates.getD j 0, (r.key, cover, f a))

/-- The rows with their ids: blanked, converted, added to what the action has already. -/
def populate (cover unit : String) (dates : List K) (rows : List (Line ℤ K)) (s : List (Change K)) :
    Except Err (List (Change K)) :=
  let rows := rows.map fun r => ⟨r.key, blank r.cells⟩
  match (parse unit).bind fun u => convert u .m2 with
  | some f => .ok ((calls cover f dates rows).foldl (fun s c => addChange s c.1 c.2) s)
  | none => if calls cover id dates rows = [] then .ok s else .error .data

/-- `load_from_csv` with `match_with="id"` (115-131): only the range of the ids is checked. -/
def loadById (ids : List ℤ) (cover unit : String) (dates : List K) (rows : List (Line ℤ K)) (s : List (Change K)) :
    Except Err (List (Change K)) :=
  if (rows.all fun r => ids.any (fun i => decide (i ≤ r.key)) && ids.any fun i => decide (r.key ≤ i)) = true then
    populate cover unit dates rows s
  else .error .data

variable [FloorRing K]

/-- `_match_hydro_unit_ids` (711-747): the first unit with the same integer part of the elevation. -/
def matchLine (units : List (ℤ × K)) (r : Line K K) : Except Err (Line ℤ K) :=
  match units.find? fun u => Terrain.trunc u.2 == Terrain.trunc r.key with
  | some u => .ok ⟨u.1, r.cells⟩
  | none => .error .index

/-- `load_from_csv` with `match_with="elevation"` (132-139). -/
def loadByElevation (units : List (ℤ × K)) (cover unit : String) (dates : List K) (rows : List (Line K K))
    (s : List (Change K)) : Except Err (List (Change K)) :=
  match rows.mapM (matchLine units) with
  | .ok rs => populate cover unit dates rs s
  | .error e => .error e

end

/-! ## Yearly interpolation -/

section
variable {K : Type} [Field K] [LinearOrder K]

/-- `np.interp` at a time, of points in the order of the times (`_interpolate_yearly`, 607-637). -/
def interp (x : K) : List (K × K) → K
  | [] => 0
  | [p] => p.2
  | p :: q :: r => if x ≤ p.1 then p.2
    else if x < q.1 then (q.2 - p.2) / (q.1 - p.1) * (x - p.1) + p.2
    else interp x (q :: r)

/-- A row of `_interpolate_yearly`. -/
def yearly (times : List K) (years : List K) (row : List K) : List K := years.map fun x => interp x (times.zip row)

end

end HB.CoverTable
