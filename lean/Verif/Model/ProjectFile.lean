import Verif.Model.CustomSpec

/-!
# The forcing of a project file (Python side)

`load_project` (python/src/hydrobricks/project.py): validation of the sections `forcing` (station data), `data_parameters` and of what they need from each other
(332-456, 458-471, 674-737, 831-893, 968-998, 1000-1050), and the operations on the forcing made from them (1154-1275).

Simplifications.  A message is its place.  Numbers are integers.  The gridded sources are given by the list of their variables, the files by their names and columns.
A column name that is not a string is refused by a message (in the code, by another exception).  `\w` stands for ASCII letters, digits and the underscore.  The sections
`model`, `hydro_units`, `observations` and `periods` are left out.
-/

namespace HB.Project

open Custom (Val get has truthy getOr)

abbrev Dict := List (String × Val)

/-- The files: `none` when there is no such file, `some none` when it is not a CSV file. -/
abbrev Files := String → Option (Option (List String))

/-- A number or a reference to a data parameter. -/
inductive Ref
  | num (x : Int)
  | param (name : String)
deriving DecidableEq

def wordChar (c : Char) : Bool := c.isAlphanum || decide (c = '_')

/-- `re.fullmatch(r"param:\w+", value)`, giving the name. -/
def paramName (s : String) : Option String :=
  match "param:".toList.isPrefixOf s.toList, s.toList.drop 6 with
  | true, c :: cs => if (c :: cs).all wordChar then some (String.ofList (c :: cs)) else none
  | _, _ => none

/-- `_check_keys` (350-356). -/
def keyMsgs (d : Dict) (valid : List String) (at_ : String) : List String := (d.filter fun p => decide (p.1 ∉ valid)).map fun p => at_ ++ ": unknown key " ++ p.1

/-- `_get_str` (372-379): the value and the messages. -/
def str (d : Dict) (k : String) : Option String :=
  match get d k with
  | some (.str s) => some s
  | _ => none

def strMsgs (d : Dict) (k at_ : String) : List String :=
  match get d k with
  | none => []
  | some .null => []
  | some (.str _) => []
  | some _ => [at_ ++ "." ++ k]

/-- `_get_number` (382-389). -/
def number (d : Dict) (k : String) : Option Int :=
  match get d k with
  | some (.num x) => some x
  | _ => none

def numberMsgs (d : Dict) (k at_ : String) : List String :=
  match get d k with
  | none => []
  | some .null => []
  | some (.num _) => []
  | some _ => [at_ ++ "." ++ k]

/-- `_get_number_or_param` (392-413). -/
def ref (d : Dict) (k : String) : Option Ref :=
  match get d k with
  | some (.num x) => some (.num x)
  | some (.str s) => (paramName s).map .param
  | _ => none

def refMsgs (d : Dict) (k at_ : String) : List String :=
  match get d k with
  | none => []
  | some .null => []
  | some (.num _) => []
  | some (.str s) => if (paramName s).isSome then [] else [at_ ++ "." ++ k]
  | some _ => [at_ ++ "." ++ k]

/-- `section.get(k, {}) or {}` as a mapping. -/
def sub (d : Dict) (k : String) : Dict :=
  match getOr d k (.dict []) with
  | .dict t => t
  | _ => []

def subMsgs (d : Dict) (k at_ : String) : List String :=
  match getOr d k (.dict []) with
  | .dict _ => []
  | _ => [at_]

/-- `_resolve_file` (416-430). -/
def file (files : Files) (d : Dict) : Option String :=
  match str d "file" with
  | some n => if (files n).isSome then some n else none
  | none => none

def fileMsgs (files : Files) (d : Dict) (at_ : String) : List String :=
  strMsgs d "file" at_
    ++ (match str d "file" with
      | some n => if (files n).isSome then [] else [at_ ++ ".file"]
      | none => if has d "file" then [] else [at_ ++ ".file"])

/-- `_validate_time_section` (458-470): column and format. -/
def orElse (s : Option String) (default : String) : String :=
  match s with
  | some s => if s = "" then default else s
  | none => default

def timeOf (d : Dict) : String × String :=
  match get d "time" with
  | some (.dict t) => (orElse (str t "column") "date", orElse (str t "format") "%Y-%m-%d")
  | _ => ("date", "%Y-%m-%d")

def timeMsgs (d : Dict) (at_ : String) : List String :=
  match get d "time" with
  | none => []
  | some .null => []
  | some (.dict t) => keyMsgs t ["column", "format"] (at_ ++ ".time") ++ strMsgs t "column" (at_ ++ ".time") ++ strMsgs t "format" (at_ ++ ".time")
  | some _ => [at_ ++ ".time"]

/-- What the station section says. -/
structure Station where
  file : Option String
  timeColumn : String
  timeFormat : String
  columns : Dict
  refElevation : Option Int
  /-- `none` stands for the default -0.6 -/
  temperatureGradient : Option Ref
  precipFactor : Option Ref
  precipGradient : Option Ref

/-- `forcing.columns` (682-689). -/
def columnsOf (d : Dict) : Dict :=
  match get d "columns" with
  | some (.dict cs) => cs
  | _ => []

/-- `col not in available`. -/
def missing (available : List String) : Val → Bool
  | .str s => decide (s ∉ available)
  | _ => true

/-- `_csv_columns` and `_check_columns` (433-456, 731-737). -/
def columnMsgs (files : Files) (f : Option String) (timeColumn : String) (columns : Dict) : List String :=
  match f with
  | none => []
  | some n =>
    match files n with
    | some (some available) =>
      (if timeColumn ∈ available then [] else ["forcing.time.column"])
        ++ (columns.filter fun p => missing available p.2).map fun p => "forcing.columns." ++ p.1
    | _ => ["forcing.file"]

def station (files : Files) (d : Dict) : Station :=
  ⟨file files d, (timeOf d).1, (timeOf d).2, columnsOf d, number d "ref_elevation", ref (sub d "temperature") "gradient",
    ref (sub d "precipitation") "correction_factor", ref (sub d "precipitation") "gradient"⟩

/-- `_validate_station_forcing` (674-737). -/
def stationMsgs (files : Files) (d : Dict) : List String :=
  fileMsgs files d "forcing"
    ++ timeMsgs d "forcing"
    ++ (if columnsOf d = [] then ["forcing.columns"] else [])
    ++ numberMsgs d "ref_elevation" "forcing"
    ++ subMsgs d "temperature" "forcing.temperature"
    ++ keyMsgs (sub d "temperature") ["gradient"] "forcing.temperature"
    ++ refMsgs (sub d "temperature") "gradient" "forcing.temperature"
    ++ subMsgs d "precipitation" "forcing.precipitation"
    ++ keyMsgs (sub d "precipitation") ["correction_factor", "gradient"] "forcing.precipitation"
    ++ refMsgs (sub d "precipitation") "correction_factor" "forcing.precipitation"
    ++ refMsgs (sub d "precipitation") "gradient" "forcing.precipitation"
    ++ (if (has (columnsOf d) "temperature" || (station files d).precipGradient.isSome) && (station files d).refElevation.isNone then ["forcing.ref_elevation"] else [])
    ++ columnMsgs files (file files d) (timeOf d).1 (columnsOf d)

/-- `has_station` (853). -/
def hasStation (d : Dict) : Bool := has d "file" || has d "columns"

/-- The variables with a source (873-880). -/
def sources (gridded : List String) (d : Dict) : List String :=
  (if hasStation d then (columnsOf d).map (·.1) else []) ++ gridded

def forcingKeys : List String := ["file", "time", "columns", "ref_elevation", "temperature", "precipitation", "pet", "gridded"]

/-- `_validate_forcing` on a mapping (841-893). -/
def forcingMsgs (files : Files) (gridded : List String) (d : Dict) : List String :=
  keyMsgs d forcingKeys "forcing"
    ++ (if hasStation d then stationMsgs files d else [])
    ++ (if !hasStation d && gridded.isEmpty then ["forcing"] else [])
    ++ subMsgs d "pet" "forcing.pet"
    ++ keyMsgs (sub d "pet") ["method", "latitude"] "forcing.pet"
    ++ strMsgs (sub d "pet") "method" "forcing.pet"
    ++ numberMsgs (sub d "pet") "latitude" "forcing.pet"
    ++ ((if hasStation d then (columnsOf d).map (·.1) else []).filter fun v => decide (v ∈ gridded)).map (fun v => "forcing: twice " ++ v)
    ++ (if sources gridded d ≠ [] ∧ "precipitation" ∉ sources gridded d then ["forcing: precipitation"] else [])
    ++ (if sources gridded d ≠ [] ∧ "pet" ∉ sources gridded d ∧ "temperature" ∉ sources gridded d then ["forcing: temperature"] else [])

/-- One data parameter (984-997): value, min, max. -/
structure DataParam where
  value : Option Int
  min : Option Int
  max : Option Int

def dataParam : Val → Option DataParam
  | .num x => some ⟨some x, none, none⟩
  | .dict d => some ⟨number d "value", number d "min", number d "max"⟩
  | _ => none

def dataParamMsgs (name : String) : Val → List String
  | .num _ => []
  | .dict d =>
    keyMsgs d ["value", "min", "max"] ("data_parameters." ++ name)
      ++ numberMsgs d "value" ("data_parameters." ++ name)
      ++ (if has d "value" then [] else ["data_parameters." ++ name ++ ".value"])
      ++ numberMsgs d "min" ("data_parameters." ++ name)
      ++ numberMsgs d "max" ("data_parameters." ++ name)
  | _ => ["data_parameters." ++ name]

/-- The entries of one data parameter. -/
def entry (p : String × Val) : List (String × DataParam) :=
  match dataParam p.2 with
  | some x => [(p.1, x)]
  | none => []

/-- `_validate_data_parameters` (968-998). -/
def dataParams (config : Dict) : List (String × DataParam) :=
  match get config "data_parameters" with
  | some (.dict ps) => ps.flatMap entry
  | _ => []

def dataParamsMsgs (config : Dict) : List String :=
  match get config "data_parameters" with
  | none => []
  | some .null => []
  | some (.dict ps) => ps.flatMap fun p => dataParamMsgs p.1 p.2
  | some _ => ["data_parameters"]

/-- The references of the station section (1033-1043). -/
def references (s : Station) : List String :=
  [s.temperatureGradient, s.precipGradient, s.precipFactor].filterMap fun r =>
    match r with
    | some (.param n) => some n
    | _ => none

/-- `forcing` as a mapping. -/
def forcingOf (config : Dict) : Option Dict :=
  match get config "forcing" with
  | some (.dict d) => some d
  | _ => none

/-- The checks across the sections (1000-1050), for the station data and the evapotranspiration. -/
def crossMsgs (files : Files) (gridded : List String) (catchment : Bool) (config d : Dict) : List String :=
  (if sources gridded d ≠ [] ∧ "pet" ∉ sources gridded d ∧ number (sub d "pet") "latitude" = none ∧ catchment = false then ["forcing.pet.latitude"] else [])
    ++ (if hasStation d then (references (station files d)).filter fun n => decide (n ∉ (dataParams config).map (·.1)) else [])

/-- The messages of the project, for these sections. -/
def msgs (files : Files) (gridded : List String) (catchment : Bool) (config : Dict) : List String :=
  match forcingOf config with
  | none => ["forcing"] ++ dataParamsMsgs config
  | some d => forcingMsgs files gridded d ++ dataParamsMsgs config ++ crossMsgs files gridded catchment config d

/-! ## The operations on the forcing -/

inductive Op
  | load (file : Option String) (timeColumn timeFormat : String) (columns : Dict)
  | correct (var : String) (factor : Ref)
  | constant (var : String)
  /-- `additive_elevation_gradient` -/
  | additive (var : String) (refElevation : Option Int) (gradient : Option Ref)
  /-- `multiplicative_elevation_gradient` -/
  | multiplicative (var : String) (refElevation : Option Int) (gradient : Ref)
  | gridded (var : String)
  | pet (method : String) (latitude : Option Int)

/-- `if "temperature" in station["columns"]` (1229-1235). -/
def temperatureOps (s : Station) : List Op := if has s.columns "temperature" then [.additive "temperature" s.refElevation s.temperatureGradient] else []

/-- The precipitation (1236-1253). -/
def correctOps (s : Station) : List Op :=
  match s.precipFactor with
  | some f => [.correct "precipitation" f]
  | none => []

def precipOps (s : Station) : List Op :=
  if has s.columns "precipitation" then
    correctOps s ++ (match s.precipGradient with
      | some g => [.multiplicative "precipitation" s.refElevation g]
      | none => [.constant "precipitation"])
  else []

/-- The operations for the station data (1211-1262). -/
def stationOps (s : Station) : List Op :=
  [.load s.file s.timeColumn s.timeFormat s.columns] ++ temperatureOps s ++ precipOps s
    ++ (if has s.columns "pet" then [.constant "pet"] else [])
    ++ ((s.columns.map (·.1)).filter fun v => decide (v ∉ ["precipitation", "temperature", "pet"])).map .constant

/-- All operations (1206-1283). -/
def ops (files : Files) (gridded : List String) (d : Dict) : List Op :=
  (if hasStation d then stationOps (station files d) else [])
    ++ gridded.map .gridded
    ++ (if "pet" ∈ sources gridded d then [] else [.pet (orElse (str (sub d "pet") "method") "Oudin") (number (sub d "pet") "latitude")])

/-- `load_project`, as far as modelled. -/
def load (files : Files) (gridded : List String) (catchment : Bool) (config : Dict) : Except (List String) (List Op × List (String × DataParam)) :=
  if msgs files gridded catchment config ≠ [] then .error (msgs files gridded catchment config)
  else match forcingOf config with
    | none => .error []
    | some d => .ok (ops files gridded d, dataParams config)

end HB.Project
