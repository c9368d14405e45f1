import Verif.Model.ProjectFile

/-!
# Observations and parameters of a project file (Python side)

`_validate_observations`, `_validate_parameters` and the first checks of `_validate_config` (python/src/hydrobricks/project.py:896-920, 952-965, 1053-1057).  Simplifications
as in `Model/ProjectFile.lean`.
-/

namespace HB.Project

open Custom (Val get has)

/-- The discharge to load. -/
structure Obs where
  file : Option String
  timeColumn : String
  timeFormat : String
  column : Option String

/-- The columns of the file (911-918). -/
def obsColumnMsgs (files : Files) (f c : Option String) (timeColumn : String) : List String :=
  match f, c with
  | some n, some col =>
    match files n with
    | some (some available) =>
      (if timeColumn ∈ available then [] else ["observations.time.column"]) ++ (if col ∈ available then [] else ["observations.column"])
    | _ => ["observations.file"]
  | _, _ => []

/-- `_validate_observations` on a mapping (900-920). -/
def obsDictMsgs (files : Files) (d : Dict) : List String :=
  keyMsgs d ["file", "time", "column"] "observations"
    ++ fileMsgs files d "observations"
    ++ timeMsgs d "observations"
    ++ strMsgs d "column" "observations"
    ++ (if has d "column" then [] else ["observations.column"])
    ++ obsColumnMsgs files (file files d) (str d "column") (timeOf d).1

/-- `_validate_observations` (896-920). -/
def obsMsgs (files : Files) (config : Dict) : List String :=
  match get config "observations" with
  | none => []
  | some .null => []
  | some (.dict d) => obsDictMsgs files d
  | some _ => ["observations"]

/-- The discharge of the project. -/
def obs (files : Files) (config : Dict) : Option Obs :=
  match get config "observations" with
  | some (.dict d) => some ⟨file files d, (timeOf d).1, (timeOf d).2, str d "column"⟩
  | _ => none

/-- A number (960). -/
def numOf : Val → Option Int
  | .num x => some x
  | _ => none

/-- `_validate_parameters` (952-965). -/
def paramMsgs (config : Dict) : List String :=
  match get config "parameters" with
  | none => []
  | some .null => []
  | some (.dict ps) => (ps.filter fun p => (numOf p.2).isNone).map fun p => "parameters." ++ p.1
  | some _ => ["parameters"]

def params (config : Dict) : List (String × Int) :=
  match get config "parameters" with
  | some (.dict ps) => ps.filterMap fun p => (numOf p.2).map fun x => (p.1, x)
  | _ => []

/-- `_TOP_LEVEL_KEYS` and `_REQUIRED_TOP_LEVEL_KEYS` (99-109). -/
def topKeys : List String := ["model", "hydro_units", "forcing", "observations", "periods", "parameters", "data_parameters", "output"]
def requiredKeys : List String := ["model", "hydro_units", "forcing", "periods"]

/-- The first checks of `_validate_config` (1054-1057). -/
def topMsgs (config : Dict) : List String :=
  keyMsgs config topKeys "project" ++ (requiredKeys.filter fun k => !has config k)

/-- The project with its forcing, parameters and observations. -/
def loadAll (files : Files) (gridded : List String) (catchment : Bool) (config : Dict) :
    Except (List String) (List Op × List (String × DataParam) × List (String × Int) × Option Obs) :=
  if topMsgs config ++ msgs files gridded catchment config ++ obsMsgs files config ++ paramMsgs config ≠ [] then
    .error (topMsgs config ++ msgs files gridded catchment config ++ obsMsgs files config ++ paramMsgs config)
  else match load files gridded catchment config with
    | .error e => .error e
    | .ok (o, ps) => .ok (o, ps, params config, obs files config)

end HB.Project
