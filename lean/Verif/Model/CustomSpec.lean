import Verif.Model.Predefined

/-!
# Declared model structures (Python side)

`CustomModel` (python/src/hydrobricks/models/custom.py): the validation of a structure given as data, the options, and the way `_generate_one_structure`
(models/model.py:1080-1105, 1223-1308) reads the validated structure.

Simplifications.  Keys of mappings are strings; mappings are lists of pairs in their order.  A message is the place and the kind of problem.  Numbers are integers (the
code only asks whether a value is one).  Reading the file is left out.
-/

namespace HB.Custom

/-- What YAML can hold. -/
inductive Val
  | null
  | bool (b : Bool)
  | num (x : Int)
  | str (s : String)
  | list (l : List Val)
  | dict (d : List (String × Val))

/-- `d.get(k)`. -/
def get (d : List (String × Val)) (k : String) : Option Val := (d.find? fun p => decide (p.1 = k)).map (·.2)

/-- `k in d`. -/
def has (d : List (String × Val)) (k : String) : Bool := (get d k).isSome

def isStr : Val → Bool
  | .str _ => true
  | _ => false

def isBool : Val → Bool
  | .bool _ => true
  | _ => false

/-- `isinstance(v, list) and all(isinstance(a, str) for a in v)`. -/
def isStrList : Val → Bool
  | .list l => l.all isStr
  | _ => false

/-- A number that is not a boolean. -/
def isNum : Val → Bool
  | .num _ => true
  | _ => false

/-- `bool(v)`. -/
def truthy : Val → Bool
  | .null => false
  | .bool b => b
  | .num x => decide (x ≠ 0)
  | .str s => decide (s ≠ "")
  | .list l => !l.isEmpty
  | .dict d => !d.isEmpty

/-- `spec.get(k, default) or default`. -/
def getOr (d : List (String × Val)) (k : String) (default : Val) : Val :=
  match get d k with
  | none => default
  | some v => if truthy v then v else default

inductive Problem
  | unknownKey (k : String)
  | notMapping
  | kind
  | bothTargets
  | target
  | targets
  | noTarget
  | flag (f : String)
  | attach
  | direct
  | parameters
  | parameter (name : String)
  | processes
  | name
  | covers
  | options
  | bricks
  | aliases
  | alias (name : String)
  | constraints
  | constraint (i : Nat)
  | operator (i : Nat)
deriving DecidableEq

/-- A message: where and what. -/
structure Msg where
  at_ : List String
  what : Problem
deriving DecidableEq

/-- The known keys (67-91). -/
def specKeys : List String := ["name", "allowed_land_cover_types", "options", "bricks", "aliases", "constraints"]
def brickKeys : List String := ["kind", "attach_to", "computed_directly", "parameters", "processes"]
def processKeys : List String := ["kind", "target", "targets", "log", "instantaneous"]
def operators : List String := ["<", "<=", ">", ">="]

/-- `_SNOW_OPTION_DEFAULTS` (75-85). -/
def defaults : List (String × Val) :=
  [("with_snow", .bool true), ("snow_melt_process", .str "melt:degree_day"), ("snow_ice_transformation", .null), ("snow_redistribution", .null),
   ("snow_water_retention_process", .null), ("snow_refreezing_process", .null), ("snow_sublimation_process", .null), ("rain_to_snowpack", .bool false),
   ("forest_interception", .bool false)]

/-- `kind.startswith(_TARGETLESS_PREFIXES)` (89, 164). -/
def targetless (kind : String) : Bool :=
  "et:".toList.isPrefixOf kind.toList || "interception:".toList.isPrefixOf kind.toList || "sublimation:".toList.isPrefixOf kind.toList

/-- `_check_keys` (97-103). -/
def checkKeys (d : List (String × Val)) (valid : List String) (at_ : List String) : List Msg :=
  (d.filter fun p => decide (p.1 ∉ valid)).map fun p => ⟨at_, .unknownKey p.1⟩

/-- `if c: errors.append(...)`. -/
def when (c : Bool) (m : Msg) : List Msg := if c then [m] else []

/-- The string under a key, or "" (`kind = ""` after the message). -/
def strOf (d : List (String × Val)) (k : String) : String :=
  match get d k with
  | some (.str s) => s
  | _ => ""

/-- `k in d and not ok(d[k])`. -/
def bad (d : List (String × Val)) (k : String) (ok : Val → Bool) : Bool :=
  match get d k with
  | none => false
  | some v => !ok v

/-- `not isinstance(d.get(k), str)`. -/
def lacksStr (d : List (String × Val)) (k : String) : Bool :=
  match get d k with
  | none => true
  | some v => !isStr v

/-- The body of `_validate_process` for a mapping (147-176). -/
def validateProcessDict (d : List (String × Val)) (at_ : List String) : List Msg :=
  checkKeys d processKeys at_
    ++ when (lacksStr d "kind") ⟨at_, .kind⟩
    ++ when (has d "target" && has d "targets") ⟨at_, .bothTargets⟩
    ++ when (bad d "target" isStr) ⟨at_, .target⟩
    ++ when (bad d "targets" isStrList) ⟨at_, .targets⟩
    ++ when (!has d "target" && !has d "targets" && !targetless (strOf d "kind")) ⟨at_, .noTarget⟩
    ++ when (bad d "log" isBool) ⟨at_, .flag "log"⟩
    ++ when (bad d "instantaneous" isBool) ⟨at_, .flag "instantaneous"⟩

/-- `_validate_process` (142-176). -/
def validateProcess (p : Val) (at_ : List String) : List Msg :=
  match p with
  | .dict d => validateProcessDict d at_
  | _ => [⟨at_, .notMapping⟩]

/-- Is the place known (196-201)? -/
def isPlace : Val → Bool
  | .str s => decide (s = "hydro_unit") || decide (s = "sub_basin")
  | _ => false

/-- The messages about the parameters of a brick (206-214). -/
def parameterMsgs (d : List (String × Val)) (at_ : List String) : List Msg :=
  match get d "parameters" with
  | none => []
  | some (.dict ps) => (ps.filter fun p => !isNum p.2).map fun p => ⟨at_, .parameter p.1⟩
  | some _ => [⟨at_, .parameters⟩]

/-- The messages about the processes of a brick (215-220). -/
def processMsgs (d : List (String × Val)) (at_ : List String) : List Msg :=
  match get d "processes" with
  | none => []
  | some (.dict ps) => ps.flatMap fun p => validateProcess p.2 (at_ ++ ["processes", p.1])
  | some _ => [⟨at_, .processes⟩]

/-- The messages about the mapping of a brick (184-220). -/
def validateBrickDict (d : List (String × Val)) (at_ : List String) : List Msg :=
  checkKeys d brickKeys at_
    ++ when (lacksStr d "kind") ⟨at_, .kind⟩
    ++ when (decide (strOf d "kind" ≠ "land_cover") && bad d "attach_to" isPlace) ⟨at_, .attach⟩
    ++ when (bad d "computed_directly" isBool) ⟨at_, .direct⟩
    ++ parameterMsgs d at_
    ++ processMsgs d at_

/-- `_validate_brick` (179-220). -/
def validateBrick (b : Val) (at_ : List String) : List Msg :=
  match b with
  | .dict d => validateBrickDict d at_
  | _ => [⟨at_, .notMapping⟩]

/-- `brick.setdefault("attach_to", "hydro_unit")` (192-195), which the validation does in place. -/
def placed (b : Val) : Val :=
  match b with
  | .dict d => if has d "attach_to" then b else .dict (d ++ [("attach_to", .str "hydro_unit")])
  | _ => b

/-- The messages about the options (238-242). -/
def optionMsgs (spec : List (String × Val)) : List Msg :=
  match getOr spec "options" (.dict []) with
  | .dict o => checkKeys o (defaults.map (·.1)) ["structure", "options"]
  | _ => [⟨["structure"], .options⟩]

/-- The messages about the bricks (244-252). -/
def brickMsgs (spec : List (String × Val)) : List Msg :=
  match get spec "bricks" with
  | some (.dict bs) => if bs.isEmpty then [⟨["structure"], .bricks⟩] else bs.flatMap fun p => validateBrick p.2 ["structure", "bricks", p.1]
  | _ => [⟨["structure"], .bricks⟩]

/-- The messages about the aliases (254-265). -/
def aliasMsgs (spec : List (String × Val)) : List Msg :=
  match getOr spec "aliases" (.dict []) with
  | .dict a => (a.filter fun p => !isStr p.2 && !isStrList p.2).map fun p => ⟨["structure"], .alias p.1⟩
  | _ => [⟨["structure"], .aliases⟩]

/-- One constraint (274-289). -/
def constraintMsgs (i : Nat) : Val → List Msg
  | .list [.str _, .str o, .str _] => when (decide (o ∉ operators)) ⟨["structure"], .operator i⟩
  | _ => [⟨["structure"], .constraint i⟩]

/-- The constraints from the `i`-th on. -/
def constraintsFrom (i : Nat) : List Val → List Msg
  | [] => []
  | c :: cs => constraintMsgs i c ++ constraintsFrom (i + 1) cs

/-- The messages about the constraints (267-289). -/
def allConstraintMsgs (spec : List (String × Val)) : List Msg :=
  match getOr spec "constraints" (.list []) with
  | .list cs => constraintsFrom 0 cs
  | _ => [⟨["structure"], .constraints⟩]

/-- `covers is not None and not a list of strings` (229-236). -/
def badCovers (spec : List (String × Val)) : Bool :=
  match get spec "allowed_land_cover_types" with
  | none => false
  | some .null => false
  | some v => !isStrList v

/-- `_validate_structure_spec` (223-289). -/
def validate (spec : List (String × Val)) : List Msg :=
  checkKeys spec specKeys ["structure"]
    ++ when (bad spec "name" isStr) ⟨["structure"], .name⟩
    ++ when (badCovers spec) ⟨["structure"], .covers⟩
    ++ optionMsgs spec
    ++ brickMsgs spec
    ++ aliasMsgs spec
    ++ allConstraintMsgs spec

/-! ## The model made of it -/

inductive Err
  | invalid (msgs : List Msg)
  | kwarg (k : String)
  | unknownCover (k : String)
  /-- a key the code reads is missing or of another type -/
  | broken
  | noTarget (brick process : String)

/-- `d[k] = v`. -/
def set (d : List (String × Val)) (k : String) (v : Val) : List (String × Val) :=
  if has d k then d.map fun p => if p.1 = k then (k, v) else p else d ++ [(k, v)]

/-- `d.update(other)`. -/
def update (d other : List (String × Val)) : List (String × Val) := other.foldl (fun d p => set d p.1 p.2) d

/-- The arguments every model takes (models/model.py:70-75). -/
def commonKwargs : List String := ["solver", "record_all", "land_cover_types", "land_cover_names"]

/-- The options of the structure (340). -/
def specOptions (spec : List (String × Val)) : List (String × Val) :=
  match getOr spec "options" (.dict []) with
  | .dict o => o
  | _ => []

/-- The options (338-352 with models/model.py:858-881). -/
def options (spec kwargs : List (String × Val)) : Except Err (List (String × Val)) :=
  let o := update (update [] defaults) (specOptions spec)
  match kwargs.find? fun p => decide (p.1 ∉ commonKwargs) && !has o p.1 with
  | some p => .error (.kwarg p.1)
  | none => .ok (update o (kwargs.filter fun p => decide (p.1 ∉ commonKwargs)))

/-- The bricks after the validation has placed them. -/
def bricks (spec : List (String × Val)) : List (String × Val) :=
  match get spec "bricks" with
  | some (.dict bs) => bs.map fun p => (p.1, placed p.2)
  | _ => []

/-- `brick.get("kind") == "land_cover"` (366-370). -/
def isCover (b : Val) : Bool :=
  match b with
  | .dict d => decide (strOf d "kind" = "land_cover")
  | _ => false

def strings : List Val → List String
  | [] => []
  | .str s :: l => s :: strings l
  | _ :: l => strings l

/-- The targets of a process (models/model.py:1283-1296): `none` when a process needing one has none. -/
def targetsOf (d : List (String × Val)) : Option (List String) :=
  match get d "targets" with
  | some (.list l) => some (strings l)
  | some _ => none
  | none =>
    match get d "target" with
    | some (.str t) => some [t]
    | some _ => none
    | none => if Wire.mayLackTarget (strOf d "kind") then some [] else none

/-- `process_data["instantaneous"]` if there. -/
def boolOf (d : List (String × Val)) (k : String) : Bool :=
  match get d k with
  | some (.bool b) => b
  | _ => false

/-- One process (models/model.py:1254-1308). -/
def readProcess (brick : String) (p : String × Val) : Except Err Wire.PItem :=
  match p.2 with
  | .dict d =>
    if lacksStr d "kind" then .error .broken
    else match targetsOf d with
      | none => .error (.noTarget brick p.1)
      | some ts => .ok ⟨p.1, strOf d "kind", ts, boolOf d "instantaneous"⟩
  | _ => .error .broken

/-- Where a brick goes (models/model.py:1239-1252). -/
def placeOf (d : List (String × Val)) : Option Wire.Place :=
  if strOf d "kind" = "land_cover" then some .cover
  else match get d "attach_to" with
    | some (.str s) => if s = "hydro_unit" then some .unit else if s = "sub_basin" then some .basin else none
    | _ => none

/-- The processes of a brick. -/
def processesOf (d : List (String × Val)) : Option (List (String × Val)) :=
  match get d "processes" with
  | none => some []
  | some (.dict ps) => some ps
  | some _ => none

/-- One brick (models/model.py:1086-1103). -/
def readBrick (b : String × Val) : Except Err Wire.Item :=
  match b.2 with
  | .dict d =>
    if lacksStr d "kind" then .error .broken
    else match placeOf d, processesOf d with
      | some pl, some ps => do
        let procs ← ps.mapM (readProcess b.1)
        .ok ⟨b.1, pl, strOf d "kind", boolOf d "computed_directly", procs⟩
      | _, _ => .error .broken
  | _ => .error .broken

/-- `CustomModel.__init__` up to the calls to the settings (312-382): the options and the description the generator works on. -/
def customModel (spec kwargs : List (String × Val)) (coverNames : List String) : Except Err (List (String × Val) × List Wire.Item) :=
  if validate spec ≠ [] then .error (.invalid (validate spec))
  else do
    let o ← options spec kwargs
    match (bricks spec).find? fun b => isCover b.2 && decide (b.1 ∉ coverNames) with
    | some b => .error (.unknownCover b.1)
    | none => do
      let items ← (bricks spec).mapM readBrick
      .ok (o, items)

end HB.Custom
