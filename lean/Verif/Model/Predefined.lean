import Verif.Model.BaseStructure

/-!
# The predefined models

Model of the part of the Python package that writes the structures of the predefined models: the description of the bricks
(`_define_structure` of `Socont`, `HBV`/`HBV96`, `GR4J`, `GR6J`, the glacier module `gsm`), the structure variants
(`_define_structure_variants`, models/model.py:1107-1168, models/hbv.py:249-315) and the calls to `SettingsModel` made for one
variant (`_generate_one_structure`, models/model.py:1080-1105).  Paths are relative to python/src/hydrobricks.

Not modelled: parameters, aliases, logging, and the Python checks on option values (the theorems say which values they cover).
-/

namespace HB.Wire

open HB.Names

/-- A process of the description (`processes` of a brick): `targets` holds the single `target`, the list `targets`, or nothing
(models/model.py:1245-1303). -/
structure PItem where
  name : String
  kind : String
  targets : List String := []
  inst : Bool := false
  deriving DecidableEq, Repr

/-- What a key of the description stands for: an existing land cover, a brick of the unit, or one of the sub-basin. -/
inductive Place | cover | unit | basin
  deriving DecidableEq, Repr

/-- An entry of the dictionary `structure` (a key and the description of a brick). -/
structure Item where
  key : String
  place : Place
  kind : String := "storage"
  direct : Bool := false
  procs : List PItem
  deriving DecidableEq, Repr

/-- `SetProcessOutputsAsStatic` (core/src/base/SettingsModel.cpp:287-293). -/
def setStatic (a : Auth) : Except Err Auth :=
  modProc (fun p => { p with outs := p.outs.map fun o => { o with static := true } }) a

/-- `SetCurrentBrickComputedDirectly` (core/src/base/SettingsModel.cpp:138-141): the selected brick needs no solver. -/
def setDirect (a : Auth) : Except Err Auth := modBrick (fun b => { b with direct := true }) a

/-- `if c: …`. -/
def onlyIf (c : Bool) (f : Auth → Except Err Auth) (a : Auth) : Except Err Auth := if c then f a else .ok a

/-- May the process go without a target (models/model.py:1283-1289)? -/
def mayLackTarget (kind : String) : Bool := "et:".toList.isPrefixOf kind.toList || "interception:".toList.isPrefixOf kind.toList

/-- Process kinds whose output is declared static (models/model_settings.py:327-328). -/
def staticKinds : List String := ["outflow:direct", "outflow:rest"]

/-- `_set_structure_process` (models/model.py:1245-1303) with `add_brick_process` (models/model_settings.py:300-332): the extra
targets are added after the flags are set. -/
def writeProc (p : PItem) (a : Auth) : Except Err Auth :=
  if p.targets = [] ∧ mayLackTarget p.kind = false then .error .thrown
  else do
    let a1 ← addProcess p.name p.kind (p.targets.headD "") a
    let a2 ← onlyIf (decide (p.kind ∈ staticKinds)) setStatic a1
    let a3 ← onlyIf p.inst setInstantaneous a2
    p.targets.tail.foldlM (fun a t => addProcessOutput t .water a) a3

/-- The outputs a process of a sub-basin brick gets: the same calls as above, which only touch the process just added. -/
def basinOutsOf (p : PItem) : List Out :=
  match p.targets with
  | [] => []
  | t :: ts => ⟨(parseTarget t).1, (parseTarget t).2, p.inst, decide (p.kind ∈ staticKinds)⟩ ::
      ts.map fun t => { target := t }

/-- The sub-basin brick an entry describes. -/
def basinBrickOf (it : Item) : Brick where
  name := it.key
  type := it.kind
  procs := it.procs.map fun p => { name := p.name, type := p.kind, outs := basinOutsOf p }
  direct := it.direct

/-- Is the process type registered? -/
def registered (kind : String) : Bool :=
  match registerSettings kind with
  | .ok _ => true
  | _ => false

/-- `add_sub_basin_brick` (core/src/base/SettingsModel.cpp:65-83) and the processes of the new brick.  Simplification: the brick is
appended with its processes at once; the selection then is a sub-basin brick, for which `Auth` has no position. -/
def writeBasinBrick (it : Item) (a : Auth) : Except Err Auth :=
  if it.procs.all fun p => (p.targets != [] || mayLackTarget p.kind) && registered p.kind then
    .ok { a with str := { a.str with basinBricks := a.str.basinBricks ++ [basinBrickOf it] }, brick := none, proc := none }
  else .error .thrown

/-- One turn of the loop of `_generate_one_structure` (models/model.py:1086-1103) with `_set_structure_brick` (1223-1243). -/
def writeItem (it : Item) (a : Auth) : Except Err Auth :=
  match it.place with
  | .basin => writeBasinBrick it a
  | .cover => do
    let a1 ← selectBrick it.key a
    let a2 ← onlyIf it.direct setDirect a1
    it.procs.foldlM (fun a p => writeProc p a) a2
  | .unit => do
    let a1 := addUnitBrick it.key it.kind a
    let a2 ← onlyIf it.direct setDirect a1
    it.procs.foldlM (fun a p => writeProc p a) a2

/-- One structure variant: the arguments of the base structure and the description. -/
structure Variant where
  base : BaseArgs
  items : List Item
  deriving DecidableEq, Repr

/-- `_generate_one_structure` (models/model.py:1080-1105). -/
def generateOne (v : Variant) : Except Err Auth := do
  let a ← generateBase v.base
  v.items.foldlM (fun a it => writeItem it a) a

/-! ## Land covers -/

/-- A land cover as the user gives it: name and type. -/
structure PyCover where
  name : String
  kind : String
  deriving DecidableEq, Repr

/-- The land cover as it is written, and whether it gets a canopy (models/model_settings.py:207-229). -/
def PyCover.toCover (canopies : Bool) (c : PyCover) : Cover where
  name := c.name
  type := if c.kind ∈ ["ground", "generic_land_cover", "open", "forest", "lake"] then "generic_land_cover" else c.kind
  canopy := canopies && c.kind == "forest"

/-- Names of the covers of a type. -/
def namesOf (kind : String) (cs : List PyCover) : List String := (cs.filter fun c => c.kind == kind).map (·.name)

/-! ## The snow options all models share -/

/-- Options of the snow routine (`_set_structure_basics`, models/model.py:1170-1221). -/
structure SnowOpts where
  melt : String := "melt:degree_day"
  retention : Option String := none
  refreezing : Option String := none
  rainToSnowpack : Bool := false
  snowIce : Option String := none
  redistribution : Option String := none
  sublimation : Option String := none
  forest : Bool := false
  deriving DecidableEq, Repr

/-- The rain/snow separation derived from the melt process (models/model_settings.py:193-199). -/
def defaultSplitter (melt : String) : String := if melt = "melt:cemaneige" then "snow_rain:cemaneige" else "snow_rain:linear"

/-- `_set_structure_basics` (models/model.py:1170-1221): no rain/snow separation is passed on. -/
def snowArgs (o : SnowOpts) (cs : List PyCover) : BaseArgs where
  covers := cs.map (PyCover.toCover o.forest)
  splitter := defaultSplitter o.melt
  melt := o.melt
  retention := o.retention
  rainToSnowpack := o.rainToSnowpack
  refreezing := o.refreezing
  snowIce := o.snowIce
  redistribution := o.redistribution
  sublimation := o.sublimation

/-! ## The glacier module -/

/-- `GSM.RAIN_SNOWMELT_STORAGE` (modules/glacier.py:83). -/
def gsmRain : String := "glacier_area_rain_snowmelt_storage"

/-- `GSM.ICEMELT_STORAGE` (modules/glacier.py:84). -/
def gsmIce : String := "glacier_area_icemelt_storage"

/-- A glacier cover (modules/glacier.py:98-119). -/
def gsmCover (melt : String) (name : String) : Item where
  key := name
  place := .cover
  procs := [⟨"outflow_rain_snowmelt", "outflow:direct", [gsmRain], true⟩, ⟨"melt", melt, [gsmIce], true⟩]

/-- A reservoir of the glacierized area (modules/glacier.py:121-131). -/
def gsmStore (name : String) : Item where
  key := name
  place := .basin
  procs := [⟨"outflow", "outflow:linear", ["outlet"], false⟩]

/-- `GSM.add_bricks` (modules/glacier.py:86-131). -/
def gsmItems (melt : String) (glaciers : List String) : List Item :=
  if glaciers = [] then [] else glaciers.map (gsmCover melt) ++ [gsmStore gsmRain, gsmStore gsmIce]

/-- `_split_glacier_variants` (models/model.py:1129-1168). -/
def splitGlaciers (args : List PyCover → BaseArgs) (cs : List PyCover) (items : List Item) : List Variant :=
  if namesOf "glacier" cs = [] then [⟨args cs, items⟩]
  else [⟨args (cs.filter fun c => c.kind != "glacier"), items.filter fun it => decide (it.key ∉ namesOf "glacier" cs)⟩, ⟨args cs, items⟩]

/-! ## Socont -/

/-- Options of `Socont` (models/socont.py:79-96). -/
structure SocontOpts where
  snow : SnowOpts := {}
  secondLayer : Bool := false
  linearRunoff : Bool := false
  deriving DecidableEq, Repr

/-- The cover with the soil routine: the first one that is no glacier (models/socont.py:148-158). -/
def soilCover (cs : List PyCover) : String := (((cs.filter fun c => c.kind != "glacier").map (·.name)).head?).getD "open"

/-- The soil cover, the slow reservoirs and the surface runoff (models/socont.py:159-219). -/
def socontSoil (o : SocontOpts) (soil : String) : List Item :=
  [{ key := soil, place := .cover,
     procs := [⟨"infiltration", "infiltration:socont", ["slow_reservoir"], false⟩, ⟨"runoff", "outflow:rest", ["surface_runoff"], false⟩] },
   { key := "slow_reservoir", place := .unit,
     procs := [⟨"et", "et:socont", [], false⟩, ⟨"outflow", "outflow:linear", ["outlet"], false⟩, ⟨"overflow", "overflow", ["outlet"], false⟩] ++
       if o.secondLayer then [⟨"percolation", "percolation:constant", ["slow_reservoir_2"], false⟩] else [] }] ++
  (if o.secondLayer then [{ key := "slow_reservoir_2", place := .unit, procs := [⟨"outflow", "outflow:linear", ["outlet"], false⟩] }] else []) ++
  [{ key := "surface_runoff", place := .unit,
     procs := [⟨"runoff", if o.linearRunoff then "outflow:linear" else "runoff:socont", ["outlet"], false⟩] }]

/-- `Socont` (models/socont.py:105-236). -/
def socont (o : SocontOpts) (cs : List PyCover) : List Variant :=
  splitGlaciers (snowArgs o.snow) cs (gsmItems o.snow.melt (namesOf "glacier" cs) ++ socontSoil o (soilCover cs))

/-! ## HBV-96 -/

/-- Options of `HBV96` (models/hbv.py:89-105); `snowRain` is accepted as well (models/hbv.py:98). -/
structure HbvOpts where
  snow : SnowOpts := { retention := some "outflow:snow_holding", refreezing := some "refreeze:degree_day", rainToSnowpack := true }
  shareSoil : Bool := false
  snowRain : Option String := none
  deriving DecidableEq, Repr

/-- The covers with a soil routine (models/hbv.py:163-167). -/
def hbvSoilCovers (cs : List PyCover) : List String := (cs.filter fun c => !(c.kind == "lake" || c.kind == "glacier")).map (·.name)

/-- Does one soil store serve all covers (models/hbv.py:178-180)? -/
def hbvShared (o : HbvOpts) (cs : List PyCover) : Bool := o.shareSoil || (hbvSoilCovers cs).length == 1

/-- The soil store of a cover (models/hbv.py:181-186). -/
def hbvSoil (o : HbvOpts) (cs : List PyCover) (cover : String) : String :=
  if hbvShared o cs then "soil_moisture" else cover ++ "_soil_moisture"

/-- The distinct soil stores in order (`dict.fromkeys(...)`, models/hbv_96.py:69; models/hbv.py:218-220). -/
def hbvSoils (o : HbvOpts) (cs : List PyCover) : List String :=
  if hbvShared o cs then (if hbvSoilCovers cs = [] then [] else ["soil_moisture"]) else (hbvSoilCovers cs).map fun c => c ++ "_soil_moisture"

/-- A cover with the soil routine (models/hbv.py:192-207). -/
def hbvCover (o : HbvOpts) (cs : List PyCover) (name : String) : Item where
  key := name
  place := .cover
  procs := [⟨"infiltration", "infiltration:hbv", [hbvSoil o cs name], false⟩, ⟨"recharge", "outflow:rest", ["upper_zone"], false⟩]

/-- The response routine of HBV-96 (models/hbv_96.py:61-88). -/
def hbvResponse (o : HbvOpts) (cs : List PyCover) : List Item :=
  [{ key := "upper_zone", place := .unit,
     procs := [⟨"capillary", "capillary:hbv", hbvSoils o cs, false⟩, ⟨"percolation", "percolation:constant", ["lower_zone"], false⟩,
       ⟨"runoff", "runoff:hbv", ["routing"], false⟩] },
   { key := "lower_zone", place := .unit, procs := [⟨"outflow", "outflow:linear", ["routing"], false⟩] }]

/-- A soil moisture store (models/hbv.py:217-230). -/
def hbvSoilStore (name : String) : Item where
  key := name
  place := .unit
  procs := [⟨"et", "et:hbv", [], false⟩, ⟨"overflow", "overflow", ["routing"], false⟩]

/-- The unit hydrograph (models/hbv.py:233-239). -/
def hbvRouting : Item where
  key := "routing"
  place := .unit
  procs := [⟨"routing", "routing:hbv", ["outlet"], false⟩]

/-- A lake and its storage (models/hbv.py:261-281). -/
def hbvLake (name : String) : List Item :=
  [{ key := name, place := .cover, procs := [⟨"outflow", "outflow:direct", [name ++ "_storage"], true⟩] },
   { key := name ++ "_storage", place := .unit,
     procs := [⟨"et", "et:open_water", [], false⟩, ⟨"outflow", "outflow:linear", ["outlet"], false⟩] }]

/-- The bricks that are not those of lakes (models/hbv.py:192-253); lakes are told apart by their keys (307-311), which are taken
to be distinct from the others. -/
def hbvItems (o : HbvOpts) (cs : List PyCover) : List Item :=
  (hbvSoilCovers cs).map (hbvCover o cs) ++ hbvResponse o cs ++ (hbvSoils o cs).map hbvSoilStore ++ [hbvRouting] ++
    gsmItems o.snow.melt (namesOf "glacier" cs)

/-- The options of the lake variant (models/hbv.py:343-350): no snow at all. -/
def hbvLakeArgs (o : HbvOpts) (lakes : List PyCover) : BaseArgs where
  covers := lakes.map (PyCover.toCover o.snow.forest)
  withSnow := false
  splitter := "snow_rain:linear"
  melt := "melt:degree_day"
  retention := none
  rainToSnowpack := false
  refreezing := none
  snowIce := o.snow.snowIce
  redistribution := o.snow.redistribution
  sublimation := none

/-- `HBV96` with its variants (models/hbv.py:130-354); without a soil-bearing cover an error is raised (168-174), here no
variant. -/
def hbv96 (o : HbvOpts) (cs : List PyCover) : List Variant :=
  if hbvSoilCovers cs = [] then []
  else
    splitGlaciers (snowArgs o.snow) (cs.filter fun c => c.kind != "lake") (hbvItems o cs) ++
      if namesOf "lake" cs = [] then []
      else [⟨hbvLakeArgs o (cs.filter fun c => c.kind == "lake"), (namesOf "lake" cs).flatMap hbvLake⟩]

/-! ## GR4J and GR6J -/

/-- Options of `GR4J` and `GR6J` (models/gr4j.py:50-58, models/gr6j.py:70-75); `melt = none` means no snow. -/
structure GrOpts where
  six : Bool := false
  discrete : Bool := true
  melt : Option String := none
  snowRain : Option String := none
  redistribution : Option String := none
  sublimation : Option String := none
  deriving DecidableEq, Repr

/-- `_set_structure_basics` of `GR4J` (models/gr4j.py:90-106). -/
def grArgs (o : GrOpts) (cs : List PyCover) : BaseArgs where
  covers := cs.map (PyCover.toCover false)
  withSnow := o.melt.isSome
  splitter := match o.snowRain with
    | some s => s
    | none => defaultSplitter (o.melt.getD "melt:degree_day")
  melt := o.melt.getD "melt:degree_day"
  redistribution := o.redistribution
  sublimation := o.sublimation

/-- The routing (models/gr4j.py:185-199, 246-257; models/gr6j.py:93-101). -/
def grRouting (o : GrOpts) : Item where
  key := "uh_input"
  place := .unit
  direct := o.discrete
  procs := [⟨"routing", if o.six then "routing:gr6j" else "routing:gr4j", ["outlet"], false⟩]

/-- The bricks (models/gr4j.py:108-257). -/
def grItems (o : GrOpts) (cover : String) : List Item :=
  { key := cover, place := .cover,
    procs := [⟨"interception", "interception:gr4j", [], false⟩,
      ⟨"throughfall", "outflow:rest", [if o.discrete then "production_store" else cover ++ "_soil"], true⟩] } ::
  if o.discrete then
    [{ key := "production_store", place := .unit, direct := true,
       procs := [⟨"production", "production:gr4j", ["uh_input"], false⟩, ⟨"et", "et:gr4j", [], false⟩] },
     grRouting o]
  else
    [{ key := cover ++ "_soil", place := .unit,
       procs := [⟨"production", "infiltration:gr4j", ["production_store"], false⟩, ⟨"runoff", "outflow:rest", ["uh_input"], false⟩] },
     { key := "production_store", place := .unit,
       procs := [⟨"percolation", "percolation:gr4j", ["uh_input"], false⟩, ⟨"et", "et:gr4j", [], false⟩] },
     grRouting o]

/-- `GR4J`, `GR6J`: one variant; the first cover carries the model. -/
def gr (o : GrOpts) (cs : List PyCover) : List Variant :=
  match cs with
  | [] => []
  | c :: _ => [⟨grArgs o cs, grItems o c.name⟩]

end HB.Wire
