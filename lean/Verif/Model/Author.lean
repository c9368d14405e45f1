import Verif.Model.Names

/-!
# Writing a model structure

Model of the part of `SettingsModel` with which a structure is written: bricks, processes, splitters and their outputs, and
the generators of the common precipitation and snow structure (SettingsModel.cpp:45-107, 171-207, 270-314, 378-431,
491-634).  One structure variant (the selected one).  Parameters, forcings and log items are not modelled here (C45, C49,
C52).  `throw` is `.error .thrown`; using a selection that is not set (`assert`, off in release builds) is
`.error .undefined`.
-/

namespace HB.Wire

open HB.Names

/-- What a call ends with when it does not return normally. -/
inductive Err | thrown | undefined
  deriving DecidableEq, Repr

/-- `OutputSettings` (SettingsModel.h:24-29). -/
structure Out where
  target : String
  content : Content := .water
  inst : Bool := false
  static : Bool := false
  deriving DecidableEq, Repr

/-- `ProcessSettings` (SettingsModel.h:31-38). -/
structure Proc where
  name : String
  type : String
  outs : List Out
  deriving DecidableEq, Repr

/-- `BrickSettings` (SettingsModel.h:49-58). -/
structure Brick where
  name : String
  type : String
  parent : String := ""
  procs : List Proc := []
  direct : Bool := false
  deriving DecidableEq, Repr

/-- `SplitterSettings` (SettingsModel.h:40-47). -/
structure Split where
  name : String
  type : String
  outs : List Out := []
  deriving DecidableEq, Repr

/-- `ModelStructure` (SettingsModel.h:60-69). -/
structure Struct where
  unitBricks : List Brick := []
  basinBricks : List Brick := []
  covers : List ℕ := []
  surfaces : List ℕ := []
  unitSplits : List Split := []
  basinSplits : List Split := []
  deriving DecidableEq, Repr

/-- The selected structure with `_selectedBrick`, `_selectedProcess` (both as positions among the unit bricks and the
processes of that brick) and `_selectedSplitter` (position among the unit splitters).  Selections of sub-basin components
are not modelled: the generators never make them. -/
structure Auth where
  str : Struct := {}
  brick : Option ℕ := none
  proc : Option ℕ := none
  split : Option ℕ := none
  deriving DecidableEq, Repr

/-- Position of the first element satisfying `p` (the selection loops SettingsModel.cpp:683-694, 772-783). -/
def findIdx? {α : Type} (p : α → Bool) : List α → Option ℕ
  | [] => none
  | a :: l => if p a then some 0 else (findIdx? p l).map (· + 1)

/-- `AddHydroUnitBrick` (SettingsModel.cpp:45-63). -/
def addUnitBrick (name type : String) (a : Auth) : Auth :=
  { a with str := { a.str with unitBricks := a.str.unitBricks ++ [{ name := name, type := type }] },
           brick := some a.str.unitBricks.length }

/-- `SelectHydroUnitSplitterIfFound` (SettingsModel.cpp:772-783). -/
def selectSplitter? (name : String) (a : Auth) : Option Auth :=
  (findIdx? (fun s : Split => s.name == name) a.str.unitSplits).map fun i => { a with split := some i }

/-- `SelectHydroUnitSplitter` (SettingsModel.cpp:796-800). -/
def selectSplitter (name : String) (a : Auth) : Except Err Auth :=
  match selectSplitter? name a with
  | some b => .ok b
  | none => .error .thrown

/-- `AddSplitterOutput` (SettingsModel.cpp:378-385). -/
def addSplitterOutput (target : String) (content : Content) (a : Auth) : Except Err Auth :=
  match a.split with
  | none => .error .undefined
  | some i => .ok { a with str := { a.str with
      unitSplits := a.str.unitSplits.modify i (fun s => { s with outs := s.outs ++ [{ target := target, content := content }] }) } }

/-- `AddLandCoverBrick` (SettingsModel.cpp:85-94). -/
def addLandCover (name type : String) (a : Auth) : Except Err Auth :=
  let a1 := addUnitBrick name type a
  let a2 := { a1 with str := { a1.str with covers := a1.str.covers ++ [a.str.unitBricks.length] } }
  match selectSplitter? "rain_splitter" a2 with
  | some a3 => addSplitterOutput name .water a3
  | none => .ok a2

/-- `AddSurfaceComponentBrick` (SettingsModel.cpp:96-102). -/
def addSurface (name type : String) (a : Auth) : Auth :=
  let a1 := addUnitBrick name type a
  { a1 with str := { a1.str with surfaces := a1.str.surfaces ++ [a.str.unitBricks.length] } }

/-- Change the selected brick. -/
def modBrick (f : Brick → Brick) (a : Auth) : Except Err Auth :=
  match a.brick with
  | none => .error .undefined
  | some i => .ok { a with str := { a.str with unitBricks := a.str.unitBricks.modify i f } }

/-- `SetSurfaceComponentParent` (SettingsModel.cpp:104-107). -/
def setParent (name : String) (a : Auth) : Except Err Auth := modBrick (fun b => { b with parent := name }) a

/-- Change the selected process. -/
def modProc (f : Proc → Proc) (a : Auth) : Except Err Auth :=
  match a.proc with
  | none => .error .undefined
  | some j => modBrick (fun b => { b with procs := b.procs.modify j f }) a

/-- `AddProcessOutput` (SettingsModel.cpp:270-277). -/
def addProcessOutput (target : String) (content : Content) (a : Auth) : Except Err Auth :=
  modProc (fun p => { p with outs := p.outs ++ [{ target := target, content := content }] }) a

/-- `AddBrickProcess` (SettingsModel.cpp:171-207): the target may carry a content type after a colon; the type must be
registered. -/
def addProcess (name type target : String) (a : Auth) : Except Err Auth :=
  match a.brick with
  | none => .error .undefined
  | some i =>
    match a.str.unitBricks[i]? with
    | none => .error .undefined
    | some b => do
      let a1 ← modBrick (fun b => { b with procs := b.procs ++ [⟨name, type, []⟩] }) a
      let a2 := { a1 with proc := some b.procs.length }
      let a3 ← if target = "" then .ok a2 else addProcessOutput (parseTarget target).1 (parseTarget target).2 a2
      match registerSettings type with
      | .ok _ => .ok a3
      | _ => .error .thrown

/-- `SetProcessOutputsAsInstantaneous` (SettingsModel.cpp:279-285). -/
def setInstantaneous (a : Auth) : Except Err Auth :=
  modProc (fun p => { p with outs := p.outs.map fun o => { o with inst := true } }) a

/-- `OutputProcessToSameBrick` (SettingsModel.cpp:295-303). -/
def outputToSameBrick (a : Auth) : Except Err Auth :=
  match a.brick with
  | none => .error .undefined
  | some i =>
    match a.str.unitBricks[i]? with
    | none => .error .undefined
    | some b => modProc (fun p => { p with outs := p.outs ++ [{ target := b.name, inst := true }] }) a

/-- Redirect the first output towards `cur`. -/
def redirect (cur new : String) : List Out → List Out
  | [] => []
  | o :: l => if o.target = cur then { o with target := new } :: l else o :: redirect cur new l

/-- `ChangeSplitterOutputTargetIfFound` (SettingsModel.cpp:401-412): nothing happens if there is no such output. -/
def changeTargetIfFound (cur new : String) (a : Auth) : Except Err Auth :=
  match a.split with
  | none => .error .undefined
  | some i => .ok { a with str := { a.str with
      unitSplits := a.str.unitSplits.modify i (fun s => { s with outs := redirect cur new s.outs }) } }

/-- `ChangeSplitterOutputTarget` (SettingsModel.cpp:387-399). -/
def changeTarget (cur new : String) (a : Auth) : Except Err Auth :=
  match a.split with
  | none => .error .undefined
  | some i =>
    match a.str.unitSplits[i]? with
    | none => .error .undefined
    | some s => if s.outs.any (fun o => o.target = cur) then changeTargetIfFound cur new a else .error .thrown

/-- `AddHydroUnitSplitter` (SettingsModel.cpp:305-314). -/
def addSplitter (name type : String) (a : Auth) : Auth :=
  { a with str := { a.str with unitSplits := a.str.unitSplits ++ [{ name := name, type := type }] },
           split := some a.str.unitSplits.length }

/-- `SelectHydroUnitBrick` by name (SettingsModel.cpp:683-694, 709-718). -/
def selectBrick (name : String) (a : Auth) : Except Err Auth :=
  match findIdx? (fun b : Brick => b.name == name) a.str.unitBricks with
  | some i => .ok { a with brick := some i, proc := none }
  | none => .error .thrown

/-- `GeneratePrecipitationSplitters` (SettingsModel.cpp:491-530), without parameters and forcing. -/
def genPrecipitation (withSnow : Bool) (type : String) (a : Auth) : Except Err Auth :=
  if withSnow then do
    let a1 := addSplitter "snow_rain_transition" type a
    let a2 ← addSplitterOutput "rain_splitter" .water a1
    let a3 ← addSplitterOutput "snow_splitter" .snow a2
    .ok (addSplitter "rain_splitter" "multi_fluxes" (addSplitter "snow_splitter" "multi_fluxes" a3))
  else do
    let a1 := addSplitter "rain" "rain" a
    let a2 ← addSplitterOutput "rain_splitter" .water a1
    .ok (addSplitter "rain_splitter" "multi_fluxes" a2)

/-- `GenerateCanopyInterception` (SettingsModel.cpp:414-431). -/
def genCanopy (cover throughfall : String) (a : Auth) : Except Err Auth := do
  let a1 := addSurface (cover ++ "_canopy") "interception_storage" a
  let a2 ← setParent cover a1
  let a3 ← addProcess "throughfall" "outflow:threshold" throughfall a2
  let a4 ← addProcess "interception_et" "et:open_water" "" a3
  let a5 ← selectSplitter "rain_splitter" a4
  changeTarget cover (cover ++ "_canopy") a5

/-- One pass of a loop over the land covers: `brickSettings` of the `i`-th unit brick. -/
def withCover (i : ℕ) (a : Auth) (f : Brick → Except Err Auth) : Except Err Auth :=
  match a.str.unitBricks[i]? with
  | none => .error .undefined
  | some b => f b

/-- The loop `for (int brickSettingsIndex : _selectedStructure->landCoverBricks)`. -/
def overCovers (f : Brick → Auth → Except Err Auth) (a : Auth) : Except Err Auth :=
  a.str.covers.foldlM (fun a i => withCover i a fun b => f b a) a

/-- The pass of `GenerateSnowpacks` (SettingsModel.cpp:535-544). -/
def snowpackPass (melt : String) (b : Brick) (a : Auth) : Except Err Auth := do
  let a1 ← selectSplitter "snow_splitter" a
  let a2 ← addSplitterOutput (b.name ++ "_snowpack") .snow a1
  let a3 ← setParent b.name (addSurface (b.name ++ "_snowpack") "snowpack" a2)
  addProcess "melt" melt b.name a3

/-- `GenerateSnowpacks` (SettingsModel.cpp:532-545). -/
def genSnowpacks (melt : String) (a : Auth) : Except Err Auth := overCovers (snowpackPass melt) a

/-- The pass of `GenerateSnowpacksWithWaterRetention` (SettingsModel.cpp:610-632). -/
def retentionPass (melt outflow : String) (rainToSnowpack : Bool) (b : Brick) (a : Auth) : Except Err Auth := do
  let a1 ← selectSplitter "snow_splitter" a
  let a2 ← addSplitterOutput (b.name ++ "_snowpack") .snow a1
  let a3 ← setParent b.name (addSurface (b.name ++ "_snowpack") "snowpack" a2)
  let a4 ← addProcess "melt" melt "" a3
  let a5 ← outputToSameBrick a4
  let a6 ← addProcess "meltwater" outflow "" a5
  let a7 ← addProcessOutput b.name .water a6
  if rainToSnowpack then do
    let a8 ← selectSplitter "rain_splitter" a7
    changeTargetIfFound b.name (b.name ++ "_snowpack") a8
  else .ok a7

/-- `GenerateSnowpacksWithWaterRetention` (SettingsModel.cpp:606-634). -/
def genSnowpacksRetention (melt outflow : String) (rainToSnowpack : Bool) (a : Auth) : Except Err Auth :=
  overCovers (retentionPass melt outflow rainToSnowpack) a

/-- `AddSnowIceTransformation` (SettingsModel.cpp:547-558). -/
def addSnowIce (type : String) (a : Auth) : Except Err Auth :=
  overCovers (fun b a => do
    let a1 ← selectBrick (b.name ++ "_snowpack") a
    if b.type = "glacier" then addProcess "snow_ice_transfo" type (b.name ++ ":ice") a1 else .ok a1) a

/-- `AddSnowRedistribution` (SettingsModel.cpp:560-572). -/
def addRedistribution (type : String) (skipGlaciers : Bool) (a : Auth) : Except Err Auth :=
  overCovers (fun b a =>
    if skipGlaciers && b.type == "glacier" then .ok a else do
      let a1 ← selectBrick (b.name ++ "_snowpack") a
      let a2 ← addProcess "snow_redistribution" type "lateral:snow" a1
      setInstantaneous a2) a

/-- `AddSnowpackRefreezing` (SettingsModel.cpp:574-590). -/
def addRefreezing (type : String) (a : Auth) : Except Err Auth :=
  overCovers (fun b a => do
    let a1 ← selectBrick (b.name ++ "_snowpack") a
    let a2 ← addProcess "refreeze" type (b.name ++ "_snowpack:snow") a1
    setInstantaneous a2) a

/-- `AddSnowpackSublimation` (SettingsModel.cpp:592-604). -/
def addSublimation (type : String) (a : Auth) : Except Err Auth :=
  overCovers (fun b a => do
    let a1 ← selectBrick (b.name ++ "_snowpack") a
    addProcess "sublimation" type "" a1) a

end HB.Wire
