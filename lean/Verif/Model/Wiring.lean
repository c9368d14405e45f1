import Verif.Model.Author
import Mathlib.Algebra.Field.Defs

/-!
# Building the network

Model of `ModelBuilder`'s creation and wiring of components (ModelBuilder.cpp:98-239, 295-690) and of the name tables of
hydro units and sub-basin (HydroUnit.cpp:159-177, 232-245; SubBasin.cpp:150-170, 252-287).  Components are identified by
their position in the settings.  The attach functions push to vectors: what a function attaches is returned and appended.
Not modelled: parameters (C59), forcings, the container of the target brick a flux enters (C52 `attach` decides acceptance).
-/

namespace HB.Wire

open HB.Names

/-- A component of the built model: of the `u`-th unit or of the sub-basin, by its position in the settings. -/
inductive Comp
  | unitBrick (u i : ℕ) | basinBrick (i : ℕ) | unitSplit (u i : ℕ) | basinSplit (i : ℕ)
  deriving DecidableEq, Repr

/-- Where a flux goes. -/
inductive Dest | outlet | atmosphere | comp (c : Comp)
  deriving DecidableEq, Repr

/-- A flux object: process `proc` of component `src` (0 for a splitter) to `dst`.  `inst`: `FluxToBrickInstantaneous`;
`weighted`: `NeedsWeighting(true)`; `unitFrac`: `SetFractionUnitArea`, 1 by default; `share`: weight of a lateral flux. -/
structure Flux (K : Type) where
  src : Comp
  proc : ℕ
  dst : Dest
  content : Content
  inst : Bool
  static : Bool
  weighted : Bool
  unitFrac : K
  share : K
  deriving DecidableEq, Repr

/-- What has been attached: the `_outputs` of all processes and splitters in order of attachment, the input lists of the
components, the outlet list of the sub-basin. -/
structure Net (K : Type) where
  outs : List (Flux K)
  ins : List (Comp × Flux K)
  outlet : List (Flux K)
  deriving DecidableEq, Repr

/-- Nothing attached. -/
def Net.empty {K : Type} : Net K := ⟨[], [], []⟩

/-- One attachment after the other. -/
def Net.append {K : Type} (a b : Net K) : Net K := ⟨a.outs ++ b.outs, a.ins ++ b.ins, a.outlet ++ b.outlet⟩

/-- A loop whose passes attach fluxes or throw. -/
def concatM {α K : Type} (f : α → Except Err (Net K)) : List α → Except Err (Net K)
  | [] => .ok .empty
  | a :: l => do
    let d ← f a
    let r ← concatM f l
    .ok (d.append r)

/-- `ToAtmosphere()` (ProcessET.h:32, ProcessSublimation.h:46). -/
def toAtmosphere : ProcClass → Bool
  | .etSocont | .etGR4J | .etHBV | .etOpenWater | .etLinear | .etPowerLaw | .etExponential | .interceptionGR4J
  | .sublimationConstant | .sublimationPET => true
  | _ => false

/-- `IsLateralProcess()` (ProcessLateral.h:64). -/
def isLateral : ProcClass → Bool
  | .snowSlide | .snowFrey | .snowFreyDynamic => true
  | _ => false

/-- `NeedsTargetBrickLinking()` without `LinksMultipleTargets()` (ProcessInfiltration.h:22). -/
def linksOne : ProcClass → Bool
  | .infiltrationSocont | .infiltrationGR4J | .infiltrationHBV => true
  | _ => false

/-- `LinksMultipleTargets()` (ProcessCapillaryHBV.h:51-60). -/
def linksMany : ProcClass → Bool
  | .capillaryHBV => true
  | _ => false

/-- `CanHaveAreaFraction()` (LandCover.h:33, SurfaceComponent.h:17). -/
def canHaveFraction : BrickClass → Bool
  | .storage => false
  | _ => true

/-- `GetCategory()` as used by the process factory. -/
def categoryOf : BrickClass → Category
  | .snowpack => .snowpack
  | .glacier => .glacier
  | _ => .other

/-- A built brick. -/
structure BuiltBrick where
  name : String
  cls : BrickClass
  procs : List ProcClass
  deriving DecidableEq, Repr

/-- Outcome of a factory as seen by the builder. -/
def ofRes {α : Type} : Res α → Except Err α
  | .ok a => .ok a
  | .error => .error .thrown
  | .nullDeref => .error .undefined

/-- Creation of a list of things, stopping at the first failure. -/
def createAll {α β : Type} (f : α → Except Err β) : List α → Except Err (List β)
  | [] => .ok []
  | a :: l => do
    let b ← f a
    let r ← createAll f l
    .ok (b :: r)

/-- `CreateHydroUnitBrick` (ModelBuilder.cpp:207-240), the sub-basin loop 113-135. -/
def createBrick (b : Brick) : Except Err BuiltBrick := do
  let c ← ofRes (buildBrick b.type)
  let ps ← createAll (fun p : Proc => do
    let r ← ofRes (buildProcess p.type (categoryOf c))
    .ok r.1) b.procs
  .ok ⟨b.name, c, ps⟩

/-- Order of creation of the bricks of a unit (ModelBuilder.cpp:161-180): surface components, land covers, the others. -/
def creationOrder (s : Struct) : List ℕ :=
  s.surfaces ++ s.covers ++ (List.range s.unitBricks.length).filter fun i => !(s.surfaces.contains i) && !(s.covers.contains i)

/-- `_brickMap`/`_splitterMap` look-up: the position of the last added component of that name. -/
def lookupLast (name : String) : List (String × ℕ) → Option ℕ
  | [] => none
  | e :: l =>
    match lookupLast name l with
    | some i => some i
    | none => if e.1 = name then some e.2 else none

/-- A hydro unit to be built: its structure variant (`SelectStructure(unit->GetStructureId())`, C48), area and lateral
connections (receiver, fraction). -/
structure UnitIn (K : Type) where
  str : Struct
  area : K
  lateral : List (ℕ × K)

/-- Input of `BuildModelStructure`: structure 1 for the sub-basin, and the units. -/
structure Input (K : Type) where
  basin : Struct
  units : List (UnitIn K)

/-- A built unit: bricks and splitters in order of creation, with their position in the settings. -/
structure BuiltUnit where
  bricks : List (ℕ × BuiltBrick)
  splits : List String
  deriving DecidableEq, Repr

/-- Everything created before wiring. -/
structure Built (K : Type) where
  basinBricks : List BuiltBrick
  basinSplits : List String
  units : List BuiltUnit
  basinArea : K

/-- `unit->GetBrick(name)` as a position in the settings. -/
def BuiltUnit.find (b : BuiltUnit) (name : String) : Option ℕ :=
  lookupLast name (b.bricks.map fun e => (e.2.name, e.1))

/-- The brick at a position of the settings. -/
def BuiltUnit.get (b : BuiltUnit) (i : ℕ) : Option BuiltBrick := b.bricks.lookup i

/-- `unit->GetSplitter(name)`. -/
def BuiltUnit.findSplit (b : BuiltUnit) (name : String) : Option ℕ := lookupLast name b.splits.zipIdx

/-- `_subBasin->GetBrick(name)`. -/
def Built.find {K : Type} (b : Built K) (name : String) : Option ℕ :=
  lookupLast name (b.basinBricks.map (·.name)).zipIdx

/-- `_subBasin->GetSplitter(name)`. -/
def Built.findSplit {K : Type} (b : Built K) (name : String) : Option ℕ := lookupLast name b.basinSplits.zipIdx

/-- Creation of the splitters. -/
def createSplit (s : Split) : Except Err String := do
  let _ ← ofRes (buildSplitter s.type)
  .ok s.name

/-- `surfaceComponentBrick->SetParent(…)` for every surface component (ModelBuilder.cpp:295-306): both names must exist. -/
def linkParents (s : Struct) (b : BuiltUnit) : Except Err Unit :=
  if s.surfaces.all fun i =>
      match s.unitBricks[i]? with
      | none => false
      | some br => br.parent = "" || ((b.find br.name).isSome && (b.find br.parent).isSome)
  then .ok () else .error .thrown

/-- First loop of `CreateHydroUnitsComponents` (ModelBuilder.cpp:152-195). -/
def createUnit {K : Type} (u : UnitIn K) : Except Err BuiltUnit := do
  let bs ← createAll (fun i =>
    match u.str.unitBricks[i]? with
    | none => .error .undefined
    | some b => do
      let r ← createBrick b
      .ok (i, r)) (creationOrder u.str)
  let ss ← createAll createSplit u.str.unitSplits
  let bu : BuiltUnit := ⟨bs, ss⟩
  linkParents u.str bu
  .ok bu

section
variable {K : Type} [Field K]

/-- Creation of all components (ModelBuilder.cpp:109-195). -/
def create (inp : Input K) : Except Err (Built K) := do
  let bb ← createAll createBrick inp.basin.basinBricks
  let bs ← createAll createSplit inp.basin.basinSplits
  let us ← createAll createUnit inp.units
  .ok ⟨bb, bs, us, (inp.units.map (·.area)).sum⟩

/-- `targetBrick->AttachFluxIn(flux)` followed by `AttachFluxOut` (Brick.cpp:86-93, Snowpack.cpp:23-33, Glacier.cpp:35-45). -/
def toBrick (cls : BrickClass) (c : Comp) (f : Flux K) : Except Err (Net K) :=
  if attach (.brick cls) f.content then .ok ⟨[f], [(c, f)], []⟩ else .error .thrown

/-- `targetSplitter->AttachFluxIn(flux)` followed by `AttachFluxOut`. -/
def toSplitter (c : Comp) (f : Flux K) : Except Err (Net K) := .ok ⟨[f], [(c, f)], []⟩

/-- `_subBasin->AttachOutletFlux(flux)` followed by `AttachFluxOut`. -/
def toOutlet (f : Flux K) : Except Err (Net K) := .ok ⟨[f], [], [f]⟩

/-- Target brick of a unit component: the unit's own brick of that name, else the sub-basin's
(ModelBuilder.cpp:507-515, 632-641). -/
def brickTarget (bt : Built K) (u : ℕ) (bu : BuiltUnit) (name : String) : Option (Comp × BrickClass × Bool) :=
  match bu.find name with
  | some i => (bu.get i).map fun b => (.unitBrick u i, b.cls, false)
  | none =>
    match bt.find name with
    | some i => bt.basinBricks[i]?.map fun b => (.basinBrick i, b.cls, true)
    | none => none

/-- Target splitter of a unit component (ModelBuilder.cpp:548-557, 655-664). -/
def splitTarget (bt : Built K) (u : ℕ) (bu : BuiltUnit) (name : String) : Option (Comp × Bool) :=
  match bu.findSplit name with
  | some i => some (.unitSplit u i, false)
  | none =>
    match bt.findSplit name with
    | some i => some (.basinSplit i, true)
    | none => none

/-- `unit->GetArea() / _subBasin->GetArea()` if the flux leaves the unit. -/
def unitFraction (bt : Built K) (un : UnitIn K) (leaves : Bool) : K := if leaves then un.area / bt.basinArea else 1

/-- The snowpacks of a unit (HydroUnit.h:219-228). -/
def BuiltUnit.snowpacks (b : BuiltUnit) : List ℕ := (b.bricks.filter fun e => e.2.cls == .snowpack).map (·.1)

/-- The branch "lateral" (ModelBuilder.cpp:476-503). -/
def wireLateral (bt : Built K) (un : UnitIn K) (src : Comp) (j : ℕ) (p : ProcClass) (o : Out) : Except Err (Net K) :=
  concatM (fun cn : ℕ × K =>
    match bt.units[cn.1]? with
    | none => .error .undefined
    | some rcv =>
      if o.content = .snow then
        concatM (fun i => if isLateral p then
            toBrick .snowpack (.unitBrick cn.1 i)
              ⟨src, j, .comp (.unitBrick cn.1 i), o.content, o.inst, o.static, true, 1, cn.2⟩
          else .error .undefined) rcv.snowpacks
      else .error .thrown) un.lateral

/-- One output of a process of a unit brick (ModelBuilder.cpp:463-576). -/
def wireUnitOut (bt : Built K) (u : ℕ) (un : UnitIn K) (bu : BuiltUnit) (cls : BrickClass) (src : Comp) (j : ℕ)
    (p : ProcClass) (o : Out) : Except Err (Net K) :=
  if o.target = "outlet" then
    toOutlet ⟨src, j, .outlet, o.content, false, true, canHaveFraction cls, unitFraction bt un true, 1⟩
  else if o.target = "lateral" then wireLateral bt un src j p o
  else
    match brickTarget bt u bu o.target with
    | some (c, tcls, out) =>
      toBrick tcls c ⟨src, j, .comp c, o.content, o.inst, out || o.static, canHaveFraction cls && !canHaveFraction tcls,
        unitFraction bt un out, 1⟩
    | none =>
      match splitTarget bt u bu o.target with
      | some (c, out) =>
        toSplitter c ⟨src, j, .comp c, o.content, false, true, canHaveFraction cls, unitFraction bt un out, 1⟩
      | none => .error .thrown

/-- A process of a unit brick (ModelBuilder.cpp:451-577): a process to the atmosphere gets one flux and its declared
outputs are skipped.  `brick->GetProcess(iProcess)` beyond the end is undefined. -/
def wireUnitProc (bt : Built K) (u : ℕ) (un : UnitIn K) (bu : BuiltUnit) (i : ℕ) (bb : BuiltBrick) (j : ℕ) (p : Proc) :
    Except Err (Net K) :=
  match bb.procs[j]? with
  | none => .error .undefined
  | some pc =>
    if toAtmosphere pc then
      .ok ⟨[⟨.unitBrick u i, j, .atmosphere, .water, false, false, false, 1, 1⟩], [], []⟩
    else concatM (wireUnitOut bt u un bu bb.cls (.unitBrick u i) j pc) p.outs

/-- `BuildHydroUnitBricksFluxes` (ModelBuilder.cpp:447-580). -/
def wireUnitBricks (bt : Built K) (u : ℕ) (un : UnitIn K) (bu : BuiltUnit) : Except Err (Net K) :=
  concatM (fun b : Brick =>
    match bu.find b.name with
    | none => .error .thrown
    | some i =>
      match bu.get i with
      | none => .error .undefined
      | some bb => concatM (fun pj : Proc × ℕ => wireUnitProc bt u un bu i bb pj.2 pj.1) b.procs.zipIdx) un.str.unitBricks

/-- One output of a splitter of a unit (ModelBuilder.cpp:621-685). -/
def wireUnitSplitOut (bt : Built K) (u : ℕ) (un : UnitIn K) (bu : BuiltUnit) (src : Comp) (o : Out) : Except Err (Net K) :=
  if o.target = "outlet" then toOutlet ⟨src, 0, .outlet, o.content, false, false, false, unitFraction bt un true, 1⟩
  else
    match brickTarget bt u bu o.target with
    | some (c, tcls, out) => toBrick tcls c ⟨src, 0, .comp c, o.content, false, true, false, unitFraction bt un out, 1⟩
    | none =>
      match splitTarget bt u bu o.target with
      | some (c, out) => toSplitter c ⟨src, 0, .comp c, o.content, false, true, false, unitFraction bt un out, 1⟩
      | none => .error .thrown

/-- `BuildHydroUnitSplittersFluxes` (ModelBuilder.cpp:613-690). -/
def wireUnitSplits (bt : Built K) (u : ℕ) (un : UnitIn K) (bu : BuiltUnit) : Except Err (Net K) :=
  concatM (fun si : Split × ℕ => concatM (wireUnitSplitOut bt u un bu (.unitSplit u si.2)) si.1.outs) un.str.unitSplits.zipIdx

/-- One output of a process of a sub-basin brick (ModelBuilder.cpp:409-442). -/
def wireBasinOut (bt : Built K) (src : Comp) (j : ℕ) (o : Out) : Except Err (Net K) :=
  if o.target = "outlet" then toOutlet ⟨src, j, .outlet, o.content, false, false, false, 1, 1⟩
  else
    match bt.find o.target with
    | some i =>
      (match bt.basinBricks[i]? with
      | none => .error .undefined
      | some tb => toBrick tb.cls (.basinBrick i) ⟨src, j, .comp (.basinBrick i), o.content, o.inst, false, false, 1, 1⟩)
    | none =>
      match bt.findSplit o.target with
      | some i => toSplitter (.basinSplit i) ⟨src, j, .comp (.basinSplit i), o.content, false, true, false, 1, 1⟩
      | none => .error .thrown

/-- `BuildSubBasinBricksFluxes` (ModelBuilder.cpp:393-446). -/
def wireBasinBricks (inp : Input K) (bt : Built K) : Except Err (Net K) :=
  concatM (fun bi : Brick × ℕ =>
    match bt.basinBricks[bi.2]? with
    | none => .error .undefined
    | some bb => concatM (fun pj : Proc × ℕ =>
        match bb.procs[pj.2]? with
        | none => .error .undefined
        | some pc =>
          if toAtmosphere pc then
            .ok ⟨[⟨.basinBrick bi.2, pj.2, .atmosphere, .water, false, false, false, 1, 1⟩], [], []⟩
          else concatM (wireBasinOut bt (.basinBrick bi.2) pj.2) pj.1.outs) bi.1.procs.zipIdx) inp.basin.basinBricks.zipIdx

/-- One output of a splitter of the sub-basin (ModelBuilder.cpp:589-608). -/
def wireBasinSplitOut (bt : Built K) (src : Comp) (o : Out) : Except Err (Net K) :=
  if o.target = "outlet" then toOutlet ⟨src, 0, .outlet, o.content, false, false, false, 1, 1⟩
  else
    match bt.find o.target with
    | some i =>
      (match bt.basinBricks[i]? with
      | none => .error .undefined
      | some tb => toBrick tb.cls (.basinBrick i) ⟨src, 0, .comp (.basinBrick i), o.content, false, true, false, 1, 1⟩)
    | none =>
      match bt.findSplit o.target with
      | some i => toSplitter (.basinSplit i) ⟨src, 0, .comp (.basinSplit i), o.content, false, true, false, 1, 1⟩
      | none => .error .thrown

/-- `BuildSubBasinSplittersFluxes` (ModelBuilder.cpp:582-611). -/
def wireBasinSplits (inp : Input K) (bt : Built K) : Except Err (Net K) :=
  concatM (fun si : Split × ℕ => concatM (wireBasinSplitOut bt (.basinSplit si.2)) si.1.outs) inp.basin.basinSplits.zipIdx

/-- A linked target: process `proc` of `src` reads the state of `target`; `covers`: the bricks whose extents weight it. -/
structure Link where
  src : Comp
  proc : ℕ
  target : Comp
  covers : List ℕ
  deriving DecidableEq, Repr

/-- `FindLandCoversFeeding` (ModelBuilder.cpp:365-391), keeping the land covers (ProcessCapillaryHBV.cpp:17-28): once per
output towards the target. -/
def coversFeeding (un : UnitIn K) (bu : BuiltUnit) (target : String) : List ℕ :=
  un.str.unitBricks.flatMap fun b =>
    match bu.find b.name with
    | none => []
    | some i =>
      match bu.get i with
      | none => []
      | some bb =>
        if bb.cls = .genericLandCover ∨ bb.cls = .glacier then
          b.procs.flatMap fun p => p.outs.flatMap fun o => if o.target = target then [i] else []
        else []

/-- The linking of one process of a unit (ModelBuilder.cpp:337-360). -/
def linkUnitProc (bt : Built K) (u : ℕ) (un : UnitIn K) (bu : BuiltUnit) (i j : ℕ) (pc : ProcClass) (p : Proc) :
    Except Err (List Link) :=
  if linksMany pc then
    createAll (fun o : Out =>
      match brickTarget bt u bu o.target with
      | some (c, _, _) => .ok ⟨.unitBrick u i, j, c, coversFeeding un bu o.target⟩
      | none => .error .thrown) p.outs
  else if linksOne pc then
    match p.outs with
    | [o] =>
      (match brickTarget bt u bu o.target with
      | some (c, _, _) => .ok [⟨.unitBrick u i, j, c, []⟩]
      | none => .error .thrown)
    | _ => .error .thrown
  else .ok []

/-- `LinkHydroUnitProcessesTargetBricks` (ModelBuilder.cpp:328-363). -/
def linkUnit (bt : Built K) (u : ℕ) (un : UnitIn K) (bu : BuiltUnit) : Except Err (List Link) := do
  let l ← createAll (fun b : Brick =>
    match bu.find b.name with
    | none => .error .thrown
    | some i =>
      match bu.get i with
      | none => .error .undefined
      | some bb => do
        let l ← createAll (fun pj : Proc × ℕ =>
          match bb.procs[pj.2]? with
          | none => .error .undefined
          | some pc => linkUnitProc bt u un bu i pj.2 pc pj.1) b.procs.zipIdx
        .ok l.flatten) un.str.unitBricks
  .ok l.flatten

/-- `LinkSubBasinProcessesTargetBricks` (ModelBuilder.cpp:308-326): a capillary process refuses the single target it is
given (Process.h:251-253). -/
def linkBasin (inp : Input K) (bt : Built K) : Except Err (List Link) := do
  let l ← createAll (fun bi : Brick × ℕ =>
    match bt.basinBricks[bi.2]? with
    | none => .error .undefined
    | some bb => do
      let l ← createAll (fun pj : Proc × ℕ =>
        match bb.procs[pj.2]? with
        | none => .error .undefined
        | some pc =>
          if linksMany pc then .error .thrown
          else if linksOne pc then
            match pj.1.outs with
            | [o] =>
              (match bt.find o.target with
              | some t => .ok [⟨.basinBrick bi.2, pj.2, .basinBrick t, []⟩]
              | none => .error .thrown)
            | _ => .error .thrown
          else .ok []) bi.1.procs.zipIdx
      .ok l.flatten) inp.basin.basinBricks.zipIdx
  .ok l.flatten

/-- The built model: components, fluxes, links. -/
structure Model (K : Type) where
  built : Built K
  net : Net K
  links : List Link

/-- Second loop of `CreateHydroUnitsComponents` (ModelBuilder.cpp:197-203), one unit. -/
def wireUnit (bt : Built K) (u : ℕ) (un : UnitIn K) : Except Err (List Link × Net K) :=
  match bt.units[u]? with
  | none => .error .undefined
  | some bu => do
    let l ← linkUnit bt u un bu
    let a ← wireUnitBricks bt u un bu
    let b ← wireUnitSplits bt u un bu
    .ok (l, a.append b)

/-- `BuildModelStructure` (ModelBuilder.cpp:98-107).  Simplification: the sub-basin is wired after the units are created
(in the code before, ModelBuilder.cpp:146-148), which only changes which failure is reported first. -/
def build (inp : Input K) : Except Err (Model K) := do
  let bt ← create inp
  let lb ← linkBasin inp bt
  let nb ← wireBasinBricks inp bt
  let ns ← wireBasinSplits inp bt
  let us ← createAll (fun ui : UnitIn K × ℕ => wireUnit bt ui.2 ui.1) inp.units.zipIdx
  .ok ⟨bt, (nb.append ns).append (us.foldr (fun x r => x.2.append r) .empty), lb ++ (us.map (·.1)).flatten⟩

/-- The outputs of process `j` of a component, in order. -/
def Net.outputs (n : Net K) (c : Comp) (j : ℕ) : List (Flux K) := n.outs.filter fun f => decide (f.src = c ∧ f.proc = j)

/-- The inputs of a component, in order of attachment. -/
def Net.inputs (n : Net K) (c : Comp) : List (Flux K) := (n.ins.filter fun e => decide (e.1 = c)).map (·.2)

end

end HB.Wire
