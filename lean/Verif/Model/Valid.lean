import Verif.Model.Wiring
import Mathlib.Algebra.Order.Field.Basic

/-!
# Connecting forcings and checking the built model

Model of `ModelBuilder::BuildForcingConnections` (ModelBuilder.cpp:693-727) and the calls around it (ModelBuilder.cpp:183-191,
207-240), the forcings registered with each process (`RegisterProcessSettings`), the `AttachForcing` functions, the reading of
unit properties at creation, the validity checks of processes, splitters, bricks, units and sub-basin, and
`AttachTimeSeriesToHydroUnits` (ModelHydro.cpp:322-346).  Not modelled: parameter pointers (they are registered with the
process and a missing one throws, C59), unit conversion of properties (C51), land-cover fractions (C61, whose `partsOk` is the
check modelled here).
-/

namespace HB.Wire

open HB.Names

/-- Forcings `RegisterProcessSettings` adds for each process class (Process*.cpp, `AddProcessForcing`). -/
def autoForcing : ProcClass → List Var
  | .etSocont | .etGR4J | .etHBV | .etOpenWater | .etLinear | .etPowerLaw | .etExponential | .interceptionGR4J
  | .productionGR4J | .sublimationPET => [.pet]
  | .meltDegreeDay | .meltDegreeDayAspect | .meltCemaNeige | .refreezeDegreeDay | .snowFreyDynamic => [.temperature]
  | .meltTemperatureIndex => [.temperature, .radiation]
  | _ => []

/-- `AttachForcing` of each class: the types it keeps; any other throws, as does the default (Process.h:98-100). -/
def takes (pc : ProcClass) (v : Var) : Bool :=
  match pc with
  | .etSocont | .etGR4J | .etHBV | .etOpenWater | .etLinear | .etPowerLaw | .etExponential | .interceptionGR4J
  | .productionGR4J | .sublimationPET => v == .pet
  | .meltDegreeDay | .meltDegreeDayAspect | .meltCemaNeige | .refreezeDegreeDay | .snowFreyDynamic | .snowFrey => v == .temperature
  | .meltTemperatureIndex => v == .temperature || v == .radiation
  | _ => false

/-- `AttachForcing` of the splitters (Splitter*.cpp; the default throws, Splitter.h:75-77). -/
def splitTakes (sc : SplitClass) (v : Var) : Bool :=
  match sc with
  | .snowRainThreshold | .snowRainLinear => v == .precipitation || v == .temperature
  | .snowRainCemaNeige => v == .precipitation || v == .temperature || v == .temperatureMin || v == .temperatureMax
  | .rain => v == .precipitation
  | .multiFluxes => false

/-- What a unit brings besides its structure: forcings listed for its bricks, added to its processes (`AddProcessForcing`) and
listed for its splitters, by position; the properties its components read. -/
structure UnitX (K : Type) where
  brickF : ℕ → List Var
  procF : ℕ → ℕ → List Var
  splitF : ℕ → List Var
  slope : Bool
  aspect : Option String
  elevation : Option K

/-- Input of the whole initialisation: structures and units, and the extras of the `u`-th unit. -/
structure InputX (K : Type) where
  base : Input K
  ext : ℕ → UnitX K

/-- Aspect classes accepted by the aspect-related melt (ProcessMeltDegreeDayAspect.cpp:43-57). -/
def aspects : List String := ["north", "N", "south", "S", "east", "west", "E", "W"]

/-- Properties read at creation (`SetHydroUnitProperties`, `SetParameters`): a missing one throws. -/
def hasProps {K : Type} (x : UnitX K) : ProcClass → Bool
  | .runoffSocont | .snowSlide | .snowFrey | .snowFreyDynamic => x.slope
  | .meltDegreeDayAspect => match x.aspect with | some a => aspects.contains a | none => false
  | _ => true

/-- A loop threading the unit's forcings. -/
def chain {σ α : Type} (f : σ → α → Except Err σ) : List α → σ → Except Err σ
  | [], s => .ok s
  | a :: l, s => do
    let s' ← f s a
    chain f l s'

/-- `BuildForcingConnections` (ModelBuilder.cpp:693-727): the forcing is created in the unit if absent, then attached. -/
def attachForcings (keeps : Var → Bool) (vs fs : List Var) : Except Err (List Var) :=
  chain (fun fs v => if keeps v then .ok (if fs.contains v then fs else fs ++ [v]) else .error .thrown) vs fs

/-- The forcings listed for process `j` of brick `i`: registered with the process, then added. -/
def listed {K : Type} (x : UnitX K) (i j : ℕ) (pc : ProcClass) : List Var := autoForcing pc ++ x.procF i j

/-- `CreateHydroUnitBrick` (ModelBuilder.cpp:207-240), the part about properties and forcings. -/
def connectBrick {K : Type} (x : UnitX K) (fs : List Var) (e : ℕ × BuiltBrick) : Except Err (List Var) := do
  let fs ← attachForcings (fun _ => true) (x.brickF e.1) fs
  chain (fun fs (pj : ProcClass × ℕ) =>
    if hasProps x pj.1 then attachForcings (takes pj.1) (listed x e.1 pj.2 pj.1) fs else .error .thrown) e.2.procs.zipIdx fs

/-- The splitter loop (ModelBuilder.cpp:180-191); `SetHydroUnitProperties` reads the elevation
(SplitterSnowRainCemaNeige.cpp:50-52). -/
def connectSplit {K : Type} (x : UnitX K) (fs : List Var) (s : Split × ℕ) : Except Err (List Var) :=
  match buildSplitter s.1.type with
  | .ok sc => do
    let fs ← attachForcings (splitTakes sc) (x.splitF s.2) fs
    if sc = .snowRainCemaNeige ∧ x.elevation = none then .error .thrown else .ok fs
  | _ => .error .undefined

/-- The forcings of a unit after the first loop of `CreateHydroUnitsComponents` (ModelBuilder.cpp:152-195). -/
def connectUnit {K : Type} (x : UnitX K) (un : UnitIn K) (bu : BuiltUnit) : Except Err (List Var) := do
  let fs ← chain (connectBrick x) bu.bricks []
  chain (connectSplit x) un.str.unitSplits.zipIdx fs

/-- Sub-basin processes get no properties: the aspect-related melt throws (ModelBuilder.cpp:119-128). -/
def connectBasin {K : Type} (bt : Built K) : Except Err Unit :=
  if bt.basinBricks.all fun b => b.procs.all fun pc => pc != .meltDegreeDayAspect then .ok () else .error .thrown

section
variable {K : Type} [Field K] [LinearOrder K]

/-- The links of process `j` of a component. -/
def Model.linksAt (m : Model K) (c : Comp) (j : ℕ) : List Link := m.links.filter fun l => decide (l.src = c ∧ l.proc = j)

/-- The container of a process (Process.cpp:78-407). -/
def storeOf (pc : ProcClass) (cat : Category) : Option Store :=
  registry.findSome? fun e => if e.2.1 = pc then createOn e.2.2 cat else none

/-- What a process check looks at: class of the brick, its processes, number of outputs, links, attached forcings. -/
structure PView where
  brick : BrickClass
  procs : List ProcClass
  idx : ℕ
  cls : ProcClass
  outs : ℕ
  links : List Link
  forc : List Var

/-- `IsValid` of the process classes (Process*.cpp). -/
def procValid (v : PView) : Bool :=
  match v.cls with
  | .etSocont | .etGR4J | .etHBV | .etOpenWater | .etLinear | .etPowerLaw | .etExponential | .interceptionGR4J
  | .productionGR4J | .sublimationPET => v.outs == 1 && v.forc.contains .pet
  | .meltDegreeDay | .meltDegreeDayAspect | .meltCemaNeige => v.outs == 1 && v.forc.contains .temperature
  | .meltTemperatureIndex => v.outs == 1 && v.forc.contains .temperature && v.forc.contains .radiation
  | .refreezeDegreeDay => v.outs == 1 && v.forc.contains .temperature && v.procs.contains .meltDegreeDay
  | .infiltrationSocont | .infiltrationGR4J | .infiltrationHBV => v.outs == 1 && !v.links.isEmpty
  | .snowSlide | .snowFrey => true
  | .snowFreyDynamic => v.forc.contains .temperature
  | .capillaryHBV => !v.links.isEmpty && v.links.length == v.outs &&
      (decide (v.links.length ≤ 1) || v.links.all fun l => !l.covers.isEmpty)
  | .outflowDirect => v.outs == 1 && v.procs.zipIdx.all fun e =>
      e.2 == v.idx || storeOf e.1 (categoryOf v.brick) != storeOf v.cls (categoryOf v.brick)
  | .outflowSnowHolding => v.outs == 1 && v.brick == .snowpack
  | .outflowLinear | .percolationConstant | .percolationGR4J | .outflowRest | .outflowOverflow | .runoffSocont | .runoffHBV
  | .routingHBV | .outflowThreshold | .sublimationConstant | .snowToIceConstant | .snowToIceSwat | .routingGR4J | .routingGR6J =>
    v.outs == 1

/-- The container whose use is checked: ice of a glacier, snow of a snowpack, else water (Brick.cpp:70, Glacier.cpp:48,
Snowpack.cpp:36). -/
def mainStore : BrickClass → Store
  | .glacier => .ice
  | .snowpack => .snow
  | _ => .water

/-- What the check of process `j` of the brick at `c` sees. -/
def Model.view (m : Model K) (c : Comp) (bb : BuiltBrick) (forc : ℕ → ProcClass → List Var) (e : ProcClass × ℕ) : PView :=
  ⟨bb.cls, bb.procs, e.2, e.1, (m.net.outputs c e.2).length, m.linksAt c e.2, forc e.2 e.1⟩

/-- `IsValid(true)` of a brick (Brick.cpp:58-71, Glacier.cpp:47-65, Snowpack.cpp:35-52, WaterContainer.cpp:17-31). -/
def brickValid (m : Model K) (c : Comp) (bb : BuiltBrick) (forc : ℕ → ProcClass → List Var) : Bool :=
  !bb.procs.isEmpty && bb.procs.zipIdx.all (fun e => procValid (m.view c bb forc e)) &&
    bb.procs.any fun pc => storeOf pc (categoryOf bb.cls) == some (mainStore bb.cls)

/-- `IsValid` of the splitters (SplitterMultiFluxes.cpp:6-13, SplitterRain.cpp:8-15, SplitterSnowRain*.cpp): number of outputs,
forcings attached, elevation. -/
def splitValid (sc : SplitClass) (outs : ℕ) (forc : List Var) (elevation : Option K) : Bool :=
  match sc with
  | .multiFluxes => decide (outs ≠ 0)
  | .rain => outs == 1
  | .snowRainThreshold | .snowRainLinear => outs == 2
  | .snowRainCemaNeige => outs == 2 && forc.contains .precipitation && forc.contains .temperature &&
      match elevation with
      | none => false
      | some e => decide (1500 ≤ e) || (forc.contains .temperatureMin && forc.contains .temperatureMax)

/-- `HydroUnit::IsValid` (HydroUnit.cpp:285-324) up to the fractions (C61). -/
def unitValid (m : Model K) (u : ℕ) (x : UnitX K) (un : UnitIn K) (bu : BuiltUnit) : Bool :=
  bu.bricks.all (fun e => brickValid m (.unitBrick u e.1) e.2 (listed x e.1)) &&
    un.str.unitSplits.zipIdx.all (fun s =>
      match buildSplitter s.1.type with
      | .ok sc => splitValid sc (m.net.outputs (.unitSplit u s.2) 0).length (x.splitF s.2) x.elevation
      | _ => false) && decide (0 < un.area)

/-- `SubBasin::IsValid` (SubBasin.cpp:130-146): components of the sub-basin have no forcing. -/
def valid (xi : InputX K) (m : Model K) : Bool :=
  !xi.base.units.isEmpty &&
    (xi.base.units.zipIdx.all fun un =>
      match m.built.units[un.2]? with
      | some bu => unitValid m un.2 (xi.ext un.2) un.1 bu
      | none => false) &&
    (m.built.basinBricks.zipIdx.all fun b => brickValid m (.basinBrick b.2) b.1 fun _ _ => []) &&
    xi.base.basin.basinSplits.zipIdx.all fun s =>
      match buildSplitter s.1.type with
      | .ok sc => splitValid (K := K) sc (m.net.outputs (.basinSplit s.2) 0).length [] none
      | _ => false

/-- Building, connecting and checking (ModelHydro.cpp:36-67).  Simplifications: forcings are connected after all components
are created and wired (in the code unit by unit before the wiring), which only changes which failure comes first; the
forcings of the units are returned with the model. -/
def prepare (xi : InputX K) : Except Err (Model K × List (List Var)) := do
  let m ← build xi.base
  connectBasin m.built
  let fs ← createAll (fun un : UnitIn K × ℕ =>
    match m.built.units[un.2]? with
    | some bu => connectUnit (xi.ext un.2) un.1 bu
    | none => .error .undefined) xi.base.units.zipIdx
  if valid xi m then .ok (m, fs) else .error .thrown

/-! ### What a run reads -/

/-- The forcings whose pointer the law of a process follows (`GetRates`, `Finalize`); the dynamic redistribution tests the
pointer (ProcessLateralSnowRedistributionFrey.cpp:103), which it then follows when attached. -/
def procReads : ProcClass → List Var
  | .etSocont | .etGR4J | .etHBV | .etOpenWater | .etLinear | .etPowerLaw | .etExponential | .interceptionGR4J
  | .productionGR4J | .sublimationPET => [.pet]
  | .meltDegreeDay | .meltDegreeDayAspect | .meltCemaNeige | .refreezeDegreeDay | .snowFreyDynamic => [.temperature]
  | .meltTemperatureIndex => [.temperature, .radiation]
  | _ => []

/-- The forcings `Compute` of a splitter follows (Splitter*.cpp). -/
def splitReads (sc : SplitClass) (elevation : Option K) : List Var :=
  match sc with
  | .snowRainThreshold | .snowRainLinear => [.precipitation, .temperature]
  | .snowRainCemaNeige =>
    (match elevation with
    | some e => if 1500 ≤ e then [.temperature] else [.temperatureMin, .temperatureMax]
    | none => [.temperatureMin, .temperatureMax]) ++ [.precipitation]
  | .rain => [.precipitation]
  | .multiFluxes => []

/-- `AttachTimeSeriesToHydroUnits` (ModelHydro.cpp:322-346): the forcings of a unit that get data, series by series. -/
def withData (loaded : List Var) (fs : List Var) : List Var := fs.filter fun v => loaded.contains v

/-- Number of rates a process computes (`StoreRates`, ProcessLateralSnow*.cpp:85/155, ProcessCapillaryHBV.cpp:70). -/
def rateCount (v : PView) : ℕ :=
  match v.cls with
  | .snowSlide | .snowFrey | .snowFreyDynamic => v.outs
  | .capillaryHBV => v.links.length
  | _ => 1

/-- No null pointer is followed by the components of unit `u` in a step: the forcings a process or splitter follows were
attached to it and have data; a `SplitterMultiFluxes` has an input (SplitterMultiFluxes.cpp:35-40); and each process computes
as many rates as it has outputs (`Process::GetChangeRates`, Solver.cpp).  `fs` are the forcings of the unit. -/
structure Safe (xi : InputX K) (m : Model K) (u : ℕ) (un : UnitIn K) (bu : BuiltUnit) (fs loaded : List Var) : Prop where
  procs : ∀ e ∈ bu.bricks, ∀ j pc, e.2.procs[j]? = some pc →
    ∀ v ∈ procReads pc, v ∈ listed (xi.ext u) e.1 j pc ∧ v ∈ withData loaded fs
  rates : ∀ e ∈ bu.bricks, ∀ j pc, e.2.procs[j]? = some pc →
    rateCount (m.view (.unitBrick u e.1) e.2 (listed (xi.ext u) e.1) (pc, j)) = (m.net.outputs (.unitBrick u e.1) j).length
  splits : ∀ k s sc, un.str.unitSplits[k]? = some s → buildSplitter s.type = .ok sc →
    ∀ v ∈ splitReads sc (xi.ext u).elevation, v ∈ (xi.ext u).splitF k ∧ v ∈ withData loaded fs
  divided : ∀ k s, un.str.unitSplits[k]? = some s → buildSplitter s.type = .ok .multiFluxes →
    m.net.inputs (.unitSplit u k) ≠ []

/-- The forcings `GeneratePrecipitationSplitters` gives to the splitters it adds (SettingsModel.cpp:491-527). -/
def genForcings (withSnow : Bool) (splitter : String) : ℕ → List Var
  | 0 => if withSnow then [.precipitation, .temperature] ++
      (if splitter = "snow_rain:cemaneige" then [.temperatureMin, .temperatureMax] else []) else [.precipitation]
  | _ => []

end

end HB.Wire
