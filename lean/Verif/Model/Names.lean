import Mathlib.Data.List.Basic
import Mathlib.Data.List.Nodup

/-!
# Names of components

Model of the factories: solvers (Solver.cpp:42-64), processes (Process.cpp:60-443), splitters (Splitter.cpp:16-77), bricks
(BrickTypes.cpp:7-19, Brick.cpp:20-45), content types (ContentTypes.cpp:6-15), forcing variables (TimeSeries.cpp:132-157,
SettingsModel.cpp:154-169, 247-268, 357-376), and what `ModelBuilder` does with their result (ModelBuilder.cpp:113-147,
185-240, 394-560).  Hash maps with distinct keys are association lists.
-/

namespace HB.Names

/-- What happens to a request: a component, an exception, or a null pointer that is dereferenced (undefined). -/
inductive Res (α : Type) where
  | ok (a : α)
  | error
  | nullDeref
  deriving DecidableEq, Repr

/-- Solver classes (Solver.cpp:46-56). -/
inductive SolverClass | rk4 | eulerExplicit | heunExplicit | analyticLinear | implicitEuler | crankNicolson | exponentialEuler
  deriving DecidableEq, Repr

/-- `factoryMap` (Solver.cpp:45-56). -/
def solverMap : List (String × SolverClass) :=
  [("rk4", .rk4), ("runge_kutta", .rk4), ("euler_explicit", .eulerExplicit), ("heun_explicit", .heunExplicit),
   ("analytic_linear", .analyticLinear), ("analytic", .analyticLinear), ("implicit_euler", .implicitEuler),
   ("euler_implicit", .implicitEuler), ("crank_nicolson", .crankNicolson), ("trapezoidal", .crankNicolson),
   ("exponential_euler", .exponentialEuler)]

/-- `Solver::Factory` (Solver.cpp:42-64). -/
def solverFactory (s : String) : Res SolverClass :=
  match solverMap.lookup s with
  | some c => .ok c
  | none => .error

/-- Process classes (Process.cpp:81-403); the dynamic variant of the Frey redistribution counts as a class. -/
inductive ProcClass
  | outflowLinear | percolationConstant | percolationGR4J | outflowDirect | outflowRest | outflowOverflow |
  runoffSocont | infiltrationSocont | infiltrationGR4J | infiltrationHBV | runoffHBV | capillaryHBV | routingHBV
  | outflowSnowHolding | outflowThreshold | refreezeDegreeDay | productionGR4J | etSocont | etGR4J | etHBV |
  etOpenWater | etLinear | etPowerLaw | etExponential | meltDegreeDay | meltDegreeDayAspect |
  meltTemperatureIndex | meltCemaNeige | sublimationConstant | sublimationPET | snowToIceConstant |
  snowToIceSwat | snowSlide | snowFrey | snowFreyDynamic | interceptionGR4J | routingGR4J | routingGR6J
  deriving DecidableEq, Repr

/-- The brick category a process can be created on. -/
inductive Needs | water | snowOrIce | snowOnly
  deriving DecidableEq, Repr

/-- `GetProcessRegistry` (Process.cpp:78-407). -/
def registry : List (String × ProcClass × Needs) :=
  [("outflow:linear", .outflowLinear, .water),
   ("percolation:constant", .percolationConstant, .water),
   ("percolation:gr4j", .percolationGR4J, .water),
   ("outflow:direct", .outflowDirect, .water),
   ("outflow:rest", .outflowRest, .water),
   ("outflow:overflow", .outflowOverflow, .water),
   ("runoff:socont", .runoffSocont, .water),
   ("infiltration:socont", .infiltrationSocont, .water),
   ("infiltration:gr4j", .infiltrationGR4J, .water),
   ("infiltration:hbv", .infiltrationHBV, .water),
   ("runoff:hbv", .runoffHBV, .water),
   ("capillary:hbv", .capillaryHBV, .water),
   ("routing:hbv", .routingHBV, .water),
   ("outflow:snow_holding", .outflowSnowHolding, .water),
   ("outflow:threshold", .outflowThreshold, .water),
   ("refreeze:degree_day", .refreezeDegreeDay, .water),
   ("production:gr4j", .productionGR4J, .water),
   ("et:socont", .etSocont, .water),
   ("et:gr4j", .etGR4J, .water),
   ("et:hbv", .etHBV, .water),
   ("et:open_water", .etOpenWater, .water),
   ("et:linear", .etLinear, .water),
   ("et:power_law", .etPowerLaw, .water),
   ("et:exponential", .etExponential, .water),
   ("melt:degree_day", .meltDegreeDay, .snowOrIce),
   ("melt:degree_day_aspect", .meltDegreeDayAspect, .snowOrIce),
   ("melt:temperature_index", .meltTemperatureIndex, .snowOrIce),
   ("melt:cemaneige", .meltCemaNeige, .snowOnly),
   ("sublimation:constant", .sublimationConstant, .snowOnly),
   ("sublimation:pet", .sublimationPET, .snowOnly),
   ("transformation:snow_ice_constant", .snowToIceConstant, .snowOnly),
   ("transformation:snow_ice_swat", .snowToIceSwat, .snowOnly),
   ("transport:snow_slide", .snowSlide, .snowOnly),
   ("transport:snow_redistribution_frey", .snowFrey, .snowOnly),
   ("transport:snow_redistribution_frey_dynamic", .snowFreyDynamic, .snowOnly),
   ("interception:gr4j", .interceptionGR4J, .water),
   ("routing:gr4j", .routingGR4J, .water),
   ("routing:gr6j", .routingGR6J, .water)]

/-- `GetProcessAliases` (Process.cpp:61-69). -/
def aliases : List (String × String) :=
  [("outflow:percolation", "percolation:constant"), ("overflow", "outflow:overflow"),
   ("transform:snow_ice_constant", "transformation:snow_ice_constant"),
   ("transform:snow_ice_swat", "transformation:snow_ice_swat")]

/-- `ResolveAlias` (Process.cpp:71-75). -/
def resolveAlias (s : String) : String := (aliases.lookup s).getD s

/-- `BrickCategory` (Brick.h:15). -/
inductive Category | snowpack | glacier | other
  deriving DecidableEq, Repr

/-- The container a process works on. -/
inductive Store | water | snow | ice
  deriving DecidableEq, Repr

/-- The lambda of a registry entry (Process.cpp:81-403). -/
def createOn (n : Needs) (c : Category) : Option Store :=
  match n, c with
  | .water, _ => some .water
  | .snowOrIce, .snowpack => some .snow
  | .snowOrIce, .glacier => some .ice
  | .snowOnly, .snowpack => some .snow
  | _, _ => none

/-- `Process::Factory` (Process.cpp:424-432). -/
def processFactory (s : String) (c : Category) : Res (ProcClass × Store) :=
  match registry.lookup (resolveAlias s) with
  | some e => (match createOn e.2 c with
    | some st => .ok (e.1, st)
    | none => .error)
  | none => .error

/-- `Process::RegisterSettings` (Process.cpp:434-443): whose parameters and forcing are registered. -/
def registerSettings (s : String) : Res ProcClass :=
  match registry.lookup (resolveAlias s) with
  | some e => .ok e.1
  | none => .error

/-- Process creation in `ModelBuilder` (ModelBuilder.cpp:123-132, 226-236): the component and whether it is linked as the
overflow of its container, which is decided on the name as given. -/
def buildProcess (s : String) (c : Category) : Res (ProcClass × Store × Bool) :=
  match processFactory s c with
  | .ok p => .ok (p.1, p.2, s == "overflow")
  | .error => .error
  | .nullDeref => .nullDeref

/-- Splitters (Splitter.cpp:21-52). -/
inductive SplitClass | snowRainThreshold | snowRainLinear | snowRainCemaNeige | rain | multiFluxes
  deriving DecidableEq, Repr

/-- `GetSplitterRegistry` (Splitter.cpp:21-52). -/
def splitterMap : List (String × SplitClass) :=
  [("snow_rain:threshold", .snowRainThreshold), ("snow_rain:linear", .snowRainLinear),
   ("snow_rain:cemaneige", .snowRainCemaNeige), ("rain", .rain), ("multi_fluxes", .multiFluxes)]

/-- `Splitter::Factory` (Splitter.cpp:69-77), its result used without a check (ModelBuilder.cpp:140-144, 185-190). -/
def buildSplitter (s : String) : Res SplitClass :=
  match splitterMap.lookup s with
  | some c => .ok c
  | none => .nullDeref

/-- Brick types (BrickTypes.h). -/
inductive BrickClass | storage | genericLandCover | glacier | snowpack | interceptionStorage
  deriving DecidableEq, Repr

/-- `typeMap` (BrickTypes.cpp:8-12). -/
def brickMap : List (String × BrickClass) :=
  [("storage", .storage), ("generic_land_cover", .genericLandCover), ("ground", .genericLandCover),
   ("generic", .genericLandCover), ("open", .genericLandCover), ("glacier", .glacier), ("snowpack", .snowpack),
   ("interception_storage", .interceptionStorage)]

/-- `Brick::Factory` (Brick.cpp:20-45), its result used without a check (ModelBuilder.cpp:113-117, 211-215). -/
def buildBrick (s : String) : Res BrickClass :=
  match brickMap.lookup s with
  | some c => .ok c
  | none => .nullDeref

/-- Content types (ContentTypes.h). -/
inductive Content | water | snow | ice | unknown
  deriving DecidableEq, Repr

/-- `ContentTypeFromString` (ContentTypes.cpp:6-15). -/
def contentOf (s : String) : Content := ([("water", Content.water), ("snow", .snow), ("ice", .ice)].lookup s).getD .unknown

/-- The target given to `AddBrickProcess` (SettingsModel.cpp:184-194): target name and flux type (water by default). -/
def parseTarget (t : String) : String × Content :=
  let cs := t.toList
  if ':' ∈ cs then
    (String.ofList (cs.takeWhile (· ≠ ':')), contentOf (String.ofList ((cs.dropWhile (· ≠ ':')).tail)))
  else (t, .water)

/-- What a flux can point to. -/
inductive Target | outlet | brick (c : BrickClass) | splitter
  deriving DecidableEq, Repr

/-- Attaching a flux of a content type (ModelBuilder.cpp:414-446, 468-560; Brick.cpp:86-93; Snowpack.cpp:23-33;
Glacier.cpp:35-45): is it accepted?  The outlet and the splitters take anything. -/
def attach (t : Target) (c : Content) : Bool :=
  match t with
  | .outlet => true
  | .splitter => true
  | .brick .snowpack => c == .snow || c == .water
  | .brick .glacier => c == .ice || c == .water
  | .brick _ => c == .water

/-- Forcing variables (Includes: `VariableType`). -/
inductive Var | precipitation | temperature | temperatureMin | temperatureMax | radiation | pet | custom1 | custom2 | custom3
  deriving DecidableEq, Repr

/-- `std::toupper` on one character in the C locale. -/
def upperCode (c : Char) : ℕ := if 97 ≤ c.toNat ∧ c.toNat ≤ 122 then c.toNat - 32 else c.toNat

/-- `StringsMatch` (Utils.cpp:119-128). -/
def stringsMatch (a b : String) : Bool :=
  a.toList.length == b.toList.length &&
    (a.toList.zip b.toList).all fun p => p.1 == p.2 || upperCode p.1 == upperCode p.2

/-- The tests of `MatchVariableType` in order (TimeSeries.cpp:134-152). -/
def variableTests : List (String × Var) :=
  [("precipitation", .precipitation), ("p", .precipitation), ("temperature", .temperature), ("t", .temperature),
   ("temperature_min", .temperatureMin), ("t_min", .temperatureMin), ("temperature_max", .temperatureMax),
   ("t_max", .temperatureMax), ("solar_radiation", .radiation), ("r_solar", .radiation), ("r", .radiation),
   ("pet", .pet), ("etp", .pet), ("custom_1", .custom1), ("custom_2", .custom2), ("custom_3", .custom3)]

/-- `TimeSeries::MatchVariableType` (TimeSeries.cpp:132-157). -/
def matchVariable (s : String) : Res Var :=
  match variableTests.find? fun e => stringsMatch s e.1 with
  | some e => .ok e.2
  | none => .error

/-- `AddBrickForcing` (SettingsModel.cpp:154-169). -/
def brickForcing (s : String) : Res Var :=
  if s = "precipitation" then .ok .precipitation
  else if s = "temperature" then .ok .temperature
  else if s = "solar_radiation" ∨ s = "r_solar" then .ok .radiation
  else .error

/-- `AddProcessForcing` (SettingsModel.cpp:247-268). -/
def processForcing (s : String) : Res Var :=
  if s = "precipitation" then .ok .precipitation
  else if s = "pet" then .ok .pet
  else if s = "temperature" then .ok .temperature
  else if s = "temperature_min" then .ok .temperatureMin
  else if s = "temperature_max" then .ok .temperatureMax
  else if s = "solar_radiation" ∨ s = "r_solar" then .ok .radiation
  else .error

/-- `AddSplitterForcing` (SettingsModel.cpp:357-376). -/
def splitterForcing (s : String) : Res Var :=
  if s = "precipitation" then .ok .precipitation
  else if s = "temperature" then .ok .temperature
  else if s = "temperature_min" then .ok .temperatureMin
  else if s = "temperature_max" then .ok .temperatureMax
  else if s = "solar_radiation" ∨ s = "r_solar" then .ok .radiation
  else .error

end HB.Names
