import Verif.Model.Settings
import Verif.Model.Names

/-!
# How built components read their parameters

Model of `SetParameters` of bricks, processes and splitters, of the calls made while building
(ModelBuilder.cpp:99-240) and of `ModelHydro::UpdateParameters` (ModelHydro.cpp:76-84, ModelBuilder.cpp:242-293).
Components do not copy parameter values: they keep pointers to the `Parameter` objects of the settings they were given.  A
pointer is modelled by the place of that object: which settings object, which structure variant, which component, which
position in its parameter list.  The fluxes, links and forcings made at the same time are in `Model/Wiring.lean`.
Values have any type `V` (floats in the code).
-/

set_option linter.unusedSectionVars false

namespace HB.Par
open HB.Names

/-- A component inside a variant. -/
inductive Place
  | unitBrick (i : ℕ) | unitProc (i j : ℕ) | unitSplit (i : ℕ) | basinBrick (i : ℕ) | basinProc (i j : ℕ) | basinSplit (i : ℕ)
  deriving DecidableEq, Repr

/-- Address of a `Parameter` object: settings object, variant, component, position in the parameter list. -/
structure Addr where
  obj : ℕ
  variant : ℕ
  place : Place
  param : ℕ
  deriving DecidableEq, Repr

/-- A `const float*` member: null, `&_unitValue` (Splitter.cpp:98, Splitter.h:142) or a settings parameter. -/
inductive Tgt | null | one | cell (a : Addr)
  deriving DecidableEq, Repr

/-- What `SetParameters` does when the parameter is not there. -/
inductive Otherwise | throw | keep | one
  deriving DecidableEq, Repr

/-- A pointer member of a component: the parameter names it is looked up under, in this order. -/
structure Need where
  names : List String
  other : Otherwise
  deriving DecidableEq, Repr

/-- `GetParameterValuePointer` (Process.cpp:469-478, Brick.cpp:107-118, Splitter.cpp:79-88). -/
def req (n : String) : Need := ⟨[n], .throw⟩
/-- `GetParameterValuePointerOrUnit` (Splitter.cpp:90-99). -/
def orOne (n : String) : Need := ⟨[n], .one⟩
/-- `if (HasParameter(…)) …` without `else`. -/
def optional (n : String) : Need := ⟨[n], .keep⟩

/-- `SetParameters` of the process classes; `aspect` is the unit's `aspect_class` (ProcessMeltDegreeDayAspect.cpp:35-58),
empty in the sub-basin. -/
def procNeeds (aspect : String) : ProcClass → List Need
  | .outflowLinear => [req "response_factor"]                       -- ProcessOutflowLinear.cpp:14-17
  | .percolationConstant => [⟨["percolation_rate", "rate"], .throw⟩] -- ProcessPercolationConstant.cpp:14-21
  | .percolationGR4J => []
  | .outflowDirect => []
  | .outflowRest => []
  | .outflowOverflow => []                                          -- ProcessOutflowOverflow.cpp:13-15
  | .runoffSocont => [req "beta"]                                   -- ProcessRunoffSocont.cpp:28-31
  | .infiltrationSocont => []                                       -- ProcessInfiltrationSocont.cpp:13-15
  | .infiltrationGR4J => []
  | .infiltrationHBV => [req "beta"]                                -- ProcessInfiltrationHBV.cpp:28-31
  | .runoffHBV => [req "response_factor", req "alpha"]              -- ProcessRunoffHBV.cpp:29-33
  | .capillaryHBV => [req "max_capillary_flux"]                     -- ProcessCapillaryHBV.cpp:64-67
  | .routingHBV => [req "maxbas"]                                   -- ProcessRoutingHBV.cpp:35-39
  | .outflowSnowHolding => [req "water_holding_capacity"]           -- ProcessOutflowSnowHolding.cpp:33-36
  | .outflowThreshold => [req "capacity"]                           -- ProcessOutflowThreshold.cpp:26-29
  | .refreezeDegreeDay => [req "refreezing_factor"]                 -- ProcessRefreezeDegreeDay.cpp:38-41
  | .productionGR4J => []
  | .etSocont => []
  | .etGR4J => []
  | .etHBV => [req "lp", req "et_correction_factor"]                -- ProcessETHBV.cpp:39-43
  | .etOpenWater => []
  | .etLinear => []
  | .etPowerLaw => [req "exponent"]                                 -- ProcessETPowerLaw.cpp:34-37
  | .etExponential => [req "alpha"]                                 -- ProcessETExponential.cpp:34-37
  | .meltDegreeDay => [req "degree_day_factor", req "melting_temperature"] -- ProcessMeltDegreeDay.cpp:35-39
  | .meltDegreeDayAspect =>                                         -- ProcessMeltDegreeDayAspect.cpp:39-58
    [req "melting_temperature",
     if aspect = "north" ∨ aspect = "N" then req "degree_day_factor_n"
     else if aspect = "south" ∨ aspect = "S" then req "degree_day_factor_s"
     else if aspect = "east" ∨ aspect = "west" ∨ aspect = "E" ∨ aspect = "W" then
       ⟨["degree_day_factor_ew", "degree_day_factor_we"], .throw⟩
     else ⟨[], .throw⟩]
  | .meltTemperatureIndex => [req "melt_factor", req "melting_temperature", req "radiation_coefficient"]
                                                                    -- ProcessMeltTemperatureIndex.cpp:45-50
  | .meltCemaNeige => [req "degree_day_factor", req "cold_content_factor", req "melting_temperature", req "mean_annual_snow"]
                                                                    -- ProcessMeltCemaNeige.cpp:42-48
  | .sublimationConstant => [req "sublimation_rate"]                -- ProcessSublimationConstant.cpp:25-28
  | .sublimationPET => [req "sublimation_pet_factor"]               -- ProcessSublimationPET.cpp:31-34
  | .snowToIceConstant => [⟨["snow_ice_transformation_rate", "rate"], .throw⟩] -- ProcessTransformSnowToIceConstant.cpp:14-21
  | .snowToIceSwat => [⟨["snow_ice_transformation_basal_acc_coeff", "basal_acc_coeff"], .throw⟩, optional "north_hemisphere"]
                                                                    -- ProcessTransformSnowToIceSwat.cpp:18-29
  | .snowSlide => [req "coeff", req "exp", req "min_slope", req "max_slope", req "min_snow_holding_depth", req "max_snow_depth"]
                                                                    -- ProcessLateralSnowSlide.cpp:36-44
  | .snowFrey => [req "correction", req "snow_holding_capacity", req "rho_max", req "max_snow_depth", req "snow_density"]
  | .snowFreyDynamic => [req "correction", req "snow_holding_capacity", req "rho_max", req "max_snow_depth", req "rho_min",
      req "rho_fresh_max", req "rho_settling", req "rho_scale", req "t_scale"]
                                                                    -- ProcessLateralSnowRedistributionFrey.cpp:68-83
  | .interceptionGR4J => []
  | .routingGR4J => [req "exchange_factor", req "routing_capacity", req "uh_base_time"] -- ProcessRoutingGR4J.cpp:28-34
  | .routingGR6J => [req "exchange_factor", req "routing_capacity", req "uh_base_time", req "exchange_threshold",
      req "exp_store_coeff"]                                        -- ProcessRoutingGR6J.cpp:42-50

/-- `SetParameters` of the splitters (Splitter*.cpp). -/
def splitNeeds : SplitClass → List Need
  | .snowRainThreshold => [req "threshold", orOne "rain_correction_factor", orOne "snow_correction_factor"]
  | .snowRainLinear => [req "transition_start", req "transition_end", orOne "rain_correction_factor", orOne "snow_correction_factor"]
  | .snowRainCemaNeige => [orOne "rain_correction_factor", orOne "snow_correction_factor"]
  | .rain => [orOne "rain_correction_factor"]
  | .multiFluxes => []

/-- Pointers set by `Brick::SetParameters` (Brick.cpp:80-84) and `Glacier::SetParameters` (Glacier.cpp:30-32). -/
def brickNeeds : BrickClass → List Need
  | .glacier => [optional "capacity", optional "no_melt_when_snow_cover"]
  | _ => [optional "capacity"]

section
variable {V : Type}

/-- Address of the parameters of one component. -/
structure Home where
  obj : ℕ
  variant : ℕ
  place : Place
  deriving DecidableEq, Repr

/-- One assignment of a `SetParameters`; `old` is the present value of the member; `none`: thrown. -/
def bindOne (h : Home) (ps : List (String × V)) (n : Need) (old : Tgt) : Option Tgt :=
  match n.names.find? fun nm => hasParam nm ps with
  | some nm => some (.cell ⟨h.obj, h.variant, h.place, ps.findIdx fun e => e.1 == nm⟩)
  | none => (match n.other with
    | .throw => none
    | .keep => some old
    | .one => some .one)

/-- The assignments of a `SetParameters`, member by member. -/
def bindAll (h : Home) (ps : List (String × V)) : List Need → List Tgt → Option (List Tgt)
  | [], _ => some []
  | n :: ns, ts => (bindOne h ps n (ts.headD .null)).bind fun t => (bindAll h ps ns ts.tail).map fun r => t :: r

/-- A built process. -/
structure BProc where
  cls : ProcClass
  ptrs : List Tgt
  deriving DecidableEq, Repr

/-- A built splitter. -/
structure BSplit where
  cls : SplitClass
  ptrs : List Tgt
  deriving DecidableEq, Repr

/-- A built brick; `infinite` is the ice container's `_infiniteStorage`. -/
structure BBrick where
  name : String
  cls : BrickClass
  ptrs : List Tgt
  infinite : Bool
  procs : List BProc
  deriving DecidableEq, Repr

/-- `Process::SetParameters` of the class. -/
def BProc.setParams (aspect : String) (h : Home) (s : ProcSet V) (p : BProc) : Option BProc :=
  (bindAll h s.params (procNeeds aspect p.cls) p.ptrs).map fun t => { p with ptrs := t }

/-- `Splitter::SetParameters` of the class. -/
def BSplit.setParams (h : Home) (s : SplitSet V) (p : BSplit) : Option BSplit :=
  (bindAll h s.params (splitNeeds p.cls) p.ptrs).map fun t => { p with ptrs := t }

/-- The value of `infinite_storage`, if given, is not (nearly) zero (Glacier.cpp:23-28); `zero` is `NearlyZero(·, EPSILON_F)`. -/
def saysInfinite (zero : V → Bool) (ps : List (String × V)) : Bool :=
  match ps.find? fun e => e.1 == "infinite_storage" with
  | some e => !zero e.2
  | none => false

/-- `Brick::SetParameters`, `Glacier::SetParameters` (Brick.cpp:80-84, Glacier.cpp:21-33): `SetAsInfiniteStorage` is only ever
called to switch infinite storage on. -/
def BBrick.setParams (zero : V → Bool) (h : Home) (s : BrickSet V) (b : BBrick) : Option BBrick :=
  (bindAll h s.params (brickNeeds b.cls) b.ptrs).map fun t =>
    { b with ptrs := t, infinite := b.infinite || (decide (b.cls = .glacier) && saysInfinite zero s.params) }

/-- `Brick::GetCategory`. -/
def categoryOf : BrickClass → Category
  | .snowpack => .snowpack
  | .glacier => .glacier
  | _ => .other

/-- Which settings a brick is created from: unit or sub-basin list, position. -/
def procPlace : Place → ℕ → Place
  | .unitBrick i, j => .unitProc i j
  | .basinBrick i, j => .basinProc i j
  | p, _ => p

/-- Creation of the processes of a brick in order (ModelBuilder.cpp:119-134, 220-239). -/
def createProcs (aspect : String) (h : Home) (c : Category) : ℕ → List (ProcSet V) → Option (List BProc)
  | _, [] => some []
  | j, s :: ss =>
    match processFactory s.type c with
    | .ok (pc, _) =>
      (BProc.setParams aspect ⟨h.obj, h.variant, procPlace h.place j⟩ s ⟨pc, []⟩).bind fun p =>
        (createProcs aspect h c (j + 1) ss).map fun r => p :: r
    | _ => none

/-- Creation of a brick and its processes (ModelBuilder.cpp:109-135, 207-240); a null brick from the factory counts as a
failure. -/
def createBrick (zero : V → Bool) (aspect : String) (h : Home) (s : BrickSet V) : Option BBrick :=
  match HB.Names.buildBrick s.type with
  | .ok c =>
    (BBrick.setParams zero h s ⟨s.name, c, [], false, []⟩).bind fun b =>
      (createProcs aspect h (categoryOf c) 0 s.procs).map fun ps => { b with procs := ps }
  | _ => none

/-- Creation of a splitter (ModelBuilder.cpp:137-145, 182-190). -/
def createSplit (h : Home) (s : SplitSet V) : Option BSplit :=
  match HB.Names.buildSplitter s.type with
  | .ok c => BSplit.setParams h s ⟨c, []⟩
  | _ => none

/-- A built hydro unit. -/
structure BUnit where
  structureId : ℤ
  aspect : String
  bricks : List BBrick
  splits : List BSplit
  deriving DecidableEq, Repr

/-- A built model. -/
structure Built where
  basinBricks : List BBrick
  basinSplits : List BSplit
  units : List BUnit
  deriving DecidableEq, Repr

/-- A loop over settings with their position. -/
def mapIdxM {α β : Type} (f : ℕ → α → Option β) : ℕ → List α → Option (List β)
  | _, [] => some []
  | i, a :: l => (f i a).bind fun b => (mapIdxM f (i + 1) l).map fun r => b :: r

/-- `SelectStructure` (SettingsModel.cpp:653-667): with an unknown id the selection does not move. -/
def pick (l : List (Variant V)) (cur : ℕ) (id : ℤ) : ℕ := (selectId id l).getD cur

/-- Order of creation of the bricks of a unit (ModelBuilder.cpp:161-180): surface components, land covers, the others. -/
def order (surf : List ℕ) (s : Variant V) : List ℕ :=
  surf ++ s.coverIdx ++ (List.range s.unitBricks.length).filter fun i => !(surf.contains i) && !(s.coverIdx.contains i)

/-- Creation of the bricks with the given positions. -/
def createSome (zero : V → Bool) (aspect : String) (obj v : ℕ) (bs : List (BrickSet V)) : List ℕ → Option (List BBrick)
  | [] => some []
  | i :: l =>
    match bs[i]? with
    | none => none
    | some b => (createBrick zero aspect ⟨obj, v, .unitBrick i⟩ b).bind fun x =>
        (createSome zero aspect obj v bs l).map fun r => x :: r

/-- Components of one unit with variant `s` at position `v` (ModelBuilder.cpp:155-195). -/
def createUnit (zero : V → Bool) (surf : ℕ → List ℕ) (obj v : ℕ) (s : Variant V) (id : ℤ) (aspect : String) : Option BUnit :=
  (createSome zero aspect obj v s.unitBricks (order (surf v) s)).bind fun bs =>
    (mapIdxM (fun i sp => createSplit ⟨obj, v, .unitSplit i⟩ sp) 0 s.unitSplits).map fun sps => ⟨id, aspect, bs, sps⟩

/-- `CreateHydroUnitsComponents` (ModelBuilder.cpp:152-196): units given by structure id and aspect class; `cur` is the
selected variant. -/
def createUnits (zero : V → Bool) (surf : ℕ → List ℕ) (obj : ℕ) (l : List (Variant V)) : ℕ → List (ℤ × String) → Option (List BUnit)
  | _, [] => some []
  | cur, u :: us =>
    let v := pick l cur u.1
    match l[v]? with
    | none => none
    | some s => (createUnit zero surf obj v s u.1 u.2).bind fun x =>
        (createUnits zero surf obj l v us).map fun r => x :: r

/-- `CreateModelComponents` (ModelBuilder.cpp:99-150): the settings object number `obj` holds `S`. -/
def build (zero : V → Bool) (surf : ℕ → List ℕ) (obj : ℕ) (S : Settings V) (us : List (ℤ × String)) : Option Built :=
  let v := pick S.variants S.sel 1
  match S.variants[v]? with
  | none => none
  | some s =>
    (mapIdxM (fun i b => createBrick zero "" ⟨obj, v, .basinBrick i⟩ b) 0 s.basinBricks).bind fun bb =>
    (mapIdxM (fun i sp => createSplit ⟨obj, v, .basinSplit i⟩ sp) 0 s.basinSplits).bind fun bs =>
    (createUnits zero surf obj S.variants v us).map fun r => ⟨bb, bs, r⟩

/-! ## `UpdateParameters` -/

/-- The loop over `GetProcess(iProcess)` (ModelBuilder.cpp:249-254, 275-280); a position past the end is out of bounds. -/
def updProcs (aspect : String) (h : Home) : ℕ → List (ProcSet V) → List BProc → Option (List BProc)
  | _, [], ps => some ps
  | _, _ :: _, [] => none
  | j, s :: ss, p :: ps =>
    (BProc.setParams aspect ⟨h.obj, h.variant, procPlace h.place j⟩ s p).bind fun q =>
      (updProcs aspect h (j + 1) ss ps).map fun r => q :: r

/-- A brick and its processes (ModelBuilder.cpp:245-255, 271-281). -/
def updBrick (zero : V → Bool) (aspect : String) (h : Home) (s : BrickSet V) (b : BBrick) : Option BBrick :=
  (BBrick.setParams zero h s b).bind fun b' =>
    (updProcs aspect h 0 s.procs b.procs).map fun ps => { b' with procs := ps }

/-- A loop over settings that updates the component at the same position. -/
def updIdx {α β : Type} (f : ℕ → α → β → Option β) : ℕ → List α → List β → Option (List β)
  | _, [], bs => some bs
  | _, _ :: _, [] => none
  | i, a :: l, b :: bs => (f i a b).bind fun c => (updIdx f (i + 1) l bs).map fun r => c :: r

/-- `unit->GetBrick(name)` is the last brick added under that name (HydroUnit.cpp:232-239, `_brickMap`), changed by `f`. -/
def updNamed (name : String) (f : BBrick → Option BBrick) (bs : List BBrick) : Option (List BBrick) :=
  match (bs.reverse.find? fun b => b.name == name).bind f with
  | none => none
  | some x => some (updFirst (fun b : BBrick => b.name == name) (fun _ => x) bs.reverse).reverse

/-- The loop over the bricks of a unit (ModelBuilder.cpp:270-282). -/
def updBricks (zero : V → Bool) (aspect : String) (obj v : ℕ) : ℕ → List (BrickSet V) → List BBrick → Option (List BBrick)
  | _, [], bs => some bs
  | i, s :: ss, bs =>
    (updNamed s.name (updBrick zero aspect ⟨obj, v, .unitBrick i⟩ s) bs).bind fun bs' =>
      updBricks zero aspect obj v (i + 1) ss bs'

/-- One unit (ModelBuilder.cpp:265-291). -/
def updUnit (zero : V → Bool) (obj v : ℕ) (s : Variant V) (u : BUnit) : Option BUnit :=
  (updBricks zero u.aspect obj v 0 s.unitBricks u.bricks).bind fun bs =>
    (updIdx (fun i sp x => BSplit.setParams ⟨obj, v, .unitSplit i⟩ sp x) 0 s.unitSplits u.splits).map fun sps =>
      { u with bricks := bs, splits := sps }

/-- `UpdateHydroUnitsParameters` (ModelBuilder.cpp:264-293). -/
def updUnits (zero : V → Bool) (obj : ℕ) (l : List (Variant V)) : ℕ → List BUnit → Option (List BUnit)
  | _, [] => some []
  | cur, u :: us =>
    let v := pick l cur u.structureId
    match l[v]? with
    | none => none
    | some s => (updUnit zero obj v s u).bind fun x => (updUnits zero obj l v us).map fun r => x :: r

/-- `ModelHydro::UpdateParameters` (ModelHydro.cpp:76-84) with settings object number `obj`, which holds `S`; `none`: an
exception (or an access out of bounds), after which the model may be half updated. -/
def update (zero : V → Bool) (obj : ℕ) (S : Settings V) (m : Built) : Option Built :=
  let v := pick S.variants S.sel 1
  match S.variants[v]? with
  | none => none
  | some s =>
    (updIdx (fun i b x => updBrick zero "" ⟨obj, v, .basinBrick i⟩ b x) 0 s.basinBricks m.basinBricks).bind fun bb =>
    (updIdx (fun i sp x => BSplit.setParams ⟨obj, v, .basinSplit i⟩ sp x) 0 s.basinSplits m.basinSplits).bind fun bs =>
    (updUnits zero obj S.variants v m.units).map fun r => ⟨bb, bs, r⟩

/-! ## Reading through the pointers -/

/-- The parameter list of a component of the settings. -/
def paramsAt (s : Variant V) : Place → Option (List (String × V))
  | .unitBrick i => (s.unitBricks[i]?).map fun b => b.params
  | .unitProc i j => (s.unitBricks[i]?).bind fun b => (b.procs[j]?).map fun p => p.params
  | .unitSplit i => (s.unitSplits[i]?).map fun b => b.params
  | .basinBrick i => (s.basinBricks[i]?).map fun b => b.params
  | .basinProc i j => (s.basinBricks[i]?).bind fun b => (b.procs[j]?).map fun p => p.params
  | .basinSplit i => (s.basinSplits[i]?).map fun b => b.params

/-- What a component reads through a pointer when the settings objects hold `mem`; `one` stands for the constant 1. -/
def read (one : V) (mem : ℕ → Settings V) : Tgt → Option V
  | .null => none
  | .one => some one
  | .cell a => (((mem a.obj).variants[a.variant]?).bind fun s => paramsAt s a.place).bind fun ps =>
      (ps[a.param]?).map fun e => e.2

end

end HB.Par
