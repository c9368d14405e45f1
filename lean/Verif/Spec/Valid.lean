import Verif.Model.Valid
import Verif.Spec.Wiring

/-!
# What a complete model is

Which forcings and properties each documented process needs, how many outputs, and which processes must or must not stand
beside it; by documented names, independently of the checking code.
-/

namespace HB.Spec

open HB.Names HB.Wire

variable {K : Type}

/-- Processes driven by potential evapotranspiration. -/
def petDriven : List String :=
  ["et:socont", "et:gr4j", "et:hbv", "et:open_water", "et:linear", "et:power_law", "et:exponential", "interception:gr4j",
   "production:gr4j", "sublimation:pet"]

/-- Processes driven by air temperature. -/
def temperatureDriven : List String :=
  ["melt:degree_day", "melt:degree_day_aspect", "melt:temperature_index", "melt:cemaneige", "refreeze:degree_day",
   "transport:snow_redistribution_frey_dynamic"]

/-- The forcings a process of that name is driven by. -/
def Driven (name : String) (v : Var) : Prop :=
  (v = .pet ∧ name ∈ petDriven) ∨ (v = .temperature ∧ name ∈ temperatureDriven) ∨
    (v = .radiation ∧ name = "melt:temperature_index")

/-- The forcings that may be given to a process: those it is driven by, and the temperature for the snow redistribution. -/
def Usable (name : String) (v : Var) : Prop :=
  Driven name v ∨ (v = .temperature ∧ name = "transport:snow_redistribution_frey")

/-- The forcings that may be given to a splitter. -/
def SplitUsable (name : String) (v : Var) : Prop :=
  (v = .precipitation ∧ name ∈ ["rain", "snow_rain:threshold", "snow_rain:linear", "snow_rain:cemaneige"]) ∨
  (v = .temperature ∧ name ∈ ["snow_rain:threshold", "snow_rain:linear", "snow_rain:cemaneige"]) ∨
  ((v = .temperatureMin ∨ v = .temperatureMax) ∧ name = "snow_rain:cemaneige")

/-- The unit has the properties a process of that name reads. -/
def PropsFor (x : UnitX K) (name : String) : Prop :=
  (name ∈ ["runoff:socont", "transport:snow_slide", "transport:snow_redistribution_frey",
      "transport:snow_redistribution_frey_dynamic"] → x.slope = true) ∧
  (name = "melt:degree_day_aspect" → ∃ a, x.aspect = some a ∧ a ∈ ["north", "N", "south", "S", "east", "west", "E", "W"])

/-- A process of that name works on the given store in a brick of that type. -/
def WorksOn (name brickType : String) (st : Store) : Prop := ∃ pc, name ∈ processNames pc ∧ storeFor pc (kindOf brickType) = some st

/-- The store a brick type is made for. -/
def ownStore (brickType : String) : Store := if brickType = "glacier" then .ice else if brickType = "snowpack" then .snow else .water

/-- Number of fluxes an output stands for: a lateral one stands for one per snowpack of each receiving unit. -/
def fluxesOf (inp : Input K) (un : UnitIn K) (o : Out) : ℕ :=
  if o.target = "lateral" then (un.lateral.map fun cn => (inp.units[cn.1]?.elim [] fun r => snowpacksOf r.str).length).sum else 1

/-- Number of fluxes leaving through a process: one to the atmosphere, else those of its declared outputs. -/
def fluxCount (inp : Input K) (un : UnitIn K) (p : Proc) : ℕ :=
  if p.type ∈ atmosphereNames then 1 else (p.outs.map (fluxesOf inp un)).sum

/-- A brick that covers land. -/
def IsCover (b : Brick) : Prop := b.type ∈ brickNames .genericLandCover ∨ b.type = "glacier"

/-- Process `j`, `p`, of brick `b` of a unit has everything it needs. -/
structure ProcComplete (inp : Input K) (un : UnitIn K) (b : Brick) (j : ℕ) (p : Proc) : Prop where
  /-- one flux leaves through it (any number for lateral transport and capillary rise) -/
  single : p.type ∉ lateralNames → p.type ≠ "capillary:hbv" → fluxCount inp un p = 1
  /-- capillary rise: a flux per output; when there are several, each fed store is below a land cover -/
  capillary : p.type = "capillary:hbv" → p.outs ≠ [] ∧ fluxCount inp un p = p.outs.length ∧
    (1 < p.outs.length → ∀ o ∈ p.outs, ∃ b' ∈ un.str.unitBricks, IsCover b' ∧ ∃ p' ∈ b'.procs, ∃ o' ∈ p'.outs, o'.target = o.target)
  /-- a direct outflow is alone on the water store -/
  alone : p.type = "outflow:direct" → ∀ k p', b.procs[k]? = some p' → k ≠ j → ¬ WorksOn p'.type b.type .water
  refreeze : p.type = "refreeze:degree_day" → ∃ p' ∈ b.procs, p'.type = "melt:degree_day"
  holding : p.type = "outflow:snow_holding" → b.type = "snowpack"

/-- A brick of a unit has everything it needs: a process on the store it is made for, and complete processes. -/
structure BrickComplete (inp : Input K) (un : UnitIn K) (b : Brick) : Prop where
  used : ∃ p ∈ b.procs, WorksOn p.type b.type (ownStore b.type)
  procs : ∀ j p, b.procs[j]? = some p → ProcComplete inp un b j p

/-- Number of outputs of a splitter. -/
def SplitCount (s : Split) : Prop :=
  (s.type = "multi_fluxes" → s.outs ≠ []) ∧ (s.type = "rain" → s.outs.length = 1) ∧
  (s.type ∈ ["snow_rain:threshold", "snow_rain:linear", "snow_rain:cemaneige"] → s.outs.length = 2)

/-- The CemaNeige separation has its forcings: precipitation, temperature, and below 1500 m the daily extremes. -/
def CemaNeigeFed [Field K] [LinearOrder K] (fs : List Var) (elevation : Option K) : Prop :=
  .precipitation ∈ fs ∧ .temperature ∈ fs ∧
    ∃ e, elevation = some e ∧ (e < 1500 → .temperatureMin ∈ fs ∧ .temperatureMax ∈ fs)

variable [Field K] [LinearOrder K]

/-- A unit has everything it needs. -/
structure UnitComplete (inp : Input K) (x : UnitX K) (un : UnitIn K) : Prop where
  area : 0 < un.area
  bricks : ∀ b ∈ un.str.unitBricks, BrickComplete inp un b
  splits : ∀ s ∈ un.str.unitSplits, SplitCount s
  cemaneige : ∀ k s, un.str.unitSplits[k]? = some s → s.type = "snow_rain:cemaneige" → CemaNeigeFed (x.splitF k) x.elevation

/-- The forcings given to the components of a unit are of a type they use, and the unit has the properties they read. -/
structure UnitConnected (x : UnitX K) (un : UnitIn K) : Prop where
  props : ∀ b ∈ un.str.unitBricks, ∀ p ∈ b.procs, PropsFor x p.type
  procs : ∀ i b, un.str.unitBricks[i]? = some b → ∀ j p, b.procs[j]? = some p → ∀ v ∈ x.procF i j, Usable p.type v
  splits : ∀ k s, un.str.unitSplits[k]? = some s → ∀ v ∈ x.splitF k, SplitUsable s.type v
  elevation : ∀ s ∈ un.str.unitSplits, s.type = "snow_rain:cemaneige" → x.elevation ≠ none

/-- A component of the sub-basin has everything it needs: it gets no forcing, so none may be driven by one. -/
structure BasinComplete (inp : Input K) : Prop where
  used : ∀ b ∈ inp.basin.basinBricks, ∃ p ∈ b.procs, WorksOn p.type b.type (ownStore b.type)
  undriven : ∀ b ∈ inp.basin.basinBricks, ∀ p ∈ b.procs, ∀ v, ¬ Driven p.type v
  single : ∀ b ∈ inp.basin.basinBricks, ∀ p ∈ b.procs, p.type ∉ lateralNames → p.type ∉ atmosphereNames → p.outs.length = 1
  alone : ∀ b ∈ inp.basin.basinBricks, ∀ (j : ℕ) (p : Proc), b.procs[j]? = some p → p.type = "outflow:direct" →
    ∀ (k : ℕ) (p' : Proc), b.procs[k]? = some p' → k ≠ j → ¬ WorksOn p'.type b.type .water
  holding : ∀ b ∈ inp.basin.basinBricks, ∀ p ∈ b.procs, p.type = "outflow:snow_holding" → b.type = "snowpack"
  splits : ∀ s ∈ inp.basin.basinSplits, SplitCount s ∧ s.type ≠ "snow_rain:cemaneige"

/-- The model is complete. -/
structure Complete (xi : InputX K) : Prop where
  exists_unit : xi.base.units ≠ []
  connected : ∀ u un, xi.base.units[u]? = some un → UnitConnected (xi.ext u) un
  units : ∀ u un, xi.base.units[u]? = some un → UnitComplete xi.base (xi.ext u) un
  basin : BasinComplete xi.base

/-- A forcing is asked for in a unit: listed for a brick, driving a process or given to one, or given to a splitter. -/
def Asked (x : UnitX K) (un : UnitIn K) (v : Var) : Prop :=
  (∃ i, i < un.str.unitBricks.length ∧ v ∈ x.brickF i) ∨
  (∃ i b j p, un.str.unitBricks[i]? = some b ∧ b.procs[j]? = some p ∧ (Driven p.type v ∨ v ∈ x.procF i j)) ∨
  (∃ k, k < un.str.unitSplits.length ∧ v ∈ x.splitF k)

/-- Something sends water to splitter `k` of the unit. -/
def Fed (inp : Input K) (u : ℕ) (un : UnitIn K) (k : ℕ) : Prop :=
  (∃ b ∈ un.str.unitBricks, ∃ p ∈ b.procs, p.type ∉ atmosphereNames ∧ ∃ o ∈ p.outs, o.target ≠ "lateral" ∧
    Denotes inp u un o.target (.comp (.unitSplit u k))) ∨
  (∃ s ∈ un.str.unitSplits, ∃ o ∈ s.outs, Denotes inp u un o.target (.comp (.unitSplit u k)))

/-- Everything the components of a unit need during a run is supplied: the series of the forcings that drive its processes and
splitters are loaded, its splitters were given their forcings, and the dividing splitters receive something to divide. -/
structure Supplied (inp : Input K) (x : UnitX K) (u : ℕ) (un : UnitIn K) (loaded : List Var) : Prop where
  procs : ∀ b ∈ un.str.unitBricks, ∀ p ∈ b.procs, ∀ v, Driven p.type v → v ∈ loaded
  rain : ∀ k s, un.str.unitSplits[k]? = some s → s.type = "rain" → .precipitation ∈ x.splitF k ∧ .precipitation ∈ loaded
  snowRain : ∀ k s, un.str.unitSplits[k]? = some s → s.type ∈ ["snow_rain:threshold", "snow_rain:linear"] →
    (.precipitation ∈ x.splitF k ∧ .precipitation ∈ loaded) ∧ (.temperature ∈ x.splitF k ∧ .temperature ∈ loaded)
  cemaneige : ∀ s ∈ un.str.unitSplits, s.type = "snow_rain:cemaneige" → .precipitation ∈ loaded ∧
    ∀ e, x.elevation = some e → (1500 ≤ e → .temperature ∈ loaded) ∧ (e < 1500 → .temperatureMin ∈ loaded ∧ .temperatureMax ∈ loaded)
  divided : ∀ k s, un.str.unitSplits[k]? = some s → s.type = "multi_fluxes" → Fed inp u un k

end HB.Spec
