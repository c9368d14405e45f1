import Verif.Model.Predefined
import Verif.Spec.Assemble

/-!
# The structure a predefined model describes

What the description of a predefined model means, written down directly: the land covers with the processes listed for them, the
storages of the unit, those of the sub-basin.  And what a good description is.
-/

namespace HB.Spec

open HB.Names HB.Wire

/-- The outputs of a described process: the first one carries the flags. -/
def outsOfItem (p : PItem) : List Out :=
  match p.targets with
  | [] => []
  | t :: ts => ⟨t, .water, p.inst, decide (p.kind = "outflow:direct" ∨ p.kind = "outflow:rest")⟩ :: ts.map fun t => ⟨t, .water, false, false⟩

/-- The described process. -/
def procOf (p : PItem) : Wire.Proc := ⟨p.name, p.kind, outsOfItem p⟩

/-- The described storage. -/
def storageOf (it : Item) : Wire.Brick := ⟨it.key, it.kind, "", it.procs.map procOf, it.direct⟩

/-- The processes the description lists for a land cover. -/
def listedFor (items : List Item) (name : String) : List Wire.Proc :=
  (items.filter fun it => decide (it.place = .cover ∧ it.key = name)).flatMap fun it => it.procs.map procOf

/-- The entries for a place. -/
def itemsAt (pl : Place) (items : List Item) : List Item := items.filter fun it => decide (it.place = pl)

/-- The brick with the processes listed for it. -/
def fill (items : List Item) (b : Wire.Brick) : Wire.Brick := { b with procs := b.procs ++ listedFor items b.name }

/-- The described structure. -/
def complete (v : Variant) : Struct :=
  { base v.base with
    unitBricks := (base v.base).unitBricks.map (fill v.items) ++ (itemsAt .unit v.items).map storageOf
    basinBricks := (itemsAt .basin v.items).map storageOf }

/-- The name of a storage of the sub-basin (`bas`) or of the unit. -/
def Reaches (v : Variant) (bas : List String) (t : String) : Prop := t ∈ bas ∨ ∃ it ∈ itemsAt .unit v.items, it.key = t

/-- Each storage only feeds the outlet or storages described later, and one computed by the solver none computed directly. -/
def FeedsLater : List Item → Prop
  | [] => True
  | it :: rest => (∀ p ∈ it.procs, p.kind ∉ atmosphereNames → ∀ t ∈ p.targets,
      t = "outlet" ∨ ∃ it' ∈ rest, it'.key = t ∧ (it.direct = false → it'.direct = false)) ∧ FeedsLater rest

/-- The process works on a store bricks of this type have. -/
def CanWork (kind type : String) : Prop := ∃ pc st, kind ∈ processNames pc ∧ storeFor pc (kindOf type) = some st

/-- A good description, given the names of the storages of the sub-basin. -/
structure Plan (v : Variant) (bas : List String) : Prop where
  keys : (v.items.map (·.key)).Nodup
  covers : ∀ it ∈ v.items, it.place = .cover → it.direct = false ∧ ∃ c ∈ v.base.covers, c.name = it.key
  storages : ∀ it ∈ v.items, it.place ≠ .cover → it.kind = "storage" ∧ it.key ∉ keywords
  fresh : ∀ it ∈ v.items, it.place = .unit → it.key ∉ (base v.base).unitBricks.map (·.name)
  apart : ∀ n ∈ bas, n ∉ (base v.base).unitBricks.map (·.name) ∧ n ∉ keywords ∧ ∀ it ∈ v.items, it.place = .unit → it.key ≠ n
  written : ∀ it ∈ v.items, ∀ p ∈ it.procs, (p.targets = [] → mayLackTarget p.kind = true) ∧
    ∀ t ∈ p.targets, t ≠ "" ∧ ':' ∉ t.toList ∧ t ≠ "lateral"
  onCover : ∀ it ∈ v.items, it.place = .cover → ∀ p ∈ it.procs, ∀ c ∈ v.base.covers, c.name = it.key → CanWork p.kind c.type
  onStorage : ∀ it ∈ v.items, it.place ≠ .cover → ∀ p ∈ it.procs, CanWork p.kind "storage"
  fromCover : ∀ it ∈ v.items, it.place = .cover → ∀ p ∈ it.procs, p.kind ∉ atmosphereNames → ∀ t ∈ p.targets, Reaches v bas t
  forward : FeedsLater (itemsAt .unit v.items)
  timed : ∀ it ∈ v.items, it.place ≠ .cover → ∀ p ∈ it.procs, p.inst = false
  fromBasin : ∀ it ∈ v.items, it.place = .basin → ∀ p ∈ it.procs, p.targets = ["outlet"] ∧ p.kind ∉ infiltrationNames ∧ p.kind ≠ "capillary:hbv"
  linked : ∀ it ∈ v.items, ∀ p ∈ it.procs, p.kind ∈ infiltrationNames → ∃ t, p.targets = [t] ∧ Reaches v bas t
  fanned : ∀ it ∈ v.items, ∀ p ∈ it.procs, p.kind = "capillary:hbv" → ∀ t ∈ p.targets, Reaches v bas t

/-- A model all of whose units have described structures: each unit one of the variants, the sub-basin taken from one of them.
Connections for snow redistribution lead to units. -/
structure Described {K : Type} (inp : Input K) : Prop where
  basin : ∃ v, GoodNames v.base ∧ Buildable v.base ∧ Plan v (inp.basin.basinBricks.map (·.name)) ∧ inp.basin = complete v
  units : ∀ un ∈ inp.units, ∃ v, GoodNames v.base ∧ Buildable v.base ∧ Plan v (inp.basin.basinBricks.map (·.name)) ∧
    un.str = complete v ∧ (v.base.redistribution ≠ none → ∀ cn ∈ un.lateral, cn.1 < inp.units.length)

/-- No unit redistributes snow to other units. -/
def NoRedistribution {K : Type} (inp : Input K) : Prop :=
  ∀ un ∈ inp.units, ∀ b ∈ un.str.unitBricks, ∀ p ∈ b.procs, ∀ o ∈ p.outs, o.target ≠ "lateral"

/-- The areas a user gives: positive unit areas, extents of land covers between 0 and 1. -/
structure AreasGiven {K : Type} [Field K] [LinearOrder K] (inp : Input K) (ext : ℕ → ℕ → K) : Prop where
  positive : ∀ un ∈ inp.units, 0 < un.area
  fraction : ∀ (u : ℕ) (un : UnitIn K), inp.units[u]? = some un → ∀ i ∈ un.str.covers, 0 ≤ ext u i ∧ ext u i ≤ 1

/-! ## What a user may ask for -/

/-- Endings of the names a model derives from the name of a land cover. -/
def suffixes : List String := ["", "_snowpack", "_canopy", "_soil_moisture", "_storage", "_soil"]

/-- Names with a meaning of their own. -/
def reserved : List String := keywords ++ ["slow_reservoir", "slow_reservoir_2", "surface_runoff", "soil_moisture", "upper_zone", "lower_zone",
  "routing", "production_store", "uh_input", "glacier_area_rain_snowmelt_storage", "glacier_area_icemelt_storage"]

/-- Usable land covers: neither their names nor those derived from them clash, and their types exist. -/
structure GoodCovers (cs : List PyCover) : Prop where
  distinct : (suffixes.flatMap (fun s => cs.map fun c => c.name ++ s) ++ reserved).Nodup
  plain : ∀ c ∈ cs, c.name ≠ "" ∧ ':' ∉ c.name.toList
  kinds : ∀ c ∈ cs, c.kind ∈ ["open", "ground", "generic", "generic_land_cover", "forest", "lake", "glacier"]

/-- The documented melt processes. -/
def meltKinds : List String := ["melt:degree_day", "melt:degree_day_aspect", "melt:temperature_index", "melt:cemaneige"]

/-- Documented option values of the snow routine; refreezing and rain on the snowpack need retention. -/
structure GoodSnow (o : SnowOpts) : Prop where
  melt : o.melt ∈ meltKinds
  retention : o.retention ∈ [none, some "outflow:snow_holding"]
  refreezing : o.refreezing ∈ [none, some "refreeze:degree_day"]
  needs : o.retention = none → o.refreezing = none ∧ o.rainToSnowpack = false
  snowIce : o.snowIce ∈ [none, some "transformation:snow_ice_constant", some "transformation:snow_ice_swat"]
  redistribution : ∀ p ∈ o.redistribution, p ∈ lateralNames
  sublimation : o.sublimation ∈ [none, some "sublimation:constant", some "sublimation:pet"]

/-- Documented option values of GR4J and GR6J. -/
structure GoodGr (o : GrOpts) : Prop where
  melt : ∀ p ∈ o.melt, p ∈ meltKinds
  snowRain : ∀ p ∈ o.snowRain, ∃ k, p ∈ splitterNames k
  redistribution : ∀ p ∈ o.redistribution, p ∈ lateralNames
  sublimation : o.sublimation ∈ [none, some "sublimation:constant", some "sublimation:pet"]

/-- Ice can only melt with a process that knows glaciers. -/
def IceMelts (melt : String) (cs : List PyCover) : Prop := (∃ c ∈ cs, c.kind = "glacier") → melt ≠ "melt:cemaneige"

/-- The model was set up from these structure variants: the sub-basin from the first one, each unit from one of them. -/
structure FromModel {K : Type} (vs : List Variant) (inp : Input K) : Prop where
  basin : ∃ v a, vs.head? = some v ∧ generateOne v = .ok a ∧ inp.basin = a.str
  units : ∀ un ∈ inp.units, ∃ v ∈ vs, ∃ a, generateOne v = .ok a ∧ un.str = a.str

/-- Connections for snow redistribution lead to units. -/
def LateralGiven {K : Type} (inp : Input K) : Prop := ∀ un ∈ inp.units, ∀ cn ∈ un.lateral, cn.1 < inp.units.length

/-! ## Conservation -/

/-- The processes with a groundwater exchange. -/
def exchangers : List String := ["routing:gr4j", "routing:gr6j"]

/-- Only processes with a groundwater exchange add water to their own store. -/
def OnlyExchangersInject {K σ : Type} [Field K] (inp : Input K) (laws : Laws K σ) : Prop :=
  ∀ (c : Comp) (b : Wire.Brick) (j : ℕ) (p : Wire.Proc), brickOf inp c = some b → b.procs[j]? = some p → p.type ∉ exchangers →
    ∀ h ph, (laws.rates (Nat.pair (Asm.compCode c) j) h ph).2.1 = 0

/-- Over every run from a fresh state, as long as no negative content is reported, the volume stored changes by what comes in,
minus the basin area times the reported discharge, minus what is lost elsewhere, plus groundwater exchange, up to 1e-8 per unit
of area and time step. -/
def Conserves {K σ : Type} [Field K] [LinearOrder K] (inp : Input K) (m : Wire.Model K) (ext : ℕ → ℕ → K) (laws : Laws K σ)
    (sch : Scheme K σ) (dt : K) (tick : σ → σ) : Prop :=
  ∀ (n : ℕ) (s s' : Sys K σ) (recs : List (Phys K)), Fresh inp ext m s.ph →
    runSteps (Asm.asm inp m ext) laws sch dt tick n s = .ok (recs, s') → s'.ph.logs = s.ph.logs →
    recs.length = n ∧
    |volume inp ext (system inp ext s.ph) s'.ph - volume inp ext (system inp ext s.ph) s.ph
        - ((recs.map (inflow inp ext m (system inp ext s.ph))).sum
          - basinArea inp * (recs.map (outletDischarge (Asm.asm inp m ext))).sum
          - (recs.map (losses inp ext m (system inp ext s.ph))).sum
          + (exchangedVolume inp ext (system inp ext s.ph) s'.ph - exchangedVolume inp ext (system inp ext s.ph) s.ph))|
      ≤ n * prec * totalArea inp ext (system inp ext s.ph)

end HB.Spec
