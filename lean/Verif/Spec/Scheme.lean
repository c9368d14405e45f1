import Verif.Spec.Predefined

/-!
# The flow diagrams of the predefined models

Which storage releases water to which, and by which process, written down from the documentation of the models
(python/src/hydrobricks/models/socont.py:14-79, hbv.py:14-88, hbv_96.py:11-58, gr4j.py:13-49, gr6j.py:14-69,
modules/glacier.py:20-60) without reference to how the structures are described or built.
-/

namespace HB.Spec

open HB.Names HB.Wire

/-- Where an arrow of a flow diagram ends: the outlet, the air, a brick of the same unit, a brick of the sub-basin. -/
inductive End
  | outlet
  | air
  | own (name : String) (content : Content)
  | shared (name : String) (content : Content)
  deriving DecidableEq

section
variable {K : Type}

/-- The flux, which leaves a component of unit `u`, ends there. -/
def EndsAt (inp : Input K) (u : ℕ) (un : UnitIn K) (f : Flux K) : End → Prop
  | .outlet => f.dst = .outlet
  | .air => f.dst = .atmosphere
  | .own n c => f.content = c ∧ ∃ i b, f.dst = .comp (.unitBrick u i) ∧ un.str.unitBricks[i]? = some b ∧ b.name = n
  | .shared n c => f.content = c ∧ ∃ i b, f.dst = .comp (.basinBrick i) ∧ inp.basin.basinBricks[i]? = some b ∧ b.name = n

/-- In the built model, the brick called `x` of unit `u` has a process of kind `k` with a flux that ends at `e`. -/
def Arrow (inp : Input K) (m : Wire.Model K) (u : ℕ) (un : UnitIn K) (x k : String) (e : End) : Prop :=
  ∃ (i : ℕ) (b : Wire.Brick) (j : ℕ) (p : Wire.Proc) (f : Flux K), un.str.unitBricks[i]? = some b ∧ b.name = x ∧ b.procs[j]? = some p ∧ p.type = k ∧
    f ∈ m.net.outs ∧ f.src = .unitBrick u i ∧ f.proc = j ∧ EndsAt inp u un f e

/-- In the built model, the brick called `x` of the sub-basin has a process of kind `k` with a flux to the destination. -/
def BasinArrow (inp : Input K) (m : Wire.Model K) (x k : String) (d : Dest) : Prop :=
  ∃ (i : ℕ) (b : Wire.Brick) (j : ℕ) (p : Wire.Proc) (f : Flux K), inp.basin.basinBricks[i]? = some b ∧ b.name = x ∧ b.procs[j]? = some p ∧ p.type = k ∧
    f ∈ m.net.outs ∧ f.src = .basinBrick i ∧ f.proc = j ∧ f.dst = d

/-- In the built model, precipitation with this content falls onto the brick called `y` of unit `u`. -/
def Falls (m : Wire.Model K) (u : ℕ) (un : UnitIn K) (content : Content) (y : String) : Prop :=
  ∃ (s i : ℕ) (b : Wire.Brick) (f : Flux K), f ∈ m.net.outs ∧ f.src = .unitSplit u s ∧ f.content = content ∧ f.dst = .comp (.unitBrick u i) ∧
    un.str.unitBricks[i]? = some b ∧ b.name = y

end

/-! ## What all models share: snow, canopies, glaciers -/

/-- The snowpack of a land cover.  Without retention the melt reaches the cover; with retention it stays in the snowpack, which
releases it to the cover, and it may freeze again there.  The snow may turn to ice, on glaciers, or sublimate. -/
inductive SnowScheme (o : SnowOpts) (c : PyCover) : String → String → End → Prop
  | melt : o.retention = none → SnowScheme o c (c.name ++ "_snowpack") o.melt (.own c.name .water)
  | retained {r} : o.retention = some r → SnowScheme o c (c.name ++ "_snowpack") o.melt (.own (c.name ++ "_snowpack") .water)
  | released {r} : o.retention = some r → SnowScheme o c (c.name ++ "_snowpack") r (.own c.name .water)
  | refrozen {r p} : o.retention = some r → o.refreezing = some p → SnowScheme o c (c.name ++ "_snowpack") p (.own (c.name ++ "_snowpack") .snow)
  | ice {p} : c.kind = "glacier" → o.snowIce = some p → SnowScheme o c (c.name ++ "_snowpack") p (.own c.name .ice)
  | sublimated {p} : o.sublimation = some p → SnowScheme o c (c.name ++ "_snowpack") p .air

/-- The canopy of a forest, if asked for: it drips and evaporates. -/
inductive CanopyScheme (o : SnowOpts) (c : PyCover) : String → String → End → Prop
  | drip : o.forest = true → c.kind = "forest" → o.rainToSnowpack = false → CanopyScheme o c (c.name ++ "_canopy") "outflow:threshold" (.own c.name .water)
  | dripOnSnow : o.forest = true → c.kind = "forest" → o.rainToSnowpack = true →
      CanopyScheme o c (c.name ++ "_canopy") "outflow:threshold" (.own (c.name ++ "_snowpack") .water)
  | et : o.forest = true → c.kind = "forest" → CanopyScheme o c (c.name ++ "_canopy") "et:open_water" .air

/-- A glacier: rain and snowmelt, and icemelt, go to the two storages of the sub-basin. -/
inductive GlacierScheme (melt : String) (c : PyCover) : String → String → End → Prop
  | runoff : GlacierScheme melt c c.name "outflow:direct" (.shared "glacier_area_rain_snowmelt_storage" .water)
  | melt : GlacierScheme melt c c.name melt (.shared "glacier_area_icemelt_storage" .water)

/-- The storages of the sub-basin drain to the outlet; they exist if there are glaciers. -/
inductive GlacierBasin (cs : List PyCover) : String → String → Dest → Prop
  | rain {c} : c ∈ cs → c.kind = "glacier" → GlacierBasin cs "glacier_area_rain_snowmelt_storage" "outflow:linear" .outlet
  | ice {c} : c ∈ cs → c.kind = "glacier" → GlacierBasin cs "glacier_area_icemelt_storage" "outflow:linear" .outlet

/-- Where precipitation falls, with a snow routine: snow onto the snowpacks; rain onto the canopy if there is one, else onto the
snowpack if it retains rain, else onto the cover. -/
inductive FallScheme (o : SnowOpts) (present : List PyCover) : Content → String → Prop
  | snow {c} : c ∈ present → FallScheme o present .snow (c.name ++ "_snowpack")
  | canopy {c} : c ∈ present → o.forest = true → c.kind = "forest" → FallScheme o present .water (c.name ++ "_canopy")
  | snowpack {c} : c ∈ present → ¬ (o.forest = true ∧ c.kind = "forest") → o.rainToSnowpack = true → FallScheme o present .water (c.name ++ "_snowpack")
  | cover {c} : c ∈ present → ¬ (o.forest = true ∧ c.kind = "forest") → o.rainToSnowpack = false → FallScheme o present .water c.name

/-- Without a snow routine, rain falls onto the covers. -/
inductive RainScheme (present : List PyCover) : Content → String → Prop
  | rain {c} : c ∈ present → RainScheme present .water c.name

/-! ## Socont -/

/-- The cover with the soil routine: the first one that is no glacier. -/
def FirstSoil (cs : List PyCover) (s : String) : Prop :=
  ∃ pre c post, cs = pre ++ c :: post ∧ c.kind ≠ "glacier" ∧ c.name = s ∧ ∀ p ∈ pre, p.kind = "glacier"

/-- Socont, in a unit with the covers `present` of `cs`: water on the ground infiltrates into the slow reservoir, the rest is surface
runoff; the slow reservoir evaporates, drains and overflows to the outlet, and percolates to a second layer if there is one. -/
inductive SocontScheme (o : SocontOpts) (cs present : List PyCover) : String → String → End → Prop
  | snow {c x k e} : c ∈ present → SnowScheme o.snow c x k e → SocontScheme o cs present x k e
  | canopy {c x k e} : c ∈ present → CanopyScheme o.snow c x k e → SocontScheme o cs present x k e
  | glacier {c x k e} : c ∈ present → c.kind = "glacier" → GlacierScheme o.snow.melt c x k e → SocontScheme o cs present x k e
  | infiltration {s} : FirstSoil cs s → SocontScheme o cs present s "infiltration:socont" (.own "slow_reservoir" .water)
  | excess {s} : FirstSoil cs s → SocontScheme o cs present s "outflow:rest" (.own "surface_runoff" .water)
  | et : SocontScheme o cs present "slow_reservoir" "et:socont" .air
  | baseflow : SocontScheme o cs present "slow_reservoir" "outflow:linear" .outlet
  | overflow : SocontScheme o cs present "slow_reservoir" "overflow" .outlet
  | percolation : o.secondLayer = true → SocontScheme o cs present "slow_reservoir" "percolation:constant" (.own "slow_reservoir_2" .water)
  | second : o.secondLayer = true → SocontScheme o cs present "slow_reservoir_2" "outflow:linear" .outlet
  | quick : o.linearRunoff = false → SocontScheme o cs present "surface_runoff" "runoff:socont" .outlet
  | quickLinear : o.linearRunoff = true → SocontScheme o cs present "surface_runoff" "outflow:linear" .outlet

/-! ## HBV-96 -/

/-- The cover has a soil. -/
def SoilBearing (c : PyCover) : Prop := c.kind ≠ "lake" ∧ c.kind ≠ "glacier"

/-- One soil serves all covers: if asked for, or if there is only one soil-bearing cover. -/
def OneSoil (o : HbvOpts) (cs : List PyCover) : Prop := o.shareSoil = true ∨ (cs.countP fun c => decide (c.kind ≠ "lake" ∧ c.kind ≠ "glacier")) = 1

/-- `s` is the soil moisture store of the cover. -/
def SoilOf (o : HbvOpts) (cs : List PyCover) (c : PyCover) (s : String) : Prop :=
  SoilBearing c ∧ ((OneSoil o cs ∧ s = "soil_moisture") ∨ (¬ OneSoil o cs ∧ s = c.name ++ "_soil_moisture"))

/-- HBV-96, in a unit with the covers `present` (no lakes): each soil-bearing cover feeds its soil and recharges the upper zone; the
upper zone returns water to the soils, percolates to the lower zone and runs off; both zones and the overflow of the soils pass the
unit hydrograph. -/
inductive HbvScheme (o : HbvOpts) (cs present : List PyCover) : String → String → End → Prop
  | snow {c x k e} : c ∈ present → SnowScheme o.snow c x k e → HbvScheme o cs present x k e
  | canopy {c x k e} : c ∈ present → CanopyScheme o.snow c x k e → HbvScheme o cs present x k e
  | glacier {c x k e} : c ∈ present → c.kind = "glacier" → GlacierScheme o.snow.melt c x k e → HbvScheme o cs present x k e
  | infiltration {c s} : c ∈ cs → SoilOf o cs c s → HbvScheme o cs present c.name "infiltration:hbv" (.own s .water)
  | recharge {c} : c ∈ cs → SoilBearing c → HbvScheme o cs present c.name "outflow:rest" (.own "upper_zone" .water)
  | et {c s} : c ∈ cs → SoilOf o cs c s → HbvScheme o cs present s "et:hbv" .air
  | overflow {c s} : c ∈ cs → SoilOf o cs c s → HbvScheme o cs present s "overflow" (.own "routing" .water)
  | capillary {c s} : c ∈ cs → SoilOf o cs c s → HbvScheme o cs present "upper_zone" "capillary:hbv" (.own s .water)
  | percolation : HbvScheme o cs present "upper_zone" "percolation:constant" (.own "lower_zone" .water)
  | quick : HbvScheme o cs present "upper_zone" "runoff:hbv" (.own "routing" .water)
  | slow : HbvScheme o cs present "lower_zone" "outflow:linear" (.own "routing" .water)
  | routing : HbvScheme o cs present "routing" "routing:hbv" .outlet

/-- HBV-96, in a unit of lakes: each lake has a storage, which evaporates as open water and drains to the outlet. -/
inductive LakeScheme (lakes : List PyCover) : String → String → End → Prop
  | inflow {c} : c ∈ lakes → LakeScheme lakes c.name "outflow:direct" (.own (c.name ++ "_storage") .water)
  | et {c} : c ∈ lakes → LakeScheme lakes (c.name ++ "_storage") "et:open_water" .air
  | outflow {c} : c ∈ lakes → LakeScheme lakes (c.name ++ "_storage") "outflow:linear" .outlet

/-! ## GR4J and GR6J -/

/-- The snow options of GR4J and GR6J, for the given melt process. -/
def grSnow (o : GrOpts) (melt : String) : SnowOpts := { melt := melt, sublimation := o.sublimation }

/-- GR4J and GR6J: the first cover carries the model.  Interception evaporates, the throughfall reaches the production store, directly
(discrete version) or through the net rain store (solver version); the production store evaporates and feeds the unit hydrographs
together with the excess. -/
inductive GrScheme (o : GrOpts) (cs : List PyCover) : String → String → End → Prop
  | snow {melt c x k e} : o.melt = some melt → c ∈ cs → SnowScheme (grSnow o melt) c x k e → GrScheme o cs x k e
  | interception {c r} : cs = c :: r → GrScheme o cs c.name "interception:gr4j" .air
  | throughfall {c r} : cs = c :: r → o.discrete = true → GrScheme o cs c.name "outflow:rest" (.own "production_store" .water)
  | net {c r} : cs = c :: r → o.discrete = false → GrScheme o cs c.name "outflow:rest" (.own (c.name ++ "_soil") .water)
  | production : o.discrete = true → GrScheme o cs "production_store" "production:gr4j" (.own "uh_input" .water)
  | infiltration {c r} : cs = c :: r → o.discrete = false → GrScheme o cs (c.name ++ "_soil") "infiltration:gr4j" (.own "production_store" .water)
  | excess {c r} : cs = c :: r → o.discrete = false → GrScheme o cs (c.name ++ "_soil") "outflow:rest" (.own "uh_input" .water)
  | percolation : o.discrete = false → GrScheme o cs "production_store" "percolation:gr4j" (.own "uh_input" .water)
  | et : GrScheme o cs "production_store" "et:gr4j" .air
  | routing4 : o.six = false → GrScheme o cs "uh_input" "routing:gr4j" .outlet
  | routing6 : o.six = true → GrScheme o cs "uh_input" "routing:gr6j" .outlet

/-- The land covers of a unit, in order. -/
def CoversOf {K : Type} (un : UnitIn K) (present : List PyCover) : Prop :=
  un.str.covers.map (fun i => un.str.unitBricks[i]?.map (·.name)) = present.map fun c => some c.name

/-- The unit has these land covers; its arrows, those of snow redistribution aside, and where precipitation falls are as given. -/
structure Flows {K : Type} (inp : Input K) (m : Wire.Model K) (u : ℕ) (un : UnitIn K) (present : List PyCover)
    (arrows : String → String → End → Prop) (falls : Content → String → Prop) : Prop where
  covers : CoversOf un present
  arrows : ∀ x k e, k ∉ lateralNames → (Arrow inp m u un x k e ↔ arrows x k e)
  falls : ∀ ct y, Falls m u un ct y ↔ falls ct y

end HB.Spec
