import Verif.Model.BaseStructure
import Verif.Spec.Wiring

/-!
# The base structure a user asks for

What the land covers, canopies and snowpacks of a base structure are, and where each releases its water, written down
directly from the arguments.
-/

namespace HB.Spec

open HB.Names HB.Wire

/-- A process of the given name and type with its declared outputs. -/
def pr (name type : String) (outs : List Out) : Proc := ⟨name, type, outs⟩

/-- The rain of the cover goes to its snowpack rather than to the cover. -/
def viaSnowpack (g : BaseArgs) : Bool := g.withSnow && g.rainToSnowpack

/-- What lies below the canopy of a cover. -/
def belowCanopy (g : BaseArgs) (c : Cover) : String := if viaSnowpack g then c.name ++ "_snowpack" else c.name

/-- Where the rain falling on a cover arrives first. -/
def rainEntry (g : BaseArgs) (c : Cover) : String := if c.canopy then c.name ++ "_canopy" else belowCanopy g c

/-- The brick of a cover: no process yet. -/
def coverBrick (c : Cover) : Brick := ⟨c.name, c.type, "", [], false⟩

/-- The canopy of a cover: it releases what it cannot hold to what lies below, and evaporates. -/
def canopyBrick (g : BaseArgs) (c : Cover) : Brick :=
  ⟨c.name ++ "_canopy", "interception_storage", c.name,
   [pr "throughfall" "outflow:threshold" [{ target := belowCanopy g c }], pr "interception_et" "et:open_water" []], false⟩

/-- An optional process. -/
def opt (o : Option String) (f : String → Proc) : List Proc := (o.map f).toList

/-- The processes of the snowpack of a cover.  Without retention, the melt goes to the cover.  With retention, it stays in
the snowpack, whose outflow goes to the cover, and may refreeze there. -/
def snowProcs (g : BaseArgs) (c : Cover) : List Proc :=
  (match g.retention with
   | none => [pr "melt" g.melt [{ target := c.name }]]
   | some r =>
     [pr "melt" g.melt [{ target := c.name ++ "_snowpack", inst := true }], pr "meltwater" r [{ target := c.name }]] ++
       opt g.refreezing fun p => pr "refreeze" p [{ target := c.name ++ "_snowpack", content := .snow, inst := true }]) ++
  (if c.type = "glacier" then opt g.snowIce fun p => pr "snow_ice_transfo" p [{ target := c.name, content := .ice }] else []) ++
  (opt g.redistribution fun p => pr "snow_redistribution" p [{ target := "lateral", content := .snow, inst := true }]) ++
  (opt g.sublimation fun p => pr "sublimation" p [])

/-- The snowpack of a cover. -/
def snowBrick (g : BaseArgs) (c : Cover) : Brick := ⟨c.name ++ "_snowpack", "snowpack", c.name, snowProcs g c, false⟩

/-- The covers that have a canopy. -/
def canopies (g : BaseArgs) : List Cover := g.covers.filter (·.canopy)

/-- The rain is handed to each cover's entry, once. -/
def rainSplitter (g : BaseArgs) : Split := ⟨"rain_splitter", "multi_fluxes", g.covers.map fun c => { target := rainEntry g c }⟩

/-- The snow is handed to each cover's snowpack, once. -/
def snowSplitter (g : BaseArgs) : Split :=
  ⟨"snow_splitter", "multi_fluxes", g.covers.map fun c => { target := c.name ++ "_snowpack", content := .snow }⟩

/-- The base structure asked for: the covers, the surface components, the splitters. -/
def base (g : BaseArgs) : Struct where
  unitBricks := g.covers.map coverBrick ++ (canopies g).map (canopyBrick g) ++
    (if g.withSnow then g.covers.map (snowBrick g) else [])
  covers := List.range g.covers.length
  surfaces := List.range' g.covers.length ((canopies g).length + if g.withSnow then g.covers.length else 0)
  unitSplits :=
    if g.withSnow then
      [⟨"snow_rain_transition", g.splitter, [{ target := "rain_splitter" }, { target := "snow_splitter", content := .snow }]⟩,
       snowSplitter g, rainSplitter g]
    else [⟨"rain", "rain", [{ target := "rain_splitter" }]⟩, rainSplitter g]

/-- The name is the name of a process. -/
def IsProcess (t : String) : Prop := ∃ pc, t ∈ processNames pc

/-- Usable names: no two bricks share one, and no cover is called like a keyword. -/
structure GoodNames (g : BaseArgs) : Prop where
  distinct : (((base g).unitBricks).map (·.name)).Nodup
  plain : ∀ c ∈ g.covers, c.name ≠ "" ∧ ':' ∉ c.name.toList

/-- The process names used (only those used) are names of processes, and options needing retention have it. -/
structure GoodProcesses (g : BaseArgs) : Prop where
  retention : g.withSnow = true → g.retention = none → g.refreezing = none ∧ g.rainToSnowpack = false
  melt : g.withSnow = true → g.covers ≠ [] → IsProcess g.melt
  outflow : g.withSnow = true → g.covers ≠ [] → ∀ p ∈ g.retention, IsProcess p
  refreezing : g.withSnow = true → g.covers ≠ [] → ∀ p ∈ g.refreezing, IsProcess p
  snowIce : g.withSnow = true → (∃ c ∈ g.covers, c.type = "glacier") → ∀ p ∈ g.snowIce, IsProcess p
  redistribution : g.withSnow = true → g.covers ≠ [] → ∀ p ∈ g.redistribution, IsProcess p
  sublimation : g.withSnow = true → g.covers ≠ [] → ∀ p ∈ g.sublimation, IsProcess p

/-- The brick types of land covers. -/
def coverTypes : List String := ["generic_land_cover", "ground", "generic", "open", "glacier"]

/-- Words with a meaning as targets. -/
def keywords : List String := ["outlet", "lateral", "rain_splitter", "snow_splitter"]

/-- The process can do its work on its own (it needs no knowledge of the brick it feeds). -/
def SelfContained (p : String) : Prop := IsProcess p ∧ p ∉ infiltrationNames ∧ p ≠ "capillary:hbv"

/-- The components asked for exist: cover types, rain/snow separation, processes; no cover is called like a keyword. -/
structure Buildable (g : BaseArgs) : Prop where
  names : ∀ c ∈ g.covers, c.name ∉ keywords
  types : ∀ c ∈ g.covers, c.type ∈ coverTypes
  splitter : g.withSnow = true → ∃ k, g.splitter ∈ splitterNames k
  retention : g.withSnow = true → g.retention = none → g.refreezing = none ∧ g.rainToSnowpack = false
  melt : SelfContained g.melt
  outflow : ∀ p ∈ g.retention, SelfContained p
  refreezing : ∀ p ∈ g.refreezing, SelfContained p
  snowIce : ∀ p ∈ g.snowIce, SelfContained p
  redistribution : ∀ p ∈ g.redistribution, p ∈ lateralNames
  sublimation : ∀ p ∈ g.sublimation, SelfContained p

end HB.Spec
