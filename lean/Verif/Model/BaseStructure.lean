import Verif.Model.Author

/-!
# Writing the base structure of a model

Model of `generate_base_structure` (python/src/hydrobricks/models/model_settings.py:187-263), the sequence in which every
predefined model (Socont, HBV, GR4J…) calls the generators of `SettingsModel` (Model/Author.lean).  The checks of the
Python function itself are modelled; the mapping of the cover types "forest", "lake"… to brick types is taken as given.
-/

namespace HB.Wire

/-- A land cover: name, brick type, and whether it gets a canopy store. -/
structure Cover where
  name : String
  type : String
  canopy : Bool := false
  deriving DecidableEq, Repr

/-- The arguments of `generate_base_structure` (model_settings.py:130-144). -/
structure BaseArgs where
  covers : List Cover
  withSnow : Bool := true
  splitter : String := "snow_rain:linear"
  melt : String := "melt:degree_day"
  retention : Option String := none
  rainToSnowpack : Bool := false
  refreezing : Option String := none
  snowIce : Option String := none
  redistribution : Option String := none
  sublimation : Option String := none
  deriving DecidableEq, Repr

/-- An optional stage: `if process: …`. -/
def optStage (o : Option String) (f : String → Auth → Except Err Auth) (a : Auth) : Except Err Auth :=
  match o with
  | some p => f p a
  | none => .ok a

/-- The land covers, one after the other (model_settings.py:207-211). -/
def addCovers (cs : List Cover) (a : Auth) : Except Err Auth :=
  cs.foldlM (fun a c => addLandCover c.name c.type a) a

/-- The canopies (model_settings.py:219-229). -/
def addCanopies (toSnowpack : Bool) (cs : List Cover) (a : Auth) : Except Err Auth :=
  cs.foldlM (fun a c =>
    if c.canopy then genCanopy c.name (if toSnowpack then c.name ++ "_snowpack" else c.name) a else .ok a) a

/-- The snowpacks (model_settings.py:248-257). -/
def addSnowpacks (g : BaseArgs) (a : Auth) : Except Err Auth :=
  match g.retention with
  | some r => do
    let a1 ← genSnowpacksRetention g.melt r g.rainToSnowpack a
    optStage g.refreezing addRefreezing a1
  | none => genSnowpacks g.melt a

/-- `generate_base_structure` (model_settings.py:187-263) on an empty structure. -/
def generateBase (g : BaseArgs) : Except Err Auth := do
  let a1 ← genPrecipitation g.withSnow g.splitter {}
  let a2 ← addCovers g.covers a1
  let a3 ← addCanopies (g.withSnow && g.rainToSnowpack) g.covers a2
  if g.withSnow then
    if g.retention.isNone && (g.refreezing.isSome || g.rainToSnowpack) then .error .thrown
    else do
      let a4 ← addSnowpacks g a3
      let a5 ← optStage g.snowIce addSnowIce a4
      let a6 ← optStage g.redistribution (fun p a => addRedistribution p false a) a5
      optStage g.sublimation addSublimation a6
  else .ok a3

end HB.Wire
