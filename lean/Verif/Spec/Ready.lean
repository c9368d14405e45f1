import Verif.Spec.Predefined
import Verif.Spec.Valid

/-!
# What a user brings to a predefined model

The properties of the units and the forcing series the documentation asks for, and what a model ready to run is.
-/

namespace HB.Spec

open HB.Names HB.Wire

/-- The units were set up from these structure variants, with the forcings the settings list for the splitters and no others. -/
structure SetUp {K : Type} (vs : List Variant) (xi : InputX K) : Prop where
  basin : ∃ v a, vs.head? = some v ∧ generateOne v = .ok a ∧ xi.base.basin = a.str
  exists_unit : xi.base.units ≠ []
  units : ∀ u un, xi.base.units[u]? = some un → ∃ v ∈ vs, ∃ a, generateOne v = .ok a ∧ un.str = a.str ∧
    (xi.ext u).splitF = genForcings v.base.withSnow v.base.splitter
  plain : ∀ u, (∀ i, (xi.ext u).brickF i = []) ∧ ∀ i j, (xi.ext u).procF i j = []

/-- A model set up from the variants has their structures. -/
theorem SetUp.from {K : Type} {vs : List Variant} {xi : InputX K} (h : SetUp vs xi) : FromModel vs xi.base where
  basin := h.basin
  units un hun := by
    obtain ⟨u, hu⟩ := List.mem_iff_getElem?.1 hun
    obtain ⟨v, hv, a, h1, h2, -⟩ := h.units u un hu
    exact ⟨v, hv, a, h1, h2⟩

/-- The choices the needs of a model depend on: is there snow, how does it melt, how is snow told from rain, is a slope used. -/
structure Choices where
  snow : Bool
  melt : String
  splitter : String
  slope : Prop

/-- The area and the properties the choices ask for are given for the unit. -/
structure Surveyed {K : Type} [Field K] [LinearOrder K] (o : Choices) (un : UnitIn K) (x : UnitX K) : Prop where
  area : 0 < un.area
  slope : o.slope → x.slope = true
  aspect : o.snow = true → o.melt = "melt:degree_day_aspect" →
    ∃ a, x.aspect = some a ∧ a ∈ ["north", "N", "south", "S", "east", "west", "E", "W"]
  elevation : o.snow = true → o.splitter = "snow_rain:cemaneige" → x.elevation ≠ none

/-- The series the choices ask for are given: precipitation and potential evapotranspiration; with snow also the temperature,
the radiation for the temperature-index melt, and for CemaNeige the daily extremes if a unit lies below 1500 m. -/
structure SeriesGiven {K : Type} [Field K] [LinearOrder K] (o : Choices) (xi : InputX K) (loaded : List Var) : Prop where
  precipitation : .precipitation ∈ loaded
  pet : .pet ∈ loaded
  temperature : o.snow = true → .temperature ∈ loaded
  radiation : o.snow = true → o.melt = "melt:temperature_index" → .radiation ∈ loaded
  extremes : o.snow = true → o.splitter = "snow_rain:cemaneige" → ∀ u e, u < xi.base.units.length → (xi.ext u).elevation = some e →
    e < 1500 → .temperatureMin ∈ loaded ∧ .temperatureMax ∈ loaded

/-- The model initialises, and with these series loaded no component of a unit follows a null pointer in a step. -/
def Ready {K : Type} [Field K] [LinearOrder K] (xi : InputX K) (loaded : List Var) : Prop :=
  ∃ m fs, prepare xi = .ok (m, fs) ∧ ∀ (u : ℕ) (un : UnitIn K), xi.base.units[u]? = some un →
    ∃ bu l, m.built.units[u]? = some bu ∧ fs[u]? = some l ∧ Safe xi m u un bu l loaded

/-- The choices made with Socont: the slope is read by its surface runoff and by the snow redistribution. -/
def socontChoices (o : SocontOpts) : Choices :=
  ⟨true, o.snow.melt, defaultSplitter o.snow.melt, o.linearRunoff = false ∨ o.snow.redistribution ≠ none⟩

/-- The choices made with HBV-96. -/
def hbvChoices (o : HbvOpts) : Choices := ⟨true, o.snow.melt, defaultSplitter o.snow.melt, o.snow.redistribution ≠ none⟩

/-- The choices made with GR4J and GR6J. -/
def grChoices (o : GrOpts) : Choices :=
  ⟨o.melt.isSome, o.melt.getD "melt:degree_day", o.snowRain.getD (defaultSplitter (o.melt.getD "melt:degree_day")), o.redistribution ≠ none⟩

end HB.Spec
