import Verif.Model.Setup
import Verif.Spec.Ready
import Verif.Spec.Basin
import Verif.Spec.DateText
import Verif.Props.LandCover

/-!
# What a user gives to set up a predefined model, and what comes out (C73)
-/

namespace HB.Spec

open HB.Names HB.Wire HB.Basin

variable {K : Type} [Field K] [LinearOrder K] [IsStrictOrderedRing K]

/-- The basin fits the land covers `cs` of the model (fewer than 9999): there are units, with different ids and positive areas; every
unit declares the covers of the model, once each, with fractions that are 0 or above 1e-8 and add up to 1 (to 1e-4); the shares of
the connections are in (0, 1]. -/
structure GoodBasin (cs : List PyCover) (d : Basin.Decl K) : Prop where
  few : cs.length < 9999
  some_unit : d.units ≠ []
  ids : (d.units.map (·.id)).Nodup
  area : ∀ u ∈ d.units, 0 < u.area
  covers : ∀ u ∈ d.units, u.covers.map (·.name) = cs.map (·.name)
  fraction : ∀ u ∈ d.units, ∀ c ∈ u.covers, c.fraction = 0 ∨ 1 / 10 ^ 8 < c.fraction ∧ c.fraction ≤ 1
  whole : ∀ u ∈ d.units, |(u.covers.map (·.fraction)).sum - 1| ≤ 1 / 10 ^ 4
  links : ∀ l ∈ d.laterals, Basin.Spec.Known d l.giver → Basin.Spec.Known d l.receiver → 0 < l.fraction ∧ l.fraction ≤ 1

/-- No unit mixes lakes with other covers. -/
def LakesApart (cs : List PyCover) (d : Basin.Decl K) : Prop := ∀ u ∈ d.units,
  (∀ c ∈ u.covers, c.fraction ≠ 0 → ∀ p ∈ cs, p.name = c.name → p.kind = "lake") ∨
  (∀ c ∈ u.covers, c.fraction ≠ 0 → ∀ p ∈ cs, p.name = c.name → p.kind ≠ "lake")

/-- The properties the choices ask for are declared for the unit, each once. -/
structure PropertiesGiven (o : Choices) (u : Basin.UnitDecl K) : Prop where
  once : (u.propsD.map (·.name) ++ u.propsS.map (·.name)).Nodup
  slope : o.slope → ∃ p ∈ u.propsD, p.name = "slope"
  aspect : o.snow = true → o.melt = "melt:degree_day_aspect" →
    ∃ p ∈ u.propsS, p.name = "aspect_class" ∧ p.value ∈ ["north", "N", "south", "S", "east", "west", "E", "W"]
  elevation : o.snow = true → o.splitter = "snow_rain:cemaneige" → ∃ p ∈ u.propsD, p.name = "elevation"

/-- The series the choices ask for are loaded. -/
structure DataGiven (o : Choices) (d : Basin.Decl K) (loaded : List Var) : Prop where
  precipitation : .precipitation ∈ loaded
  pet : .pet ∈ loaded
  temperature : o.snow = true → .temperature ∈ loaded
  radiation : o.snow = true → o.melt = "melt:temperature_index" → .radiation ∈ loaded
  extremes : o.snow = true → o.splitter = "snow_rain:cemaneige" → ∀ u ∈ d.units, ∀ p ∈ u.propsD, p.name = "elevation" → p.value < 1500 →
    .temperatureMin ∈ loaded ∧ .temperatureMax ∈ loaded

/-- The period is written as text in one of the documented ways, from the date-time `a` to the date-time `b`, not before `a`, with a positive number
of steps of a documented unit. -/
structure PeriodGiven (t : DateText.TimerSettings) (a b : CTime) : Prop where
  modernStart : DateText.Spec.Modern a
  modernEnd : DateText.Spec.Modern b
  ordered : a = b ∨ before a b
  start : ∃ pat ∈ DateText.Spec.ways .guess, DateText.Spec.Shown pat a ∧ t.start = DateText.Spec.text pat a
  stop : ∃ pat ∈ DateText.Spec.ways .guess, DateText.Spec.Shown pat b ∧ t.stop = DateText.Spec.text pat b
  step : 0 < t.timeStep
  unit : t.timeStepUnit ∈ ["day", "hour", "minute"]

/-- Length of a time step in days. -/
def stepDays (t : DateText.TimerSettings) : K :=
  (t.timeStep : K) * (if t.timeStepUnit = "day" then 1 else if t.timeStepUnit = "hour" then 1 / 24 else 1 / 1440)

/-- The model has the declared units: same areas, structure one of the described ones `vs`, every cover a unit really has is a
land-cover brick of the unit, no other described structure with these covers has fewer, the extents are the declared ones but for at
most 1e-4 on one cover (exactly the declared ones if these add up to 1), add up to 1, and a reset brings back the declared ones; the connections are the declared ones. -/
structure AsDeclared (vs : List Wire.Variant) (d : Basin.Decl K) (M : Setup.Model K) : Prop where
  units : M.input.base.units.length = d.units.length
  unit : ∀ (k : ℕ) (u : Basin.UnitDecl K), d.units[k]? = some u → ∃ (un : UnitIn K) (g : Basin.Ground K),
    M.input.base.units[k]? = some un ∧ M.grounds[k]? = some g ∧ un.area = u.area ∧
    (∃ v ∈ vs, un.str = complete v ∧ ∀ v' ∈ vs, (∀ c ∈ u.covers, c.fraction ≠ 0 → c.name ∈ v'.base.covers.map (·.name)) →
      v.base.covers.length ≤ v'.base.covers.length) ∧
    (un.lateral = d.laterals.filterMap fun l =>
      if l.giver = u.id then (d.units.findIdx? fun w => w.id == l.receiver).map fun r => (r, l.fraction) else none) ∧
    (un.str.covers.map fun i => (un.str.unitBricks[i]?).map (·.name)) = g.hu.covers.map some ∧
    (∀ c ∈ u.covers, c.fraction ≠ 0 → c.name ∈ g.hu.covers) ∧
    (∀ c ∈ u.covers, c.name ∈ g.hu.covers → |g.hu.frac c.name - c.fraction| ≤ 1 / 10 ^ 4 ∧ g.restore.hu.frac c.name = c.fraction) ∧
    (∃ c0, ∀ c ∈ u.covers, c.name ∈ g.hu.covers → c.name ≠ c0 ∨ (u.covers.map (·.fraction)).sum = 1 → g.hu.frac c.name = c.fraction) ∧
    (∀ c ∈ g.hu.covers, ∃ e ∈ u.covers, e.name = c) ∧ Extents g.hu

/-- The model `M` is the one given: it starts at `a`, stops at `b`, has the declared step, one row of results for each step that starts in
the period, at most as many spin-up steps, those that fit in the declared spin-up; it has the declared solver `sc` and units, and the structures of `vs`; and it can
compute (C65): initialisation has succeeded with what was built, and no component follows a null pointer.  Rows and spin-up steps are stated
for exact arithmetic (`rnd` is the identity); with doubles they are computed as in C39 (`rows_eq`). -/
structure SetUpAs (rnd : K → K) [FloorRing K] (vs : List Wire.Variant) (S : Setup.Settings K) (a b : CTime) (sc : SolverClass) (loaded : List Var)
    (M : Setup.Model K) : Prop where
  start : toMJD a = some M.start
  stop : toMJD b = some M.stop
  ordered : M.start ≤ M.stop
  step : M.dt = stepDays S.timer ∧ 0 < M.dt
  rows : (∀ x, rnd x = x) → ∀ j : ℕ, j < M.rows ↔ M.start + j * M.dt ≤ M.stop
  rows_eq : M.rows = stepCount rnd M.start M.stop M.dt
  spin : (∀ x, rnd x = x) → ∀ j : ℕ, j < M.spin ↔ j < M.rows ∧ (j + 1) * M.dt ≤ (S.spinupDays : K)
  solver : M.solver = sc
  structures : SetUp vs M.input
  declared : AsDeclared vs S.basin M
  built : Setup.Built M
  ready : Ready M.input loaded

end HB.Spec
