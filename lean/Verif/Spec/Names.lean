import Verif.Model.Names

/-!
# The documented names, component by component
-/

namespace HB.Spec

open HB.Names

/-- Names of each solver. -/
def solverNames : SolverClass → List String
  | .rk4 => ["rk4", "runge_kutta"]
  | .eulerExplicit => ["euler_explicit"]
  | .heunExplicit => ["heun_explicit"]
  | .analyticLinear => ["analytic_linear", "analytic"]
  | .implicitEuler => ["implicit_euler", "euler_implicit"]
  | .crankNicolson => ["crank_nicolson", "trapezoidal"]
  | .exponentialEuler => ["exponential_euler"]

/-- Names of each process, old names included. -/
def processNames : ProcClass → List String
  | .outflowLinear => ["outflow:linear"]
  | .percolationConstant => ["percolation:constant", "outflow:percolation"]
  | .percolationGR4J => ["percolation:gr4j"]
  | .outflowDirect => ["outflow:direct"]
  | .outflowRest => ["outflow:rest"]
  | .outflowOverflow => ["outflow:overflow", "overflow"]
  | .runoffSocont => ["runoff:socont"]
  | .infiltrationSocont => ["infiltration:socont"]
  | .infiltrationGR4J => ["infiltration:gr4j"]
  | .infiltrationHBV => ["infiltration:hbv"]
  | .runoffHBV => ["runoff:hbv"]
  | .capillaryHBV => ["capillary:hbv"]
  | .routingHBV => ["routing:hbv"]
  | .outflowSnowHolding => ["outflow:snow_holding"]
  | .outflowThreshold => ["outflow:threshold"]
  | .refreezeDegreeDay => ["refreeze:degree_day"]
  | .productionGR4J => ["production:gr4j"]
  | .etSocont => ["et:socont"]
  | .etGR4J => ["et:gr4j"]
  | .etHBV => ["et:hbv"]
  | .etOpenWater => ["et:open_water"]
  | .etLinear => ["et:linear"]
  | .etPowerLaw => ["et:power_law"]
  | .etExponential => ["et:exponential"]
  | .meltDegreeDay => ["melt:degree_day"]
  | .meltDegreeDayAspect => ["melt:degree_day_aspect"]
  | .meltTemperatureIndex => ["melt:temperature_index"]
  | .meltCemaNeige => ["melt:cemaneige"]
  | .sublimationConstant => ["sublimation:constant"]
  | .sublimationPET => ["sublimation:pet"]
  | .snowToIceConstant => ["transformation:snow_ice_constant", "transform:snow_ice_constant"]
  | .snowToIceSwat => ["transformation:snow_ice_swat", "transform:snow_ice_swat"]
  | .snowSlide => ["transport:snow_slide"]
  | .snowFrey => ["transport:snow_redistribution_frey"]
  | .snowFreyDynamic => ["transport:snow_redistribution_frey_dynamic"]
  | .interceptionGR4J => ["interception:gr4j"]
  | .routingGR4J => ["routing:gr4j"]
  | .routingGR6J => ["routing:gr6j"]

/-- Processes working on a snow store, and those working on snow or glacier ice; the others work on the water store. -/
def storeFor : ProcClass → Category → Option Store
  | .meltDegreeDay, c | .meltDegreeDayAspect, c | .meltTemperatureIndex, c =>
    if c = .snowpack then some .snow else if c = .glacier then some .ice else none
  | .meltCemaNeige, c | .sublimationConstant, c | .sublimationPET, c | .snowToIceConstant, c | .snowToIceSwat, c | .snowSlide, c | .snowFrey, c | .snowFreyDynamic, c =>
    if c = .snowpack then some .snow else none
  | _, _ => some .water

/-- Names of each splitter. -/
def splitterNames : SplitClass → List String
  | .snowRainThreshold => ["snow_rain:threshold"]
  | .snowRainLinear => ["snow_rain:linear"]
  | .snowRainCemaNeige => ["snow_rain:cemaneige"]
  | .rain => ["rain"]
  | .multiFluxes => ["multi_fluxes"]

/-- Names of each brick type. -/
def brickNames : BrickClass → List String
  | .storage => ["storage"]
  | .genericLandCover => ["generic_land_cover", "ground", "generic", "open"]
  | .glacier => ["glacier"]
  | .snowpack => ["snowpack"]
  | .interceptionStorage => ["interception_storage"]

/-- Names of each forcing variable in a time series, in lower case. -/
def variableNames : Var → List String
  | .precipitation => ["precipitation", "p"]
  | .temperature => ["temperature", "t"]
  | .temperatureMin => ["temperature_min", "t_min"]
  | .temperatureMax => ["temperature_max", "t_max"]
  | .radiation => ["solar_radiation", "r_solar", "r"]
  | .pet => ["pet", "etp"]
  | .custom1 => ["custom_1"]
  | .custom2 => ["custom_2"]
  | .custom3 => ["custom_3"]

/-- Lower case of a character (ASCII letters only). -/
def lowerCode (c : Char) : ℕ := if 65 ≤ c.toNat ∧ c.toNat ≤ 90 then c.toNat + 32 else c.toNat

/-- Equality up to the case of the letters. -/
def SameLetters (a b : String) : Prop := a.toList.map lowerCode = b.toList.map lowerCode

end HB.Spec
