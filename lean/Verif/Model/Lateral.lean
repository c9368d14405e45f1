import Verif.Model.Network
import Mathlib.Analysis.SpecialFunctions.Pow.Real

/-!
# Lateral snow transfers

Model of `ProcessLateral.cpp`, `ProcessLateralSnowSlide.cpp`, `ProcessLateralSnowRedistributionFrey.cpp` and
of the fluxes the builder makes for them (ModelBuilder.cpp:476-508).  Parameters stored as `float` are exact.
-/

namespace HB

noncomputable section

/-- A snowpack of a receiving unit: extent of its land cover, snow it holds (SWE). -/
structure RPack where
  frac : ℝ
  swe : ℝ

/-- A lateral connection: share given, area of the receiver, its snowpacks
(HydroUnitLateralConnection.cpp, HydroUnit::GetSnowpacks). -/
structure Conn where
  weight : ℝ
  area : ℝ
  packs : List RPack

/-- One output of the process. -/
structure LatOut where
  weight : ℝ
  area : ℝ
  frac : ℝ
  swe : ℝ

/-- `HydroUnit::AddLateralConnection` (HydroUnit.cpp:205-211): the check made on a share. -/
def connAccepted (c : Conn) : Prop := ¬ (c.weight ≤ 0 ∨ c.weight > 1)

/-- The builder creates one output per snowpack of each receiver, weighted with the share of the connection
(ModelBuilder.cpp:480-502). -/
def latOuts (cs : List Conn) : List LatOut :=
  cs.flatMap fun c => c.packs.map fun p => ⟨c.weight, c.area, p.frac, p.swe⟩

/-- `sweToDepthFactor` (ProcessLateralSnowSlide.cpp:53; GlobVars.h:9-10: 1000/250). -/
def sweToDepth : ℝ := 1000 / 250

structure SlidePar where
  slope : ℝ
  coeff : ℝ
  expo : ℝ
  minSlope : ℝ
  maxSlope : ℝ
  minHold : ℝ
  maxDepth : ℝ

/-- Holding depth (ProcessLateralSnowSlide.cpp:60-75), in mm of snow. -/
def holdingDepth (p : SlidePar) : ℝ :=
  let thr := p.coeff * (max p.slope p.minSlope) ^ p.expo * 1000
  let thr := if p.slope > p.maxSlope then p.minHold else thr
  let thr := max thr p.minHold
  if p.maxDepth > 0 then min thr p.maxDepth else thr

/-- Excess snow, capped at 1000 mm (ProcessLateralSnowSlide.cpp:77-96). -/
def slideExcess (p : SlidePar) (swe : ℝ) : ℝ :=
  let depth := swe * sweToDepth
  let e := if depth > holdingDepth p then (depth - holdingDepth p) / sweToDepth else 0
  if e > 1000 then 1000 else e

/-- `AvoidUnrealisticAccumulation` (ProcessLateralSnowSlide.cpp:120-134, Frey:215-229); `f` is the SWE to depth
factor. -/
def avoidAccumulation (maxDepth f rate : ℝ) (o : LatOut) : ℝ :=
  if maxDepth > 0 ∧ o.swe > 3 / 2 * maxDepth / f then 0 else rate

/-- Rate to one output for an amount `amount` to be shared (ProcessLateralSnowSlide.cpp:98-109, Frey:194-204). -/
def latRate (maxDepth f amount : ℝ) (o : LatOut) : ℝ :=
  if |o.frac| ≤ prec then 0 else avoidAccumulation maxDepth f (amount * o.weight * o.frac) o

/-- `ProcessLateralSnowSlide::GetRates` (lines 46-118): nothing when there is no excess. -/
def slideRates (p : SlidePar) (swe : ℝ) (outs : List LatOut) : List ℝ :=
  if slideExcess p swe ≤ 0 then outs.map (fun _ => 0)
  else outs.map (latRate p.maxDepth sweToDepth (slideExcess p swe))

structure FreyPar where
  slope : ℝ
  holding : ℝ
  rho : ℝ
  rhoMax : ℝ
  correction : ℝ
  maxDepth : ℝ

/-- Snow kept by vegetation, as SWE (Frey:165-168). -/
def freyHolding (p : FreyPar) : ℝ := p.holding / (1000 / p.rho)

/-- `f_rho` (Frey:175-181). -/
def freyCoef (p : FreyPar) : ℝ :=
  if p.rho < p.rhoMax then
    (p.rhoMax - p.rho) / p.rhoMax * Real.exp (-p.rho / p.rhoMax) * (max 0 (min 90 p.slope) / 90)
  else 0

/-- Amount redistributed (Frey:155-192), 0 when one of the early returns is taken. -/
def freyAmount (p : FreyPar) (swe : ℝ) : ℝ :=
  if swe ≤ 0 then 0
  else if max (swe - freyHolding p) 0 ≤ 0 then 0
  else if freyCoef p ≤ 0 then 0
  else
    let r := max (swe - freyHolding p) 0 * freyCoef p * p.correction
    if r > 1000 then 1000 else r

/-- `ProcessLateralSnowRedistributionFrey::GetRates` (lines 149-213). -/
def freyRates (p : FreyPar) (swe : ℝ) (outs : List LatOut) : List ℝ :=
  outs.map (latRate p.maxDepth (1000 / p.rho) (freyAmount p swe))

/-- `ComputeFractionAreas` (ProcessLateral.cpp:68-76), stored as the unit-area fraction of the flux. -/
def fractionAreas (oArea oFrac : ℝ) (o : LatOut) : ℝ := oArea * oFrac / (o.area * o.frac)

/-- What the flux brings to the target when `x` mm leave the origin (`UpdateFlux`; the land cover fraction of
the flux is 1, `SetAreaFraction` not being called for snowpacks). `inst` as `AddSnowRedistribution` sets it
(SettingsModel.cpp:569-570). -/
def latDeliver (inst : Bool) (oArea oFrac : ℝ) (o : LatOut) (x : ℝ) : ℝ :=
  FluxSpec.scale { target := .outside, inst := inst, frac := fractionAreas oArea oFrac o } x

/-! ## Density tracking of Frey & Holzmann -/

structure FreyDens where
  rhoMin : ℝ
  rhoFreshMax : ℝ
  rhoMax : ℝ
  settling : ℝ
  rhoScale : ℝ
  tScale : ℝ

/-- `ComputeFreshSnowDensity` (Frey:99-107). -/
def freshDensity (d : FreyDens) (tAir : ℝ) : ℝ :=
  let t := tAir / d.rhoScale + d.tScale
  (d.rhoFreshMax - d.rhoMin) * (t / Real.sqrt (1 + t * t) + 1) * (1 / 2) + d.rhoMin

/-- `Finalize` (Frey:109-140): new density from the old one. -/
def freyFinalize (d : FreyDens) (tAir dt density prevSwe swe : ℝ) : ℝ :=
  let settle := max 0 (min 1 (d.settling * dt))
  let settled := density + (d.rhoMax - density) * settle
  let fresh := max (swe - prevSwe) 0
  let existing := max (min prevSwe swe) 0
  if swe ≤ 0 then freshDensity d tAir
  else if fresh > 0 ∧ existing + fresh > 0 then
    (existing * settled + fresh * freshDensity d tAir) / (existing + fresh)
  else settled

end

end HB
