import Verif.Model.Container
import Mathlib.Analysis.SpecialFunctions.Pow.Real
import Mathlib.Analysis.SpecialFunctions.Trigonometric.DerivHyp

/-!
# Process laws

Model of the `GetRates` functions of `core/src/processes/*.cpp` and of the splitters of
`core/src/fluxes/Splitter*.cpp`.  Parameters are `float`s in the code and exact reals here; `std::pow`,
`std::exp`, `std::tanh` are the real functions.  `none` stands for a null dereference (a law that needs a
capacity on a container without one).
-/

namespace HB

noncomputable section

namespace Cont

/-- `GetContentWithChanges` of a finite container (WaterContainer.h:151-157). -/
def lvl (c : Cont ℝ) : ℝ := c.content + c.dyn + c.stat

end Cont

/-- `Process::GetChangeRates` for a single output (Process.cpp:480-487): nothing leaves a container whose
content is at most 1e-8; an infinite container is never empty. -/
def changeRate (c : Cont ℝ) (r : ℝ) : ℝ :=
  if !c.infinite && lessThanOrEqual c.lvl 0 prec then 0 else r

/-! ## Splitters: pairs (rain, snow) -/

/-- `SplitterSnowRainThreshold::Compute` (SplitterSnowRainThreshold.cpp:45-54). -/
def splitThreshold (P T threshold rcf scf : ℝ) : ℝ × ℝ :=
  if T ≤ threshold then (0, P * scf) else (P * rcf, 0)

/-- `SplitterSnowRainLinear::Compute` (SplitterSnowRainLinear.cpp:49-64). -/
def splitLinear (P T tStart tEnd rcf scf : ℝ) : ℝ × ℝ :=
  if T ≤ tStart then (0, P * scf)
  else if T ≥ tEnd then (P * rcf, 0)
  else
    let f := (T - tStart) / (tEnd - tStart)
    (P * f * rcf, P * (1 - f) * scf)

/-- Solid fraction of `SplitterSnowRainCemaNeige::Compute` (SplitterSnowRainCemaNeige.cpp:81-112). -/
def cemaSolid (elevation T tMin tMax : ℝ) : ℝ :=
  if elevation ≥ 1500 then
    if T ≤ -1 then 1 else if T ≥ 3 then 0 else (3 - T) / 4
  else
    let tMax := if tMax < tMin then tMin else tMax
    if tMax ≤ 0 then 1 else if tMin ≥ 0 then 0 else 1 - tMax / (tMax - tMin)

/-- `SplitterSnowRainCemaNeige::Compute` (SplitterSnowRainCemaNeige.cpp:80-117). -/
def splitCema (P elevation T tMin tMax rcf scf : ℝ) : ℝ × ℝ :=
  let s := cemaSolid elevation T tMin tMax
  (P * (1 - s) * rcf, P * s * scf)

/-- `SplitterRain::Compute` (SplitterRain.cpp:37-39). -/
def splitRain (P rcf : ℝ) : ℝ := P * rcf

/-- `SplitterMultiFluxes::Compute` (SplitterMultiFluxes.cpp:35-40): every output receives the first
input. -/
def splitMulti (n : Nat) (input : ℝ) : List ℝ := List.replicate n input

/-! ## GR4J formulas -/

/-- `gr4j::Infiltration` (GR4JFormulas.h:26-33). -/
def gr4jInfiltration (S Pn X1 : ℝ) : ℝ :=
  if Pn ≤ 0 ∨ X1 ≤ 0 then 0 else
  let Sr := S / X1
  let tws := Real.tanh (min (Pn / X1) 13)
  X1 * (1 - Sr * Sr) * tws / (1 + Sr * tws)

/-- `gr4j::Evaporation` (GR4JFormulas.h:39-46). -/
def gr4jEvaporation (S En X1 : ℝ) : ℝ :=
  if En ≤ 0 ∨ X1 ≤ 0 then 0 else
  let Sr := S / X1
  let tws := Real.tanh (min (En / X1) 13)
  S * (2 - Sr) * tws / (1 + (1 - Sr) * tws)

/-- `gr4j::Percolation` (GR4JFormulas.h:51-57). -/
def gr4jPercolation (S X1 : ℝ) : ℝ :=
  if X1 ≤ 0 then 0 else
  let r := S / X1
  S * (1 - (1 + (r * r * r * r) / (2562890625 / 100000000)) ^ (-(1 / 4) : ℝ))

/-- `ProcessProductionGR4J::GetRates` (ProcessProductionGR4J.cpp:34-63), with attached PET. -/
def productionRate (En : ℝ) (c : Cont ℝ) : Option ℝ :=
  c.cap.map fun X1 =>
    if X1 ≤ 0 then 0 else
    let S0 := c.content
    let Pn := c.lvl - (c.content + c.dyn)
    let Ps := gr4jInfiltration S0 Pn X1
    let S1 := S0 + Ps
    let Es := gr4jEvaporation S1 En X1
    let S2 := S1 - Es
    let Perc := gr4jPercolation S2 X1
    (Pn - Ps) + Perc

/-- `ProcessPercolationGR4J::GetRates` (ProcessPercolationGR4J.cpp:14-21). -/
def percolationGR4JRate (c : Cont ℝ) : Option ℝ :=
  c.cap.map fun X1 => if X1 ≤ 0 then 0 else gr4jPercolation c.lvl X1

/-- `ProcessInfiltrationGR4J::GetRates` (ProcessInfiltrationGR4J.cpp:11-20). -/
def infiltrationGR4JRate (c target : Cont ℝ) : Option ℝ :=
  target.cap.map fun X1 => if c.lvl ≤ 0 ∨ X1 ≤ 0 then 0 else gr4jInfiltration target.lvl c.lvl X1

/-! ## Evapotranspiration -/

/-- The evapotranspiration processes and their parameters. -/
inductive ETLaw
  | linear                       -- ProcessETLinear.cpp
  | power (exponent : ℝ)         -- ProcessETPowerLaw.cpp
  | socont                       -- ProcessETSocont.cpp, exponent 0.5
  | expo (alpha : ℝ)             -- ProcessETExponential.cpp
  | hbv (lp factor : ℝ)          -- ProcessETHBV.cpp
  | openWater                    -- ProcessETOpenWater.cpp
  | gr4j                         -- ProcessETGR4J.cpp

/-- `GetRates` of the ET processes: ProcessETLinear.cpp:36-39, ProcessETPowerLaw.cpp:47-50,
ProcessETSocont.cpp:35-38, ProcessETExponential.cpp:47-51, ProcessETHBV.cpp:53-64,
ProcessETOpenWater.cpp:36-52 (`dt` = time step in days, a time machine is attached),
ProcessETGR4J.cpp:34-55. -/
def etRate (dt pet : ℝ) (c : Cont ℝ) : ETLaw → Option ℝ
  | .linear => c.fillingRatio.map fun r => pet * min 1 r
  | .power e => c.fillingRatio.map fun r => pet * r ^ e
  | .socont => c.fillingRatio.map fun r => pet * r ^ (1 / 2 : ℝ)
  | .expo alpha => c.fillingRatio.map fun r => pet * (1 - Real.exp (-alpha * r))
  | .hbv lp factor => c.cap.map fun cap =>
      let pet := factor * pet
      let threshold := lp * cap
      if threshold ≤ 0 then pet else pet * min 1 (c.lvl / threshold)
  | .openWater => some (if dt > 0 then min pet (max 0 (c.lvl / dt)) else pet)
  | .gr4j =>
      if pet ≤ 0 then some 0 else c.cap.map fun X1 =>
        if X1 ≤ 0 then 0 else
        let S0 := c.content
        let Pn := c.lvl - (c.content + c.dyn)
        let S1 := S0 + gr4jInfiltration S0 Pn X1
        gr4jEvaporation S1 pet X1

/-! ## Interception -/

/-- `ProcessInterceptionGR4J::GetRates` through `GetChangeRates` (ProcessInterceptionGR4J.cpp:34-39,
Process.cpp:480-487): the rate, and the value published for the PET forcing (`none`: not updated). -/
def interception (pet : ℝ) (c : Cont ℝ) : ℝ × Option ℝ :=
  if lessThanOrEqual c.lvl 0 prec then (0, none)
  else (min c.lvl pet, some (max 0 (pet - c.lvl)))

/-! ## Infiltration -/

/-- `ProcessInfiltrationSocont::GetRates` (ProcessInfiltrationSocont.cpp:17-23). -/
def infiltrationSocont (c target : Cont ℝ) : Option ℝ :=
  target.cap.bind fun cap => if cap ≤ 0 then some 0 else
    target.fillingRatio.map fun r => c.lvl * (1 - r ^ (2 : ℝ))

/-- `ProcessInfiltrationHBV::GetRates` (ProcessInfiltrationHBV.cpp:33-43). -/
def infiltrationHBV (beta : ℝ) (c target : Cont ℝ) : Option ℝ :=
  target.cap.bind fun cap => if c.lvl ≤ 0 ∨ cap ≤ 0 then some 0 else
    target.fillingRatio.map fun r => c.lvl * (1 - (max 0 (min 1 r)) ^ beta)

/-! ## Outflows -/

/-- `ProcessOutflowLinear::GetRates` (ProcessOutflowLinear.cpp:19-21). -/
def outflowLinear (k : ℝ) (c : Cont ℝ) : ℝ := k * c.lvl

/-- `ProcessOutflowDirect::GetRates` (ProcessOutflowDirect.cpp:42-44). -/
def outflowDirect (c : Cont ℝ) : ℝ := max c.lvl 0

/-- `ProcessOutflowRest::GetRates` (ProcessOutflowRest.cpp:13-41); `others`: linked change rates of the
sibling processes' output fluxes (null pointers left out). -/
def outflowRest (needsSolver : Bool) (others : List ℝ) (c : Cont ℝ) : ℝ :=
  max (if needsSolver then c.lvl - others.sum else c.lvl) 0

/-- `ProcessOutflowThreshold::GetRates` (ProcessOutflowThreshold.cpp:31-43). -/
def outflowThreshold (dt capacity : ℝ) (c : Cont ℝ) : ℝ :=
  let excess := c.lvl - capacity
  if excess ≤ 0 then 0 else excess / dt

/-- `ProcessOutflowSnowHolding::GetRates` (ProcessOutflowSnowHolding.cpp:38-60). -/
def outflowSnowHolding (dt whc : ℝ) (snow water : Cont ℝ) : ℝ :=
  let excess := water.lvl - whc * snow.lvl
  if excess ≤ 0 then 0 else excess / dt

/-- `ProcessRunoffHBV::GetRates` (ProcessRunoffHBV.cpp:35-42). -/
def runoffHBV (k alpha : ℝ) (c : Cont ℝ) : ℝ :=
  if c.lvl ≤ 0 then 0 else k * c.lvl ^ (1 + alpha)

/-- `ProcessRunoffSocont::GetRates` (ProcessRunoffSocont.cpp:41-56); exponent 5/3
(ProcessRunoffSocont.cpp:13). -/
def runoffSocont (beta slope area : ℝ) (c : Cont ℝ) : ℝ :=
  let shape : ℝ := 2
  let h := c.lvl * shape / 1000
  let qQuick := beta * slope ^ (1 / 2 : ℝ) * h ^ (5 / 3 : ℝ) / area
  let dh := qQuick * shape * 86400
  let runoff := (dh / shape) * 1000
  min runoff c.lvl

/-! ## Percolation and capillary rise -/

/-- `ProcessPercolationConstant::GetRates` (ProcessPercolationConstant.cpp:23-25). -/
def percolationConstant (rate : ℝ) : ℝ := rate

/-- One target of `ProcessCapillaryHBV`: its container and the fractions of the land covers that feed
it. -/
structure CapTarget where
  cont : Cont ℝ
  fractions : List ℝ

/-- Area weight of a capillary target (ProcessCapillaryHBV.cpp:83-89). -/
def CapTarget.weight (t : CapTarget) : ℝ := if t.fractions = [] then 1 else t.fractions.sum

/-- Rate towards one target (ProcessCapillaryHBV.cpp:72-93). -/
def capillaryRate (cflux : ℝ) (t : CapTarget) : Option ℝ :=
  t.cont.cap.bind fun cap => if cap ≤ 0 then some 0 else
    t.cont.fillingRatio.map fun r => cflux * t.weight * (1 - max 0 (min 1 r))

/-! ## Snow and ice -/

/-- `ContentAccessible` of water and snow containers (WaterContainer.cpp:237-239). -/
def accessible (c : Cont ℝ) : Bool := c.infinite || decide (c.lvl > 0)

/-- `ContentAccessible` of an ice container (IceContainer.cpp:22-32); `snow` is the related snowpack's
snow container (`HasSnow` = `IsNotEmpty`, Snowpack.cpp:139-141, WaterContainer.h:228-231). -/
def iceAccessible (noMeltUnderSnow : Bool) (snow : Cont ℝ) (c : Cont ℝ) : Bool :=
  if noMeltUnderSnow && (greaterThan snow.lvl 0 epsF && greaterThan snow.lvl 0 prec) then false
  else accessible c

/-- `ProcessMeltDegreeDay::GetRates` (ProcessMeltDegreeDay.cpp:49-60) and
`ProcessMeltDegreeDayAspect::GetRates` (ProcessMeltDegreeDayAspect.cpp:68-79). -/
def meltDegreeDay (acc : Bool) (T Tm ddf : ℝ) : ℝ :=
  if !acc then 0 else if T ≥ Tm then (T - Tm) * ddf else 0

/-- `ProcessMeltTemperatureIndex::GetRates` (ProcessMeltTemperatureIndex.cpp:62-74). -/
def meltTemperatureIndex (acc : Bool) (T Tm mf rc solar : ℝ) : ℝ :=
  if !acc then 0 else if T ≥ Tm then (T - Tm) * (mf + rc * solar) else 0

/-- Parameters of CemaNeige. -/
structure Cema where
  kf : ℝ
  ctg : ℝ
  tMelt : ℝ
  meanSnow : ℝ

/-- `ProcessMeltCemaNeige::GetRates` through `GetChangeRates` (ProcessMeltCemaNeige.cpp:63-92,
Process.cpp:480-487): new thermal state and melt rate.  The state is not updated while there is no
snow. -/
def meltCema (p : Cema) (T : ℝ) (c : Cont ℝ) (cold : ℝ) : ℝ × ℝ :=
  if (!c.infinite && lessThanOrEqual c.lvl 0 prec) || !accessible c then (cold, 0) else
  let cn := 9 / 10 * p.meanSnow
  let cold' := min 0 (p.ctg * cold + (1 - p.ctg) * (T - p.tMelt))
  if cold' < 0 ∨ T ≤ p.tMelt then (cold', 0) else
  let pot := p.kf * (T - p.tMelt)
  let g := if cn > 0 then min 1 (c.lvl / cn) else 1
  (cold', (9 / 10 * g + 1 / 10) * pot)

/-- `ProcessRefreezeDegreeDay::GetRates` (ProcessRefreezeDegreeDay.cpp:66-83); `melt = none`: no sibling
degree-day melt process. -/
def refreezeRate (melt : Option (ℝ × ℝ)) (crf T : ℝ) : ℝ :=
  match melt with
  | none => 0
  | some (Tm, ddf) => if T ≥ Tm then 0 else crf * ddf * (Tm - T)

/-- `ProcessSublimationConstant::GetRates` (ProcessSublimationConstant.cpp:30-36). -/
def sublimationConstant (acc : Bool) (rate : ℝ) : ℝ := if !acc then 0 else rate

/-- `ProcessSublimationPET::GetRates` (ProcessSublimationPET.cpp:44-50). -/
def sublimationPET (acc : Bool) (pet factor : ℝ) : ℝ := if !acc then 0 else pet * factor

/-- `ProcessTransformSnowToIceSwat::GetRates` (ProcessTransformSnowToIceSwat.cpp:31-39). -/
def snowToIceSwat (north : Bool) (coeff : ℝ) (doy : ℤ) (c : Cont ℝ) : ℝ :=
  let daysRef : ℤ := if north then 81 else 264
  coeff * (1 + Real.sin (2 * Real.pi * ((doy - daysRef : ℤ) : ℝ) / 365)) * c.lvl

end

end HB
