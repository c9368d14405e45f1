import Mathlib.Analysis.SpecialFunctions.Pow.Real
import Mathlib.Analysis.SpecialFunctions.Log.Basic
import Mathlib.Analysis.SpecialFunctions.Trigonometric.DerivHyp
import Mathlib.Algebra.BigOperators.Intervals

/-!
# The documented equations of the processes

The equations written in the class comments of `core/src/processes/*.h` and `core/src/fluxes/Splitter*.h` (the reference of the
user), as plain functions of real numbers.  `S` is the water held, `Smax` the capacity, rates are per day.  Square roots and integer
powers are written as such.
-/

namespace HB.Doc

noncomputable section

/-! ## Evapotranspiration (ProcessET*.h) -/

def etLinear (PET S Smax : ℝ) : ℝ := PET * min (S / Smax) 1
def etPowerLaw (PET S Smax exponent : ℝ) : ℝ := PET * (S / Smax) ^ exponent
def etSocont (PET S Smax : ℝ) : ℝ := PET * Real.sqrt (S / Smax)
def etExponential (PET S Smax alpha : ℝ) : ℝ := PET * (1 - Real.exp (-alpha * (S / Smax)))
def etHBV (cevpf PET SM LP FC : ℝ) : ℝ := cevpf * PET * min (SM / (LP * FC)) 1
def etOpenWater (PET content dt : ℝ) : ℝ := min PET (content / dt)
def etGR4J (S En X1 : ℝ) : ℝ := S * (2 - S / X1) * Real.tanh (En / X1) / (1 + (1 - S / X1) * Real.tanh (En / X1))

/-! ## Infiltration, percolation, production (ProcessInfiltration*.h, ProcessPercolation*.h, ProcessProductionGR4J.h) -/

def infiltrationSocont (water S Smax : ℝ) : ℝ := water * (1 - (S / Smax) ^ 2)
def infiltrationHBV (water SM FC beta : ℝ) : ℝ := water * (1 - (SM / FC) ^ beta)
def infiltrationGR4J (Pn S X1 : ℝ) : ℝ :=
  X1 * (1 - (S / X1) ^ 2) * Real.tanh (Pn / X1) / (1 + S / X1 * Real.tanh (Pn / X1))
def percolationGR4J (S X1 : ℝ) : ℝ := S * (1 - (1 + (4 / 9 * S / X1) ^ 4) ^ (-(1 / 4) : ℝ))
/-- The flux to routing: net rain that did not infiltrate, and percolation. -/
def productionPR (Pn Ps Perc : ℝ) : ℝ := Pn - Ps + Perc

/-! ## Outflow and runoff (ProcessOutflow*.h, ProcessRunoff*.h, ProcessCapillaryHBV.h) -/

def outflowLinear (k S : ℝ) : ℝ := k * S
def outflowDirect (S : ℝ) : ℝ := max 0 S
def outflowThreshold (content capacity : ℝ) : ℝ := max 0 (content - capacity)
def outflowSnowHolding (W whc SWE : ℝ) : ℝ := max 0 (W - whc * SWE)
def runoffHBV (k UZ alpha : ℝ) : ℝ := k * UZ ^ (1 + alpha)
/-- `q = β √slope h^(5/3) / area` in m/s with the depth `h` at the foot of the plane, twice the mean depth; the mean depth is
`S` mm. The result is in mm/d and capped at the content. -/
def runoffSocont (beta slope area S : ℝ) : ℝ :=
  min (86400 * 1000 * (beta * Real.sqrt slope * (2 * (S / 1000)) ^ (5 / 3 : ℝ) / area)) S
def capillaryHBV (cflux w SM FC : ℝ) : ℝ := cflux * w * (1 - SM / FC)

/-! ## Snow and ice (ProcessMelt*.h, ProcessRefreezeDegreeDay.h, ProcessSublimation*.h, ProcessTransform*.h) -/

def degreeDay (cfmax T TT : ℝ) : ℝ := if T ≥ TT then cfmax * (T - TT) else 0
def temperatureIndex (MF r I T TT : ℝ) : ℝ := if T ≥ TT then (T - TT) * (MF + r * I) else 0
def refreeze (cfr cfmax T TT : ℝ) : ℝ := if T < TT then cfr * cfmax * (TT - T) else 0
/-- The thermal state of CemaNeige. -/
def cemaState (CTG previous T Tmelt : ℝ) : ℝ := min 0 (CTG * previous + (1 - CTG) * (T - Tmelt))
def cemaPotential (Kf eTG T Tmelt : ℝ) : ℝ := if eTG = 0 ∧ T > Tmelt then Kf * (T - Tmelt) else 0
def cemaMelt (SWE Cn PotMelt : ℝ) : ℝ := (0.9 * min 1 (SWE / Cn) + 0.1) * PotMelt
/-- Seasonal coefficient of the snow to ice transformation. -/
def swat (b doy ref SWE : ℝ) : ℝ := b * (1 + Real.sin (2 * Real.pi * (doy - ref) / 365)) * SWE

/-! ## Lateral transfers (ProcessLateralSnow*.h) -/

/-- Holding depth of SnowSlide in mm, the coefficient being in m. -/
def slideHold (coeff slope exp minDepth maxDepth : ℝ) : ℝ := min (max (1000 * (coeff * slope ^ exp)) minDepth) maxDepth
def freyExcess (swe Hv depthFactor : ℝ) : ℝ := max (swe - Hv / depthFactor) 0
def freyCoefficient (rhoMax rho slope : ℝ) : ℝ := (rhoMax - rho) / rhoMax * Real.exp (-rho / rhoMax) * (slope / 90)

/-! ## Separation of rain and snow (Splitter*.h) -/

/-- Solid fraction of CemaNeige. -/
def solidFraction (Tmean Tmin Tmax : ℝ) : ℝ := max 0 (min 1 ((Tmax - Tmean) / (Tmax - Tmin)))
def thresholdSnow (P T threshold : ℝ) : ℝ := if T ≤ threshold then P else 0

/-! ## Routing (ProcessRoutingGR4J.h, ProcessRoutingGR6J.h, ProcessRoutingHBV.h) -/

/-- Share of an input that leaves `k` steps later, for an S-curve. -/
def ordinate (S : ℝ → ℝ) (k : ℕ) : ℝ := S (k + 1) - S k

/-- Convolution of the inputs with a unit hydrograph. -/
def routed (S : ℝ → ℝ) (input : ℕ → ℝ) (t : ℕ) : ℝ := ∑ k ∈ Finset.range (t + 1), ordinate S k * input (t - k)

/-- `SH1`: 90 % of the water, time base X4. -/
def sCurve1 (X4 t : ℝ) : ℝ := (min 1 (max 0 t / X4)) ^ (5 / 2 : ℝ)

/-- `SH2`: 10 % of the water, time base 2 X4, symmetric. -/
def sCurve2 (X4 t : ℝ) : ℝ :=
  if t ≤ X4 then 1 / 2 * (max 0 t / X4) ^ (5 / 2 : ℝ) else 1 - 1 / 2 * (max 0 (2 - t / X4)) ^ (5 / 2 : ℝ)

/-- Cumulated triangular weights of HBV, base `m`. -/
def triangle (m t : ℝ) : ℝ := if t ≤ m / 2 then 2 * (max 0 t / m) ^ 2 else 1 - 2 * (max 0 (1 - t / m)) ^ 2

/-- Release of a routing store of level `R`. -/
def release (R X3 : ℝ) : ℝ := R * (1 - (1 + (R / X3) ^ 4) ^ (-(1 / 4) : ℝ))

def exchangeGR4J (X2 R X3 : ℝ) : ℝ := X2 * (R / X3) ^ (7 / 2 : ℝ)
def exchangeGR6J (X2 R X3 X5 : ℝ) : ℝ := X2 * (R / X3 - X5)

/-- The routing store of GR4J after `t` steps, from empty, for the inputs `PR`. -/
def storeGR4J (X2 X3 X4 : ℝ) (PR : ℕ → ℝ) : ℕ → ℝ
  | 0 => 0
  | t + 1 =>
    let F := exchangeGR4J X2 (storeGR4J X2 X3 X4 PR t) X3
    let R := max 0 (storeGR4J X2 X3 X4 PR t + routed (sCurve1 X4) (fun s => 0.9 * PR s) t + F)
    R - release R X3

/-- The discharge of GR4J in step `t`. -/
def dischargeGR4J (X2 X3 X4 : ℝ) (PR : ℕ → ℝ) (t : ℕ) : ℝ :=
  let R := storeGR4J X2 X3 X4 PR t
  let F := exchangeGR4J X2 R X3
  release (max 0 (R + routed (sCurve1 X4) (fun s => 0.9 * PR s) t + F)) X3 + max 0 (routed (sCurve2 X4) (fun s => 0.1 * PR s) t + F)

/-- The power store of GR6J after `t` steps, from empty. -/
def storeGR6J (X2 X3 X4 X5 : ℝ) (PR : ℕ → ℝ) : ℕ → ℝ
  | 0 => 0
  | t + 1 =>
    let F := exchangeGR6J X2 (storeGR6J X2 X3 X4 X5 PR t) X3 X5
    let R := max 0 (storeGR6J X2 X3 X4 X5 PR t + 0.6 * routed (sCurve1 X4) (fun s => 0.9 * PR s) t + F)
    R - release R X3

/-- The exponential store of GR6J after `t` steps, from empty, for an outflow function `q`. -/
def expStoreGR6J (q : ℝ → ℝ) (X2 X3 X4 X5 : ℝ) (PR : ℕ → ℝ) : ℕ → ℝ
  | 0 => 0
  | t + 1 =>
    let F := exchangeGR6J X2 (storeGR6J X2 X3 X4 X5 PR t) X3 X5
    let R := expStoreGR6J q X2 X3 X4 X5 PR t + 0.4 * routed (sCurve1 X4) (fun s => 0.9 * PR s) t + F
    R - q R

/-- The discharge of GR6J in step `t`. -/
def dischargeGR6J (q : ℝ → ℝ) (X2 X3 X4 X5 : ℝ) (PR : ℕ → ℝ) (t : ℕ) : ℝ :=
  let R := storeGR6J X2 X3 X4 X5 PR t
  let U := routed (sCurve1 X4) (fun s => 0.9 * PR s) t
  let F := exchangeGR6J X2 R X3 X5
  max 0 (release (max 0 (R + 0.6 * U + F)) X3 + q (expStoreGR6J q X2 X3 X4 X5 PR t + 0.4 * U + F) +
    max 0 (routed (sCurve2 X4) (fun s => 0.1 * PR s) t + F))

end

end HB.Doc
