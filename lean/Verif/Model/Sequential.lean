import Mathlib.Analysis.SpecialFunctions.Exp
import Mathlib.Algebra.Order.Field.Basic
import Mathlib.Algebra.BigOperators.Group.List.Basic

/-!
# Rate computations of the sequential solvers

Model of `ComputeBrickRates` of `SolverAnalyticLinear.cpp:12-59`, `SolverImplicitEuler.cpp:12-61`,
`SolverCrankNicolson.cpp:12-63` and `SolverExponentialEuler.cpp:12-66`.  The processes of the brick are
given by their rates as functions of the content of the brick (`GetChangeRates` evaluated with the
content shifted through the dynamic change: `TotalRateAt`, SolverSequential.cpp:24-34).
-/

namespace HB

noncomputable section Analytic

/-- A process as seen by the analytic solver: a linear response with its coefficient
(`HasLinearResponse() && GetConnectionCount() == 1`), or the rates of its connections at the start of
the step. -/
inductive AProc | linear (k : ℝ) | frozen (rates : List ℝ)

/-- `totalLinearCoefficient` (SolverAnalyticLinear.cpp:17-25). -/
def linearTotal (ps : List AProc) : ℝ :=
  (ps.map (fun p => match p with | .linear k => k | .frozen _ => 0)).sum

/-- `totalFrozenRate` (SolverAnalyticLinear.cpp:26-33). -/
def frozenTotal (ps : List AProc) : ℝ :=
  (ps.map (fun p => match p with | .linear _ => 0 | .frozen r => r.sum)).sum

/-- `newContent` (SolverAnalyticLinear.cpp:41-43). -/
def analyticContent (k net content h : ℝ) : ℝ :=
  content * Real.exp (-k * h) + net / k * (1 - Real.exp (-k * h))

/-- `linearOutflowRate` (SolverAnalyticLinear.cpp:45-46). -/
def analyticOut (k net content h : ℝ) : ℝ :=
  max ((net * h - (analyticContent k net content h - content)) / h) 0

/-- Rates of one process, given the total coefficient `k` and the total linear release `Q`
(SolverAnalyticLinear.cpp:48-58). -/
def analyticRateOf (k Q : ℝ) : AProc → List ℝ
  | .linear ki => if k ≤ 0 then [0] else [Q * ki / k]
  | .frozen r => r

/-- The rates stored for the connections, in order (SolverAnalyticLinear.cpp:15-58). -/
def analyticRates (ps : List AProc) (content inflow h : ℝ) : List ℝ :=
  let k := linearTotal ps
  let net := inflow - frozenTotal ps
  ps.flatMap (analyticRateOf k (analyticOut k net content h))

end Analytic

section Implicit

variable {K : Type*} [Field K] [LinearOrder K] [IsStrictOrderedRing K]

/-- Stopping width of the bisection. -/
def bisTol : K := 1 / 10 ^ 12

/-- The bisection loop (SolverImplicitEuler.cpp:31-42), at most `n` iterations. -/
def bisect (g : K → K) : Nat → K → K → K × K
  | 0, lo, hi => (lo, hi)
  | n + 1, lo, hi =>
    let m := (lo + hi) / 2
    let lo' := if g m > 0 then lo else m
    let hi' := if g m > 0 then m else hi
    if hi' - lo' < bisTol then (lo', hi') else bisect g n lo' hi'

/-- Residual of the step equation for the effective outflow `Q`. -/
def residual (Q : K → K) (content inflow h S : K) : K := S - content - h * (inflow - Q S)

/-- Upper bound of the bracket. -/
def bracketHi (content inflow h : K) : K := content + h * max inflow 0

/-- Lower bound of the bracket. -/
def bracketLo (Q : K → K) (allowNeg : Bool) (content inflow h : K) : K :=
  let lo := content + h * (inflow - Q (bracketHi content inflow h))
  if allowNeg then lo else max lo 0

/-- End-of-step content found by the bisection (SolverImplicitEuler.cpp:21-46). -/
def implicitEnd (Q : K → K) (allowNeg : Bool) (content inflow h : K) : K :=
  let hi := bracketHi content inflow h
  let lo := bracketLo Q allowNeg content inflow h
  if hi > lo then
    let r := bisect (residual Q content inflow h) 100 lo hi
    (r.1 + r.2) / 2
  else lo

/-- Total rate of the connections at content `S` (`TotalRateAt`). -/
def totalAt (ps : List (K → K)) (S : K) : K := (ps.map (· S)).sum

/-- Implicit Euler: rates at the end-of-step content (SolverImplicitEuler.cpp:12-61). -/
def implicitEulerRates (ps : List (K → K)) (allowNeg : Bool) (content inflow h : K) : List K :=
  ps.map (· (implicitEnd (totalAt ps) allowNeg content inflow h))

/-- Crank–Nicolson: the effective outflow is the mean of the start and end values; the rates are
averaged connection by connection (SolverCrankNicolson.cpp:12-63). -/
def cnOutflow (ps : List (K → K)) (content : K) (S : K) : K := (totalAt ps content + totalAt ps S) / 2

def crankNicolsonRates (ps : List (K → K)) (allowNeg : Bool) (content inflow h : K) : List K :=
  let e := implicitEnd (cnOutflow ps content) allowNeg content inflow h
  ps.map (fun q => (q content + q e) / 2)

end Implicit

noncomputable section Exponential

/-- Exponential Euler: slope of the total outflow (SolverExponentialEuler.cpp:24-27). -/
def expSlope (ps : List (ℝ → ℝ)) (content inflow h : ℝ) : ℝ :=
  let scale := max content (content + h * inflow)
  let eps := max (1 / 1000) (1 / 1000 * scale)
  (totalAt ps (content + eps) - totalAt ps content) / eps

/-- End content of the linearised equation (SolverExponentialEuler.cpp:39-43). -/
def expEnd (ps : List (ℝ → ℝ)) (allowNeg : Bool) (content inflow h : ℝ) : ℝ :=
  let slope := expSlope ps content inflow h
  let e := content + (inflow - totalAt ps content) / slope * (1 - Real.exp (-slope * h))
  if allowNeg then e else max e 0

/-- Rates of the exponential Euler scheme (SolverExponentialEuler.cpp:12-66). -/
def expEulerRates (ps : List (ℝ → ℝ)) (allowNeg : Bool) (content inflow h : ℝ) : List ℝ :=
  if expSlope ps content inflow h ≤ 1 / 10 ^ 10 then ps.map (· content)
  else
    let e := expEnd ps allowNeg content inflow h
    let total := max (inflow - (e - content) / h) 0
    let sumW := (ps.map (fun q => q content + q e)).sum
    ps.map (fun q => total * (if sumW > 0 then (q content + q e) / sumW else 0))

end Exponential

end HB
