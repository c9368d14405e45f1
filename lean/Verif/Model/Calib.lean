import Verif.Model.Periods
import Mathlib.Algebra.Order.Field.Basic
import Mathlib.Algebra.Order.Group.Abs
import Mathlib.Algebra.BigOperators.Group.List.Basic

/-!
# Score of a parameter set in a calibration (Python side)

`SpotpySetup` (python/src/hydrobricks/trainer.py), `to_skill` (python/src/hydrobricks/evaluation/metrics.py), `get_results`, `get_best`.

Simplifications.  A value of a series is a number or `none` (NaN, infinite).  The metrics (HydroErr, SPOTPY) are an arbitrary function from
two series to a number: a metric that is itself NaN or infinite is not modelled.  The runs of the models and the values of the auxiliary
signals are inputs; SPOTPY is an input (the draws, the stored objective values).
-/

namespace HB.Calib

open HB.Periods (Err dateRange)

section Series
variable {V : Type}

/-- `series[~series.index.duplicated(keep="last")]` (trainer.py:484-485): the last value of a date. -/
def lastAt (otime : List ℤ) (obs : List V) (t : ℤ) : Option V :=
  (((otime.zip obs).filter fun e => decide (e.1 = t)).getLast?).map Prod.snd

/-- `_align_observations_to_period` for one model (437-511). -/
def align (start stop : ℤ) (warmup : ℕ) (otime : List ℤ) (obs : List V) : Except Err (List V) :=
  if otime.length ≠ obs.length then .ok obs
  else
    let expected := dateRange start stop
    if expected.length ≤ warmup then .error .data
    else if expected.any fun t => (lastAt otime obs t).isSome then
      if expected.all fun t => (lastAt otime obs t).isSome then .ok (expected.filterMap (lastAt otime obs)) else .error .data
    else .error .data

/-- One model of a run (1013-1042): failed, or without discharge, or its discharge after the warm-up. -/
def kept (warmup : ℕ) : Option (List V) → Option (List V)
  | none => none
  | some s => if s.length = 0 then none else some (s.drop warmup)

/-- `simulation` (981-1075): `valid` says whether the constraints and the ranges are met; a run is `none` when it raised. -/
def simulation (valid : Bool) (runs : List (Option (List V))) (warmup : ℕ) (extra : Option (Option (List (List V)))) :
    Option (List (List V)) :=
  if !valid then none
  else
    match runs.mapM (kept warmup) with
    | none => none
    | some sims =>
      match extra with
      | none => some sims
      | some none => none
      | some (some ex) => match sims with
        | s :: _ => some [s ++ ex.flatten]
        | [] => none

/-- `evaluation` (1077-1089). -/
def evaluation (obs : List (List V)) (warmup : ℕ) (extra : Option (List (List V))) : List (List V) :=
  let all := obs.map fun o => o.drop warmup
  match extra with
  | none => all
  | some ex => match all with
    | o :: _ => [o ++ ex.flatten]
    | [] => []

end Series

/-- `_ERROR_METRICS` (metrics.py:10-33). -/
def errorMetrics : List String :=
  ["me", "mae", "mse", "rmse", "rmsle", "mase", "mape", "mapd", "smape1", "smape2", "mad", "ed", "ned", "nrmse_range", "nrmse_mean",
    "nrmse_iqr", "irmse", "mle", "mdae", "g_mean_diff"]

/-- `is_error_metric` (36-38). -/
def isError (metric : String) : Bool := errorMetrics.contains (metric.map Char.toLower)

section Score
variable {K : Type} [Field K] [LinearOrder K]

/-- A series: numbers, `none` for NaN or infinite values. -/
abbrev Ser (K : Type) := List (Option K)

/-- The library of metrics: HydroErr by name, and SPOTPY's non-parametric KGE. -/
structure Metrics (K : Type) where
  named : String → Ser K → Ser K → K
  kgeNp : Ser K → Ser K → K

/-- `obj_func`. -/
inductive ObjFunc (K : Type)
  | default
  | named (m : String)
  | custom (f : Ser K → Ser K → K)

inductive Mode
  | objective | constraint
  deriving DecidableEq

/-- An auxiliary observation. -/
structure Extra (K : Type) where
  mode : Mode
  metric : String
  weight : K
  tolerance : Option K
  relative : Option K

structure Cfg (K : Type) where
  minimize : Bool
  objFunc : ObjFunc K
  pareto : Bool
  dischargeWeight : K
  normalize : Bool
  extras : List (Extra K)
  lengths : List ℕ

/-- `reference_value` (metrics.py:68-92); `none` when it is not finite, as with a missing observation. -/
def reference (M : Metrics K) (obs : Ser K) (metric : String) : Option K :=
  if obs.any Option.isNone then none
  else some (M.named metric (obs.map fun _ => some ((obs.map fun o => o.getD 0).sum / (obs.length : K))) obs)

/-- `to_skill` (95-134). -/
def toSkill (M : Metrics K) (value : K) (metric : String) (obs : Ser K) : K :=
  if !isError metric then value
  else match reference M obs metric with
    | none => -value
    | some r => if |r| < 1 / 1000000000000 then -value else 1 - value / r

/-- `_discharge_skill` (1156-1170). -/
def dischargeSkill (M : Metrics K) (c : Cfg K) (sim obs : Ser K) : K :=
  match c.objFunc with
  | .default => M.kgeNp obs sim
  | .named m => if isError m then -(M.named m sim obs) else M.named m sim obs
  | .custom f => f obs sim

/-- `_oriented_term` (1172-1183). -/
def orientedTerm (M : Metrics K) (c : Cfg K) (value : K) (metric : String) (obs : Ser K) : K :=
  if c.normalize then toSkill M value metric obs else if isError metric then -value else value

/-- An objective value for a single objective: `bad` is `-inf`, `+inf` when minimising. -/
inductive Val (K : Type)
  | bad
  | num (x : K)
  deriving DecidableEq

inductive Score (K : Type)
  | one (v : Val K)
  | vec (l : List K)

/-- `_WORST_PENALTY` (30) as a skill. -/
def penalty : K := -1000000000000

/-- The sign of the optimiser. -/
def Cfg.orient (c : Cfg K) (x : K) : K := if c.minimize then -x else x

/-- `_worst_score` (1143-1154). -/
def worst (c : Cfg K) : Score K :=
  if !c.extras.isEmpty && c.pareto then
    .vec (List.replicate (1 + (c.extras.filter fun e => e.mode = .objective).length) (c.orient penalty))
  else .one (.num (c.orient penalty))

def Val.isBad : Val K → Bool
  | .bad => true
  | .num _ => false

def Val.get : Val K → K
  | .bad => 0
  | .num x => x

/-- `np.mean` of likes, one of them possibly infinite. -/
def meanVal (l : List (Val K)) : Val K := if l.any Val.isBad then .bad else .num ((l.map Val.get).sum / (l.length : K))

/-- Without auxiliary observations (1110-1141). -/
def plain (M : Metrics K) (c : Cfg K) (sims obss : List (Ser K)) : Val K :=
  meanVal ((sims.zip obss).map fun e =>
    if e.1.length = 0 then .bad
    else if e.1.length ≠ e.2.length then .bad
    else .num (c.orient (dischargeSkill M c e.1 e.2)))

/-- The mask of usable values of a signal (1217-1225). -/
def masked (sim obs : Ser K) : List (K × K) := (sim.zip obs).filterMap fun e => e.1.bind fun a => e.2.map fun b => (a, b)

/-- `np.mean(np.abs(a_sim - a_obs))` (1229). -/
def meanAbs (l : List (K × K)) : K := (l.map fun e => |e.1 - e.2|).sum / (l.length : K)

/-- The threshold of a constraint (1230-1235). -/
def Extra.threshold (e : Extra K) (l : List (K × K)) : Option K :=
  match e.relative with
  | some r => some (r * ((l.map fun x => |x.2|).sum / (l.length : K)))
  | none => e.tolerance

/-- The loop over the auxiliary signals (1210-1250); `none`: the run is scored as worst. -/
def terms (M : Metrics K) (c : Cfg K) (sim obs : Ser K) : List (Extra K × ℕ) → ℕ → Option (List (K × K))
  | [], _ => some []
  | (e, n) :: rest, offset =>
    let l := masked ((sim.drop offset).take n) ((obs.drop offset).take n)
    if l.isEmpty then none
    else
      match e.mode with
      | .constraint =>
        if (e.threshold l).any fun t => decide (t < meanAbs l) then none
        else terms M c sim obs rest (offset + n)
      | .objective =>
        let a := l.map fun x => some x.1
        let b := l.map fun x => some x.2
        match terms M c sim obs rest (offset + n) with
        | none => none
        | some r => some ((e.weight, orientedTerm M c (M.named e.metric a b) e.metric b) :: r)

/-- `_objective_with_extra_observations` (1185-1269).  The discharge is what comes before the auxiliary values. -/
def withExtra (M : Metrics K) (c : Cfg K) (sim obs : Ser K) : Score K :=
  if sim.length = 0 ∨ sim.length ≠ obs.length then worst c
  else
    let q := sim.length - c.lengths.sum
    let skill := dischargeSkill M c (sim.take q) (obs.take q)
    match terms M c sim obs (c.extras.zip c.lengths) q with
    | none => worst c
    | some ts =>
      if c.pareto then .vec ((skill :: ts.map Prod.snd).map c.orient)
      else
        let qTerm := match c.objFunc with
          | .named m => if c.normalize then orientedTerm M c (M.named m (sim.take q) (obs.take q)) m (obs.take q) else skill
          | _ => skill
        .one (.num (c.orient (c.dischargeWeight * qTerm + (ts.map fun t => t.1 * t.2).sum)))

/-- `objectivefunction` (1091-1141). -/
def objective (M : Metrics K) (c : Cfg K) (sim : Option (List (Ser K))) (eval : List (Ser K)) : Score K :=
  match sim with
  | none => worst c
  | some sims =>
    if c.extras.isEmpty then .one (plain M c sims eval)
    else match sims, eval with
      | s :: _, o :: _ => withExtra M c s o
      | _, _ => worst c

/-! ## Reading the results -/

/-- The score column of `get_results` (trainer.py:1590-1600): the sign is flipped back. -/
def Cfg.reported (c : Cfg K) : Val K → Val K
  | .bad => .bad
  | .num x => .num (c.orient x)

/-- The highest of the numbers, the first of them (`np.nanargmax`, `-inf` being below any number), with its row. -/
def argmax : List (Val K) → Option (ℕ × K)
  | [] => none
  | .bad :: r => (argmax r).map fun e => (e.1 + 1, e.2)
  | .num x :: r => match argmax r with
    | none => some (0, x)
    | some (i, y) => if x < y then some (i + 1, y) else some (0, x)

/-- `get_best` (1604-1672): row and score; refused when no score is finite. -/
def getBest (c : Cfg K) (likes : List (Val K)) : Except Err (ℕ × K) :=
  match argmax (likes.map c.reported) with
  | none => .error .data
  | some e => .ok e

end Score

/-- `parameters` (930-970): the first of a thousand draws that meets the constraints and the ranges, else the last one; the test
`i >= 1000` of the loop over `range(1000)` is never true. -/
def parameters {P : Type} (ok : P → Bool) (draw : ℕ → P) : Except Err P :=
  match (List.range 1000).find? fun i => ok (draw i) with
  | some i => .ok (draw i)
  | none => .ok (draw 999)

end HB.Calib
