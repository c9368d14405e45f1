import Verif.Model.Periods
import Mathlib.Algebra.Order.Field.Basic
import Mathlib.Data.List.Dedup
import Mathlib.Data.List.Sort

/-!
# Reference metric of the observed discharge (Python side)

`DischargeObservations.compute_reference_metric` (python/src/hydrobricks/evaluation/discharge.py:113-449): block bootstrap of years.

Simplifications.  Dates are numbers of days; a missing value is `none`.  The metrics of HydroErr are an input, which refuses series of different
lengths.  Random draws are an input (a sequence of lists of years).
-/

namespace HB.RefMetric

open HB

variable {K : Type}

inductive Err | tooFewYears | lengths
deriving DecidableEq

/-- Year, month and day of a row. -/
def yearOf (z : ℤ) : ℤ := (civil z).1
def monthDay (z : ℤ) : ℤ × ℤ := (civil z).2

/-- `_prepare_dataframe` (194-212): without 29 February. -/
def prepared (rows : List (ℤ × Option K)) : List (ℤ × Option K) := rows.filter fun r => decide (monthDay r.1 ≠ (2, 29))

/-- `df.year.unique()` (210): in the order of the first appearance. -/
def years (df : List (ℤ × Option K)) : List ℤ := (df.map fun r => yearOf r.1).reverse.dedup.reverse

/-- `evaluate` (metrics.py:40-63). -/
def evaluate (metric : List (Option K) → List (Option K) → K) (sim obs : List (Option K)) : Except Err K :=
  if sim.length = obs.length then .ok (metric sim obs) else .error .lengths

/-- The rows of a period (`>= start`, `<= end`). -/
def within (start stop : Option ℤ) (df : List (ℤ × Option K)) : List (ℤ × Option K) :=
  df.filter fun r => (start.all fun s => decide (s ≤ r.1)) && (stop.all fun e => decide (r.1 ≤ e))

/-- `_prepare_comparison_data` (275-320): the years and rows to compare with; both dates are needed. -/
def comparison (df : List (ℤ × Option K)) (start stop : Option ℤ) : List ℤ × List (ℤ × Option K) :=
  match start, stop with
  | some a, some b =>
    ((((List.range (b - a + 1).toNat).map fun (k : ℕ) => yearOf (a + (k : ℤ))).dedup).insertionSort (· ≤ ·), within (some a) (some b) df)
  | _, _ => (years df, df)

/-- `_should_exclude_sample` (322-342). -/
def excluded (sampled comparing : List ℤ) : Bool := (sampled.zip comparing).any fun p => decide (p.1 = p.2)

/-- `df.loc[sampled_years]` (389, 446): the rows of the years, one after the other. -/
def loc (df : List (ℤ × Option K)) (sampled : List ℤ) : List (ℤ × Option K) :=
  sampled.flatMap fun y => df.filter fun r => decide (yearOf r.1 = y)

/-- `itertools.product(years, repeat=n)` (377). -/
def combinations (ys : List ℤ) : ℕ → List (List ℤ)
  | 0 => [[]]
  | n + 1 => ys.flatMap fun y => (combinations ys n).map fun r => y :: r

/-- The samples kept (379-386). -/
def samples (ys comparing : List ℤ) (exclusion : Bool) : List (List ℤ) :=
  (combinations ys comparing.length).filter fun s => !(exclusion && excluded s comparing)

/-- The metric of a sample (388-391, 445-448). -/
def sampleMetric (metric : List (Option K) → List (Option K) → K) (df cmp : List (ℤ × Option K)) (s : List ℤ) : Except Err K :=
  evaluate metric ((loc df s).map Prod.snd) (cmp.map Prod.snd)

/-- `_compute_all_combinations` (344-393). -/
def allMetrics (metric : List (Option K) → List (Option K) → K) (df cmp : List (ℤ × Option K)) (ys comparing : List ℤ) (exclusion : Bool) :
    Except Err (List K) := (samples ys comparing exclusion).mapM (sampleMetric metric df cmp)

/-- `_compute_random_sampling` (395-449), for at most `fuel` draws; `none`: not finished. -/
def randomMetrics (metric : List (Option K) → List (Option K) → K) (df cmp : List (ℤ × Option K)) (comparing : List ℤ) (exclusion : Bool) :
    (ℕ → List ℤ) → ℕ → ℕ → Option (Except Err (List K))
  | _, 0, _ => some (.ok [])
  | _, _ + 1, 0 => none
  | draw, n + 1, fuel + 1 =>
    if exclusion && excluded (draw 0) comparing then randomMetrics metric df cmp comparing exclusion (fun i => draw (i + 1)) (n + 1) fuel
    else
      match sampleMetric metric df cmp (draw 0) with
      | .error e => some (.error e)
      | .ok v => (randomMetrics metric df cmp comparing exclusion (fun i => draw (i + 1)) n fuel).map fun r => r.map fun l => v :: l

section
variable [Field K]

/-- `np.mean`. -/
def mean (l : List K) : K := l.sum / (l.length : K)

/-- `groupby("day_of_year")["data"].transform("mean")` (243-244): the mean of the values of the same month and day, those missing left out. -/
def dayMean (df : List (ℤ × Option K)) (z : ℤ) : Option K :=
  let l := df.filterMap fun r => if monthDay r.1 = monthDay z then r.2 else none
  if l.isEmpty then none else some (mean l)

/-- `_compute_mean_discharge_metric` (214-253). -/
def meanDischarge (metric : List (Option K) → List (Option K) → K) (df : List (ℤ × Option K)) (start stop : Option ℤ) : Except Err K :=
  let w := within start stop df
  evaluate metric (w.map fun r => dayMean df r.1) (w.map Prod.snd)

/-- How the years are sampled. -/
inductive How
  | meanDischarge
  | all (exclusion : Bool)
  | random (exclusion : Bool) (nEvals : ℕ) (draw : ℕ → List ℤ)

/-- `compute_reference_metric` (113-192), with at most `fuel` draws. -/
def reference (metric : List (Option K) → List (Option K) → K) (rows : List (ℤ × Option K)) (start stop : Option ℤ) (fuel : ℕ) :
    How → Option (Except Err K)
  | .meanDischarge => some (meanDischarge metric (prepared rows) start stop)
  | .all exclusion =>
    if (years (prepared rows)).length < 2 then some (.error .tooFewYears)
    else
      let c := comparison (prepared rows) start stop
      some ((allMetrics metric (prepared rows) c.2 (years (prepared rows)) c.1 exclusion).map mean)
  | .random exclusion n draw =>
    if (years (prepared rows)).length < 2 then some (.error .tooFewYears)
    else
      let c := comparison (prepared rows) start stop
      (randomMetrics metric (prepared rows) c.2 c.1 exclusion draw n fuel).map fun r => r.map mean

end
end HB.RefMetric
