import Verif.Model.Calendar
import Mathlib.Data.List.Basic

/-!
# Modelling periods and evaluation on a period (Python side)

`Period`, `Periods`, `evaluate_periods` (python/src/hydrobricks/periods.py), `Model.eval`, `Model.get_recorded_time`
(python/src/hydrobricks/models/model.py).

Simplifications.  Instants are whole seconds since 1970 (`pd.Timestamp` counts nanoseconds).  The text of a spin-up (`'4y'`, `'365d'`) is
an input once read.  The metrics (HydroErr) are an arbitrary function of the two series.
-/

namespace HB.Periods

inductive Err
  | config | data
  deriving DecidableEq, Repr

/-- Seconds of a day. -/
def day : ℤ := 86400

/-- `Period` (periods.py:34-118). -/
structure Period where
  start : ℤ
  stop : ℤ
  deriving DecidableEq, Repr

/-- `Period.__init__` (47-63). -/
def Period.make (b : ℤ × ℤ) : Except Err Period := if b.2 < b.1 then .error .config else .ok ⟨b.1, b.2⟩

/-- `n_days` (94-97): whole days of the difference, plus one. -/
def Period.nDays (p : Period) : ℤ := (p.stop - p.start) / day + 1

/-- `pd.date_range(start, end, freq="D")` (99-101; model.py:618). -/
def dateRange (start stop : ℤ) : List ℤ := (List.range ((stop - start) / day + 1).toNat).map fun (k : ℕ) => start + day * (k : ℤ)

/-- `mask` (103-106). -/
def Period.mask (p : Period) (t : ℤ) : Bool := decide (p.start ≤ t ∧ t ≤ p.stop)

/-- `xs[period.mask(time)]`: numpy refuses a mask of another length. -/
def Period.slice {α : Type} (p : Period) (time : List ℤ) (xs : List α) : Except Err (List α) :=
  if time.length = xs.length then .ok (((time.zip xs).filter fun e => p.mask e.1).map Prod.snd) else .error .data

/-- A spin-up once read: days, or years from the start of the period. -/
inductive Spinup
  | days (n : ℤ)
  | years (n : ℤ)
  deriving DecidableEq, Repr

/-- `pd.DateOffset(years=n)` on a day: the same day of the year, the last day of February for a 29 February. -/
def plusYears (z n : ℤ) : ℤ :=
  sysDays ((civil z).1 + n) (civil z).2.1 (min (civil z).2.2 (lastDay ((civil z).1 + n) (civil z).2.1))

/-- `spinup_to_days` (121-185). -/
def Spinup.toDays (s : Spinup) (start : ℤ) : Except Err ℤ :=
  let n := match s with
    | .days n => n
    | .years n => plusYears (start / day) n - start / day
  if n < 0 then .error .config else .ok n

/-- `Periods` (188-...). -/
structure Periods where
  calibration : Option Period
  validation : Option Period
  simulation : Period
  spinup : Spinup
  deriving DecidableEq, Repr

def optional : Option (ℤ × ℤ) → Except Err (Option Period)
  | none => .ok none
  | some b => match Period.make b with
    | .ok p => .ok (some p)
    | .error e => .error e

/-- `Periods.__init__` (220-288). -/
def Periods.make (calibration validation simulation : Option (ℤ × ℤ)) (spinup : Spinup) : Except Err Periods :=
  match optional calibration, optional validation with
  | .ok c, .ok v =>
    let defined := [c, v].filterMap id
    let sim : Except Err Period := match simulation, defined with
      | some b, _ => Period.make b
      | none, p :: r => Period.make (r.foldl (fun m q => min m q.start) p.start, r.foldl (fun m q => max m q.stop) p.stop)
      | none, [] => .error .config
    match sim with
    | .error e => .error e
    | .ok s =>
      if defined.any fun p => decide (p.start < s.start ∨ s.stop < p.stop) then .error .config
      else match spinup.toDays s.start with
        | .error e => .error e
        | .ok _ => .ok ⟨c, v, s, spinup⟩
  | .error e, _ => .error e
  | _, .error e => .error e

/-- `defined_periods` (295-302). -/
def Periods.defined (ps : Periods) : List (String × Period) :=
  ((ps.calibration.map fun p => ("calibration", p)).toList ++ (ps.validation.map fun p => ("validation", p)).toList) ++
    [("simulation", ps.simulation)]

/-- `spinup_days_for` (304-307). -/
def Periods.spinupFor (ps : Periods) (p : Period) : Except Err ℤ :=
  match ps.spinup.toDays p.start with
  | .ok d => .ok (min d p.nDays)
  | .error e => .error e

/-- Observations: an array next to the simulated series, or dated values. -/
inductive Obs (K : Type)
  | array (xs : List K)
  | dated (time : List ℤ) (xs : List K)

section
variable {K R : Type}

/-- The value of a metric on one period (378-402; model.py:675-709). -/
def onPeriod (metric : List K → List K → R) (time : List ℤ) (sim : List K) (otime : List ℤ) (obs : List K) (p : Period) :
    Except Err R :=
  match time.head?, time.getLast? with
  | some a, some b =>
    if p.start < a ∨ b < p.stop then .error .config
    else match p.slice time sim, p.slice otime obs with
      | .ok s, .ok o => if o.length ≠ s.length then .error .data else .ok (metric s o)
      | .error e, _ => .error e
      | _, .error e => .error e
  | _, _ => .error .data

/-- `evaluate_periods` (316-408) of a model set up over `[start, stop]`. -/
def evaluatePeriods (metric : List K → List K → R) (start stop : ℤ) (sim : List K) (obs : Obs K) (ps : Periods) :
    Except Err (List (String × R)) :=
  let time := dateRange start stop
  match obs with
  | .array xs =>
    if xs.length ≠ sim.length then .error .data
    else ps.defined.mapM fun e => (onPeriod metric time sim time xs e.2).map fun v => (e.1, v)
  | .dated otime xs => ps.defined.mapM fun e => (onPeriod metric time sim otime xs e.2).map fun v => (e.1, v)

/-- `Model.eval` without a period (model.py:665-666): by position. -/
def evalWarmup (metric : List K → List K → R) (sim obs : List K) (warmup : ℕ) : R := metric (sim.drop warmup) (obs.drop warmup)

end
end HB.Periods
