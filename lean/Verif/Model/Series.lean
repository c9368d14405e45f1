import Mathlib.Algebra.Order.Floor.Ring
import Mathlib.Data.Rat.Floor
import Verif.Model.Num

/-!
# Forcing series

Model of `TimeSeriesDataRegular` (TimeSeriesData.cpp:33-137), `TimeSeriesDistributed` (TimeSeriesDistributed.cpp),
`TimeSeries::Create` and `ExtractTimeStep` (TimeSeries.cpp:92-172), `Forcing` (Forcing.cpp) and
`ModelHydro::AddTimeSeries` (ModelHydro.cpp:265-291).  Dates are exact numbers (days).  `TimeSeriesUniform` is a
distributed series whose data answer for every unit and is not modelled (nothing in the code base creates one), nor is
`TimeSeriesDataIrregular` (all its reading functions throw).
-/

namespace HB

/-- `TimeUnit` (Enums.h:20-26). -/
inductive TUnit | week | day | hour | minute | variable
  deriving DecidableEq, Repr

/-- `VariableType` (Enums.h:31-41). -/
inductive VarType
  | precipitation | temperature | temperatureMin | temperatureMax | radiation | pet | custom1 | custom2 | custom3
  deriving DecidableEq, Repr

section
variable {K : Type} [Field K] [LinearOrder K] [IsStrictOrderedRing K] [FloorRing K]

/-- `IncrementDateBy` (Utils.cpp:211-226): the unsupported unit logs an error and returns 0. -/
def incrementDateBy (date : K) (amount : ℤ) : TUnit → K
  | .week => date + amount * 7
  | .day => date + amount
  | .hour => date + amount / 24
  | .minute => date + amount / 1440
  | .variable => 0

/-- `TimeMachine::UpdateTimeStepInDays` (TimeMachine.cpp:66-85). `none`: the variable step, which throws. -/
def stepInDays (step : ℤ) : TUnit → Option K
  | .week => some (step * 7)
  | .day => some step
  | .hour => some (step / 24)
  | .minute => some (step / 1440)
  | .variable => none

/-- `TimeSeriesDataRegular` (TimeSeriesData.h): times, step, values and reading position. -/
structure RegSeries (K : Type) where
  start : K
  stop : K
  step : ℤ
  unit : TUnit
  values : List K := []
  cursor : ℕ := 0
  deriving DecidableEq, Repr

namespace RegSeries

/-- `TimeSeriesDataRegular::SetValues` (TimeSeriesData.cpp:40-50). `none`: refused. -/
def setValues (s : RegSeries K) (v : List K) : Option (RegSeries K) :=
  if incrementDateBy s.start (s.step * ((v.length : ℤ) - 1)) s.unit = s.stop then some { s with values := v } else none

/-- `TimeSeriesDataRegular::SetCursorToDate` (TimeSeriesData.cpp:69-97).  False: date out of the series, or a time unit
the function does not support (it throws, which ends the run as well). -/
def setCursor (d : K) (s : RegSeries K) : RegSeries K × Bool :=
  if d < s.start then (s, false)
  else if d > s.stop then (s, false)
  else match s.unit with
    | .day => ({ s with cursor := ⌊d - s.start⌋.toNat }, true)
    | .hour => ({ s with cursor := ⌊d - s.start⌋.toNat * 24 }, true)
    | .minute => ({ s with cursor := ⌊d - s.start⌋.toNat * 1440 }, true)
    | _ => (s, false)

/-- `TimeSeriesDataRegular::AdvanceOneTimeStep` (TimeSeriesData.cpp:99-107). -/
def advance (s : RegSeries K) : RegSeries K × Bool :=
  if s.cursor ≥ s.values.length then (s, false) else ({ s with cursor := s.cursor + 1 }, true)

/-- `TimeSeriesDataRegular::GetCurrentValue` (TimeSeriesData.cpp:57-60). `none`: read outside the vector. -/
def current (s : RegSeries K) : Option K := s.values[s.cursor]?

/-- `TimeSeriesDataRegular::IsValid` (TimeSeriesData.cpp:117-137). -/
def isValid (s : RegSeries K) : Bool :=
  !s.values.isEmpty && decide (s.start ≤ s.stop) && decide (0 < s.step)

end RegSeries

/-- Loop over data stopping at the first failure (TimeSeriesDistributed.cpp:14-32, ModelHydro.cpp:346-364). -/
def untilFalse {α : Type} (f : α → α × Bool) : List α → List α × Bool
  | [] => ([], true)
  | a :: l =>
    if (f a).2 then ((f a).1 :: (untilFalse f l).1, (untilFalse f l).2) else ((f a).1 :: l, false)

/-- `TimeSeriesDistributed`: variable and one data object per unit identifier (`_unitIds` and `_data` are parallel). -/
structure DSeries (K : Type) where
  var : VarType
  data : List (ℤ × RegSeries K)
  deriving DecidableEq, Repr

namespace DSeries

/-- `TimeSeriesDistributed::SetCursorToDate` (TimeSeriesDistributed.cpp:14-22). -/
def setCursor (d : K) (s : DSeries K) : DSeries K × Bool :=
  let r := untilFalse (fun e : ℤ × RegSeries K => ((e.1, (e.2.setCursor d).1), (e.2.setCursor d).2)) s.data
  ({ s with data := r.1 }, r.2)

/-- `TimeSeriesDistributed::AdvanceOneTimeStep` (TimeSeriesDistributed.cpp:24-32). -/
def advance (s : DSeries K) : DSeries K × Bool :=
  let r := untilFalse (fun e : ℤ × RegSeries K => ((e.1, e.2.advance.1), e.2.advance.2)) s.data
  ({ s with data := r.1 }, r.2)

/-- `TimeSeriesDistributed::GetDataPointer` (TimeSeriesDistributed.cpp:57-67). `none`: throws. -/
def dataFor (s : DSeries K) (u : ℤ) : Option (RegSeries K) := (s.data.find? fun e => e.1 == u).map Prod.snd

/-- `TimeSeriesDistributed::IsValid` (TimeSeriesDistributed.cpp:69-106). -/
def isValid (s : DSeries K) : Bool :=
  !s.data.isEmpty && s.data.all (fun e => e.2.isValid) && decide (s.data.map Prod.fst).Nodup

/-- `TimeSeriesDistributed::GetStart` and `GetEnd` (TimeSeriesDistributed.cpp:34-42): those of the first data. `none`: no
data (asserted; the series is invalid then). -/
def span (s : DSeries K) : Option (K × K) := s.data.head?.map fun e => (e.2.start, e.2.stop)

end DSeries

/-- Outcome of offering a series to the model. -/
inductive AddRes | accepted | invalid | duplicate | startsLate | endsEarly
  deriving DecidableEq, Repr

/-- Checks of `ModelHydro::AddTimeSeries` (ModelHydro.cpp:265-287), in their order; `start`, `stop`: the modelling
period. -/
def checkSeries (start stop : K) (have_ : List (DSeries K)) (s : DSeries K) : AddRes :=
  if !s.isValid then .invalid
  else if have_.any (fun t => t.var == s.var) then .duplicate
  else match s.span with
    | none => .invalid
    | some (a, b) => if a > start then .startsLate else if b < stop then .endsEarly else .accepted

/-- `ModelHydro::AddTimeSeries` (ModelHydro.cpp:265-291): the list is extended only if accepted. -/
def addTimeSeries (start stop : K) (have_ : List (DSeries K)) (s : DSeries K) : List (DSeries K) × Bool :=
  match checkSeries start stop have_ s with
  | .accepted => (have_ ++ [s], true)
  | _ => (have_, false)

/-- C++ `round` (half away from zero) then conversion to int. -/
def roundInt (x : K) : ℤ := if 0 ≤ x then ⌊x + 1 / 2⌋ else -⌊-x + 1 / 2⌋

/-- `TimeSeries::ExtractTimeStep` (TimeSeries.cpp:159-172); the last branch (NaN) does not exist here. -/
def extractTimeStep (d : K) : ℤ × TUnit :=
  if d = 1 then (1, .day) else if d > 1 then (roundInt d, .day) else (roundInt (d * 24), .hour)

/-- `TimeSeries::Create` (TimeSeries.cpp:92-130) after the variable name is recognised: `time` the declared dates,
`cols` the identifier and values of each unit.  `norm`: the conversion of the first and last date to calendar and back
to the minute (TimeSeries.cpp:95-98).  `none`: throws. -/
def createSeries (norm : K → K) (var : VarType) (time : List K) (cols : List (ℤ × List K)) : Option (DSeries K) :=
  match time with
  | t0 :: t1 :: rest =>
    let (step, unit) := extractTimeStep (t1 - t0)
    if cols.all (fun c => c.2.length == time.length) then
      (cols.mapM fun c => (RegSeries.setValues ⟨norm t0, norm ((t1 :: rest).getLast (by simp)), step, unit, [], 0⟩ c.2).map
        fun s => (c.1, s)).map fun d => ⟨var, d⟩
    else none
  | _ => none

/-- Attached data (ModelHydro.cpp:322-344): the series of the variable, then the data of the unit. -/
def attached (l : List (DSeries K)) (u : ℤ) (v : VarType) : Option (RegSeries K) :=
  (l.find? fun s => s.var == v).bind fun s => s.dataFor u

/-- Value the attached data deliver now (Forcing.cpp:12-16 without override). `none`: nothing attached or a read outside
the data, undefined behaviour in both cases. -/
def baseRead (l : List (DSeries K)) (u : ℤ) (v : VarType) : Option K := (attached l u v).bind RegSeries.current

end

/-! ## Programs reading and overriding forcing -/

/-- What happens during one time step, as far as forcing is concerned: any computation which reads the forcing of units
(`Forcing::GetValue`) and overrides it (`Forcing::UpdateValue`) in any order and depending on what it read. -/
inductive Prog (K A : Type) where
  | ret (a : A)
  | read (u : ℤ) (v : VarType) (k : K → Prog K A)
  | write (u : ℤ) (v : VarType) (x : K) (k : Prog K A)

/-- Forcing accesses in the order they occur. -/
inductive FEv (K : Type) where
  | rd (u : ℤ) (v : VarType) (x : K)
  | wr (u : ℤ) (v : VarType) (x : K)
  deriving DecidableEq, Repr

/-- The `_hasUpdatedValue`/`_updatedValue` of every forcing object (Forcing.h). -/
abbrev Overrides (K : Type) := ℤ → VarType → Option K

/-- `Forcing::UpdateValue` (Forcing.cpp:18-21). -/
def Overrides.set {K : Type} (o : Overrides K) (u : ℤ) (v : VarType) (x : K) : Overrides K :=
  fun u' v' => if u' = u ∧ v' = v then some x else o u' v'

/-- Execution of a step's forcing accesses: `Forcing::GetValue` (Forcing.cpp:12-16) returns the override if there is
one, else the series value.  `none`: undefined behaviour. -/
def Prog.exec {K A : Type} (base : ℤ → VarType → Option K) : Prog K A → Overrides K → Option (A × Overrides K × List (FEv K))
  | .ret a, o => some (a, o, [])
  | .read u v k, o =>
    match (match o u v with | some x => some x | none => base u v) with
    | none => none
    | some x => ((k x).exec base o).map fun r => (r.1, r.2.1, .rd u v x :: r.2.2)
  | .write u v x k, o => (k.exec base (o.set u v x)).map fun r => (r.1, r.2.1, .wr u v x :: r.2.2)

end HB
