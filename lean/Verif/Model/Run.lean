import Verif.Model.Series

/-!
# The run loop

Model of `ModelHydro::Run`, `RunSpinup`, `RewindAfterSpinup`, `InitializeTimeSeries`, `UpdateForcing`
(ModelHydro.cpp:100-180, 346-369), of `TimeMachine` (TimeMachine.cpp:41-64) and of the row handling of `Logger`
(Logger.cpp:48-50, 70-73, 92-123).

The physics of one step is an arbitrary program `proc` (any use of the forcing, any effect on the world, possible
failure), so every theorem holds for all models.  So are the actions (`act`) and the dated parameters (`par`).  Clock
arithmetic goes through `rnd`: the identity for exact arithmetic, rounding to nearest for doubles.
-/

namespace HB

/-- Everything fixed during a run. -/
structure RunCfg (K W A P R : Type) where
  start : K
  stop : K
  dt : K
  rnd : K → K
  /-- Number of rows allocated for the results. -/
  rows : ℕ
  /-- `_spinupSteps`. -/
  spin : ℕ
  proc : W → Prog K (Bool × W)
  par : K → P → W → P × W
  act : K → A → W → A × W
  restore : W → W
  record : W → R

/-- The evolving part: clock, world, action and parameter bookkeeping, forcing, logger. `rowsOut` is the sequence of row
writes (row, date, values); `reads` the forcing accesses of each processed step (ghost). -/
structure RunSt (K W A P R : Type) where
  date : K
  world : W
  acts : A
  pars : P
  series : List (DSeries K)
  over : Overrides K
  cursor : ℕ
  initial : Option R
  rowsOut : List (ℕ × K × R)
  reads : List (List (FEv K))

/-- Why a run was refused or stopped. -/
inductive Why | badCursor | stepFailed | seriesEnded
  deriving DecidableEq, Repr

/-- Outcome: success, reported failure (with the state left behind), read outside the forcing, write outside the result
rows (both undefined behaviour), or fuel exhausted (only used to define the loop). -/
inductive Out (S : Type) where
  | ok (s : S)
  | fail (why : Why) (s : S)
  | ubRead
  | ubRow
  | fuel

/-- Sequencing. -/
def Out.bind {S T : Type} (x : Out S) (f : S → Out T) (g : S → T) : Out T :=
  match x with
  | .ok s => f s
  | .fail w s => .fail w (g s)
  | .ubRead => .ubRead
  | .ubRow => .ubRow
  | .fuel => .fuel

/-- Sequencing in the same state type. -/
def Out.then {S : Type} (x : Out S) (f : S → Out S) : Out S := x.bind f id

section
variable {K W A P R : Type} [Field K] [LinearOrder K] [IsStrictOrderedRing K] [FloorRing K]

/-- `TimeMachine::GetTimeStepCount` (TimeMachine.cpp:61-64), with rounding after each operation.  The conversion to int
truncates; the argument is positive for a valid period. -/
def stepCount (rnd : K → K) (start stop dt : K) : ℕ := ⌊rnd (1 + rnd (rnd (stop - start) / dt))⌋.toNat

/-- Number of spin-up steps (ModelHydro.cpp:50-54): `days` of spin-up, at most the number of steps of the period. -/
def spinSteps (rnd : K → K) (start stop dt days : K) : ℕ := min ⌊rnd (days / dt)⌋.toNat (stepCount rnd start stop dt)

/-- `ModelHydro::InitializeTimeSeries` (ModelHydro.cpp:346-355). -/
def initSeries (s : RunSt K W A P R) : Out (RunSt K W A P R) :=
  let r := untilFalse (fun t : DSeries K => t.setCursor s.date) s.series
  if r.2 then .ok { s with series := r.1 } else .fail .badCursor { s with series := r.1 }

/-- `_processor.ProcessTimeStep` (ModelHydro.cpp:119-121, 146-149). -/
def procStep (c : RunCfg K W A P R) (s : RunSt K W A P R) : Out (RunSt K W A P R) :=
  match (c.proc s.world).exec (baseRead s.series) s.over with
  | none => .ubRead
  | some (r, o, evs) =>
    if r.1 then .ok { s with world := r.2, over := o, reads := s.reads ++ [evs] }
    else .fail .stepFailed { s with world := r.2, over := o, reads := s.reads ++ [evs] }

/-- `Logger::SetDate` and `Record` (Logger.cpp:70-73, 92-119): a row beyond the allocated ones is written outside the
arrays. -/
def recordRow (c : RunCfg K W A P R) (s : RunSt K W A P R) : Out (RunSt K W A P R) :=
  if s.cursor < c.rows then .ok { s with rowsOut := s.rowsOut ++ [(s.cursor, s.date, c.record s.world)] } else .ubRow

/-- `TimeMachine::IncrementTime` (TimeMachine.cpp:49-59): date, then parameters, then actions. -/
def incrementTime (c : RunCfg K W A P R) (s : RunSt K W A P R) : RunSt K W A P R :=
  let d := c.rnd (s.date + c.dt)
  let p := c.par d s.pars s.world
  let a := c.act d s.acts p.2
  { s with date := d, pars := p.1, acts := a.1, world := a.2 }

/-- `TimeMachine::IncrementTime` with both managers detached (ModelHydro.cpp:142-143, 150). -/
def incrementTimeDetached (c : RunCfg K W A P R) (s : RunSt K W A P R) : RunSt K W A P R :=
  { s with date := c.rnd (s.date + c.dt) }

/-- `ModelHydro::UpdateForcing` (ModelHydro.cpp:357-369): advance every series, then drop the overrides. -/
def updateForcing (s : RunSt K W A P R) : Out (RunSt K W A P R) :=
  let r := untilFalse (fun t : DSeries K => t.advance) s.series
  if r.2 then .ok { s with series := r.1, over := fun _ _ => none } else .fail .seriesEnded { s with series := r.1 }

/-- Body of the main loop (ModelHydro.cpp:118-129). -/
def mainStep (c : RunCfg K W A P R) (s : RunSt K W A P R) : Out (RunSt K W A P R) :=
  ((procStep c s).then (recordRow c)).then fun s =>
    updateForcing { incrementTime c s with cursor := s.cursor + 1 }

/-- Body of the spin-up loop (ModelHydro.cpp:145-156). -/
def spinStep (c : RunCfg K W A P R) (s : RunSt K W A P R) : Out (RunSt K W A P R) :=
  (procStep c s).then fun s => updateForcing (incrementTimeDetached c s)

/-- The main loop (ModelHydro.cpp:118-129), `fuel` bounding the number of iterations. -/
def mainLoop (c : RunCfg K W A P R) : ℕ → RunSt K W A P R → Out (RunSt K W A P R)
  | 0, _ => .fuel
  | n + 1, s => if s.date > c.stop then .ok s else (mainStep c s).then (mainLoop c n)

/-- The spin-up loop (ModelHydro.cpp:145-156). -/
def spinLoop (c : RunCfg K W A P R) : ℕ → RunSt K W A P R → Out (RunSt K W A P R)
  | 0, s => .ok s
  | n + 1, s => (spinStep c s).then (spinLoop c n)

/-- `ModelHydro::RewindAfterSpinup` (ModelHydro.cpp:168-180). -/
def rewind (c : RunCfg K W A P R) (s : RunSt K W A P R) : Out (RunSt K W A P R) :=
  initSeries { s with date := c.start, world := c.restore s.world }

/-- `ModelHydro::RunSpinup` (ModelHydro.cpp:131-166), called only if there are spin-up steps (ModelHydro.cpp:105-109). -/
def spinup (c : RunCfg K W A P R) (s : RunSt K W A P R) : Out (RunSt K W A P R) :=
  if c.spin > 0 then (spinLoop c c.spin s).then (rewind c) else .ok s

/-- `Logger::SaveInitialValues` (Logger.cpp:75-90). -/
def saveInitial (c : RunCfg K W A P R) (s : RunSt K W A P R) : RunSt K W A P R :=
  { s with initial := some (c.record s.world) }

/-- `ModelHydro::Run` (ModelHydro.cpp:100-129). -/
def run (c : RunCfg K W A P R) (fuel : ℕ) (s : RunSt K W A P R) : Out (RunSt K W A P R) :=
  ((initSeries s).then (spinup c)).then fun s => mainLoop c fuel (saveInitial c s)

/-- `ModelHydro::Reset` (ModelHydro.cpp:183-193): clock, logger cursor, actions, sub-basin; parameters, forcing
overrides, series positions and the rows already written are left as they are. -/
def resetRun (c : RunCfg K W A P R) (resetActs : A → A) (resetWorld : W → W) (s : RunSt K W A P R) : RunSt K W A P R :=
  { s with date := c.start, cursor := 0, acts := resetActs s.acts, world := resetWorld s.world }

end

end HB
