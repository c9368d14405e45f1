import Verif.Model.Container

/-!
# The network of bricks and one time step

Model of `core/src/base/Processor.cpp`, the explicit solvers (`SolverEulerExplicit.cpp`,
`SolverHeunExplicit.cpp`, `SolverRK4.cpp`), the loop of `SolverSequential.cpp`, the flux classes
(`core/src/fluxes/*.cpp`), `Process::ApplyChange` and the brick methods they call.

Representation.
* Containers, fluxes, processes and splitters are numbered.  A brick is the ordered list of its
  containers and of its processes.
* The rate vectors of the solvers are functions of the flux number instead of arrays of slots; the
  change-rate pointer of a flux is `Sys.rate f` (`none` = null pointer).  In the code the slots are
  enumerated in brick/process/connection order in every function; the numbering by flux is the same
  correspondence (solver bricks are never "null", Brick.h:170, so no slot is ever skipped).
* What the processes and splitters compute is a parameter (`Laws`): any function of the physical
  state and of a hidden state `σ` (unit-hydrograph buffers, forcing values, parameters, ...).
* `logs`, `snap`, `exch` are ghost counters: number of "negative content" errors logged by
  `WaterContainer::Finalize`, amount added by its snapping to zero, amount a process injected in its
  own container (groundwater exchange of the GR routing, ProcessRoutingGR4J.cpp:118-125).
-/

namespace HB

/-- Where a flux goes: a container, or out of the system (outlet, atmosphere, splitter). -/
inductive Target | cont (c : Nat) | outside
  deriving DecidableEq, Repr

/-- Static description of a flux (Flux.h members): `inst` = `FluxToBrickInstantaneous`,
`static` = `IsStatic() || IsForcing()`, `frac` = `_fractionTotal`. -/
structure FluxSpec (K : Type*) where
  target : Target
  inst : Bool := false
  static : Bool := false
  frac : K
  deriving Repr, DecidableEq

/-- A process: its number, the container it draws from, its output fluxes. -/
structure Proc where
  pid : Nat
  src : Nat
  outs : List Nat
  deriving Repr, DecidableEq

/-- A brick: its containers in the order of `UpdateContentFromInputs`, `ApplyConstraints` and
`Finalize` (Brick.cpp:166-172, Snowpack.cpp:59-68,109-117: snow then water; Glacier.cpp: ice then
water), with `true` for the ones whose inputs are booked in the static change (Snowpack.cpp:110);
its processes; whether it is null (zero area fraction). -/
structure Brick where
  conts : List (Nat × Bool)
  procs : List Proc
  null : Bool := false
  deriving Repr, DecidableEq

/-- A hydro unit, as seen by the direct phase: its splitters (number and output fluxes; forcing
fluxes attached to bricks, ModelBuilder.cpp:692-704, are represented as splitter outputs) and its
bricks computed directly. -/
structure HUnit where
  splitters : List (Nat × List Nat)
  direct : List Brick
  deriving Repr, DecidableEq

/-- The whole model structure. `ovf c` is the first output flux of the overflow process linked to
container `c` (ModelBuilder.cpp:130-132, 234-236). -/
structure Net (K : Type*) where
  flux : Nat → FluxSpec K
  fluxes : List Nat
  units : List HUnit
  solver : List Brick
  ovf : Nat → Option Nat
  outlet : List Nat

/-- Physical state: containers and flux amounts, plus the ghost counters. -/
structure Phys (K : Type*) where
  cont : Nat → Cont K
  amt : Nat → K
  logs : Nat := 0
  snap : Nat → K
  exch : Nat → K

/-- Full state. -/
structure Sys (K σ : Type*) where
  ph : Phys K
  rate : Nat → Option K
  hid : σ

/-- What the processes and splitters compute. `rates` is `Process::GetChangeRates` (virtual): rate
per output flux, amount injected in the own container, new hidden state.  `fin` is
`Process::Finalize`; `split` is `Splitter::Compute`. -/
structure Laws (K σ : Type*) where
  rates : Nat → σ → Phys K → (Nat → K) × K × σ
  fin : Nat → σ → Phys K → σ
  split : Nat → σ → Phys K → (Nat → K) × σ

/-- What a sequential solver computes for a brick from its content and inflow
(`ComputeBrickRates`, SolverSequential.h): average rates per output flux, and per process the water it injected in its own
container in all the evaluations of its rates together. It works on the dynamic change and restores it to zero before
returning. -/
abbrev SeqLaw (K σ : Type*) := Brick → K → Option K → K → σ → Phys K → (Nat → K) × (Nat → K) × σ

/-- Function update (kept separate from `Function.update` to stay computable on `Nat`). -/
def upd {α : Type*} (f : Nat → α) (i : Nat) (v : α) : Nat → α := fun j => if j = i then v else f j

variable {K σ : Type} [Field K] [LinearOrder K] [IsStrictOrderedRing K]

/-- All output fluxes of a brick, in process order. -/
def Brick.outs (b : Brick) : List Nat := b.procs.flatMap (·.outs)

/-- Output fluxes drawing from container `c` (WaterContainer.cpp:66-72). -/
def Brick.outsOf (b : Brick) (c : Nat) : List Nat :=
  (b.procs.filter (·.src = c)).flatMap (·.outs)

namespace Net

/-- Fluxes attached as inputs of a container (`_inputs`). -/
def inputs (net : Net K) (c : Nat) : List Nat :=
  net.fluxes.filter (fun f => (net.flux f).target = Target.cont c)

/-- All output fluxes of the solved bricks: the solver's rate vector. -/
def solverOuts (net : Net K) : List Nat := net.solver.flatMap Brick.outs

/-- Containers of the solved bricks: the solver's state vector (Processor.cpp:71-110). -/
def solverConts (net : Net K) : List Nat := net.solver.flatMap (fun b => b.conts.map (·.1))

end Net

/-- Scaling applied by `UpdateFlux`: Flux.cpp:20-26 and FluxToBrick.cpp:17-24 (only below 1),
FluxToBrickInstantaneous.cpp:23-27 (whenever different from 1). -/
def FluxSpec.scale (fs : FluxSpec K) (x : K) : K :=
  if fs.inst then (if fs.frac ≠ 1 then x * fs.frac else x)
  else (if fs.frac < 1 then x * fs.frac else x)

/-- `UpdateFlux`: Flux.cpp:20-26, FluxToBrick.cpp:17-24, FluxToBrickInstantaneous.cpp:21-38 (which
also deposits in the target).  The content-type check of line 35 is not modelled: the target
container is already resolved. -/
def updateFlux (net : Net K) (ph : Phys K) (f : Nat) (x : K) : Phys K :=
  let a := (net.flux f).scale x
  let ph := { ph with amt := upd ph.amt f a }
  if (net.flux f).inst then
    match (net.flux f).target with
    | .cont c => { ph with cont := upd ph.cont c ((ph.cont c).addStat a) }
    | .outside => ph
  else ph

/-- `GetAmount`: 0 for an instantaneous flux (FluxToBrickInstantaneous.cpp:13-15). -/
def getAmount (net : Net K) (ph : Phys K) (f : Nat) : K :=
  if (net.flux f).inst then 0 else ph.amt f

/-- `SumIncomingFluxes` (WaterContainer.cpp:228-235). -/
def sumIncoming (net : Net K) (ph : Phys K) (c : Nat) : K :=
  ((net.inputs c).map (getAmount net ph)).sum

/-- Volume moved for a rate: `ApplyChange` ignores rates not above 1e-8 (Process.cpp:498-507). -/
def vol (dt rate : K) : K :=
  let rate := if rate < 0 then 0 else rate
  if greaterThan rate 0 prec then rate * dt else 0

/-- `ApplyChange` (Process.cpp:495-508). -/
def applyChange (net : Net K) (dt : K) (src f : Nat) (rate : K) (ph : Phys K) : Phys K :=
  let rate := if rate < 0 then 0 else rate
  if greaterThan rate 0 prec then
    let ph := updateFlux net ph f (rate * dt)
    { ph with cont := upd ph.cont src ((ph.cont src).subDyn (rate * dt)) }
  else updateFlux net ph f 0

/-- Booking of the incoming amounts of one container (Brick.cpp:166-168, Snowpack.cpp:109-112,
Glacier.cpp:112-115). -/
def readCont (net : Net K) (ph : Phys K) (c : Nat × Bool) : Phys K :=
  let x := sumIncoming net ph c.1
  { ph with cont := upd ph.cont c.1 (if c.2 then (ph.cont c.1).addStat x else (ph.cont c.1).addDyn x) }

/-- `UpdateContentFromInputs`. -/
def readInputs (net : Net K) (b : Brick) (ph : Phys K) : Phys K := b.conts.foldl (readCont net) ph

/-- Does `Finalize` log a negative content? (WaterContainer.cpp:201-215) -/
def Cont.logsNegative (c : Cont K) : Bool :=
  let t := c.content + (c.dyn + c.stat)
  !c.infinite && !c.allowNeg && !nearlyZero t prec && lessThan t 0 prec

/-- `WaterContainer::Finalize` of one container with the ghost counters. -/
def finCont (ph : Phys K) (c : Nat) : Phys K :=
  let k := ph.cont c
  let k' := k.finalize
  { ph with
    cont := upd ph.cont c k'
    logs := if k.logsNegative then ph.logs + 1 else ph.logs
    snap := upd ph.snap c (ph.snap c + ((k'.content + k'.dyn + k'.stat) - (k.content + k.dyn + k.stat))) }

/-- A process injecting water in its own container (ProcessRoutingGR4J.cpp:118-125). -/
def injCont (ph : Phys K) (c : Nat) (x : K) : Phys K :=
  let k := ph.cont c
  let k' := k.addStat x
  { ph with
    cont := upd ph.cont c k'
    exch := upd ph.exch c (ph.exch c + ((k'.content + k'.dyn + k'.stat) - (k.content + k.dyn + k.stat))) }

/-- `Brick::Finalize` (Brick.cpp:128-136, Snowpack.cpp:59-68, Glacier.cpp:60-63). -/
def finBrick (laws : Laws K σ) (b : Brick) (s : Sys K σ) : Sys K σ :=
  let ph := b.conts.foldl (fun ph c => finCont ph c.1) s.ph
  { s with ph := ph, hid := b.procs.foldl (fun h p => laws.fin p.pid h ph) s.hid }

/-- `GetChangeRates` (Process.cpp:480-487 and its overrides) with its side effects. -/
def callRates (laws : Laws K σ) (p : Proc) (s : Sys K σ) : (Nat → K) × Sys K σ :=
  let (r, x, h) := laws.rates p.pid s.hid s.ph
  (r, { s with ph := injCont s.ph p.src x, hid := h })

/-- How an input flux appears in `ApplyConstraints` (WaterContainer.cpp:98-119). -/
def inflowOf (net : Net K) (s : Sys K σ) (f : Nat) : Inflow K :=
  if (net.flux f).inst then .inst (s.ph.amt f)
  else if (net.flux f).static then .amount (s.ph.amt f)
  else .rate (s.rate f)

/-- Write back the slots of a list of fluxes. -/
def writeRates (rate : Nat → Option K) : List Nat → List (Option K) → Nat → Option K
  | f :: fs, v :: vs => writeRates (upd rate f v) fs vs
  | _, _ => rate

/-- Write back the slots of the incoming fluxes. -/
def writeIns (rate : Nat → Option K) : List Nat → List (Inflow K) → Nat → Option K
  | f :: fs, .rate v :: vs => writeIns (upd rate f v) fs vs
  | _ :: fs, _ :: vs => writeIns rate fs vs
  | _, _ => rate

/-- `WaterContainer::ApplyConstraints` of container `c` of brick `b`: collects the slots, limits
them, writes them back. -/
def constrainCont (net : Net K) (dt : K) (b : Brick) (s : Sys K σ) (c : Nat) :
    Except Err (Sys K σ) := do
  let outIds := b.outsOf c
  let inIds := net.inputs c
  let ovf := (net.ovf c).bind (fun f => outIds.findIdx? (· = f))
  let (o, i) ← applyConstraints (s.ph.cont c) dt (outIds.map s.rate) ovf (inIds.map (inflowOf net s))
  return { s with rate := writeIns (writeRates s.rate outIds o) inIds i }

/-- `StoreInOutgoingFlux` for a list of fluxes: links the slot; an overflow process also sets the
rate to zero (ProcessOutflowOverflow.cpp:21-26). -/
def linkRates (ovfs : Nat → Bool) (ids : List Nat) (k : Nat → K) (s : Sys K σ) : Sys K σ :=
  { s with rate := ids.foldl (fun r f => upd r f (some (if ovfs f then 0 else k f))) s.rate }

/-- Is flux `f` the output of a linked overflow process of a solved brick? -/
def Net.isOvf (net : Net K) (f : Nat) : Bool :=
  net.solver.any (fun b => b.conts.any (fun c => net.ovf c.1 == some f))

/-- One process of a brick computed directly (Processor.cpp:297-320). -/
def directProc (net : Net K) (laws : Laws K σ) (dt : K) (b : Brick) (s : Sys K σ) (p : Proc) :
    Except Err (Sys K σ) := do
  let (r, s) := callRates laws p s
  let s := { s with rate := p.outs.foldl (fun q f => upd q f (some (r f))) s.rate }
  let s ← constrainCont net dt b s p.src
  let ph := p.outs.foldl (fun ph f => applyChange net dt p.src f ((s.rate f).getD 0) ph) s.ph
  return { s with ph := ph, rate := p.outs.foldl (fun q f => upd q f (some 0)) s.rate }

/-- `ApplyDirectChanges` (Processor.cpp:278-323). -/
def directBrick (net : Net K) (laws : Laws K σ) (dt : K) (s : Sys K σ) (b : Brick) :
    Except Err (Sys K σ) := do
  let s := { s with ph := readInputs net b s.ph }
  let s := { s with rate := b.outs.foldl (fun q f => upd q f (some 0)) s.rate }
  let s ← b.procs.foldlM (directProc net laws dt b) s
  return finBrick laws b s

/-- One splitter (`Splitter::Compute`). -/
def runSplitter (net : Net K) (laws : Laws K σ) (s : Sys K σ) (sp : Nat × List Nat) : Sys K σ :=
  let (x, h) := laws.split sp.1 s.hid s.ph
  { s with ph := sp.2.foldl (fun ph f => updateFlux net ph f (x f)) s.ph, hid := h }

/-- The direct phase of one hydro unit (Processor.cpp:243-264). -/
def directUnit (net : Net K) (laws : Laws K σ) (dt : K) (s : Sys K σ) (u : HUnit) :
    Except Err (Sys K σ) :=
  (u.direct.filter (!·.null)).foldlM (directBrick net laws dt) (u.splitters.foldl (runSplitter net laws) s)

/-- The direct phase (Processor.cpp:240-264). -/
def directPhase (net : Net K) (laws : Laws K σ) (dt : K) (s : Sys K σ) : Except Err (Sys K σ) :=
  net.units.foldlM (directUnit net laws dt) s

/-- `EvaluateRates` without the constraints (Processor.cpp:146-166). -/
def evaluate (net : Net K) (laws : Laws K σ) (s : Sys K σ) : (Nat → K) × Sys K σ :=
  (net.solver.flatMap (·.procs)).foldl
    (fun ks p =>
      let (r, s) := callRates laws p ks.2
      (fun f => if f ∈ p.outs then r f else ks.1 f, s))
    (fun _ => 0, s)

/-- One sweep of the constraints over all solved bricks (Processor.cpp:201-203). -/
def sweep (net : Net K) (dt : K) (s : Sys K σ) : Except Err (Sys K σ) :=
  net.solver.foldlM (fun s b => (b.conts.map (·.1)).foldlM (constrainCont net dt b) s) s

/-- Are the rates unchanged up to 1e-8? (Processor.cpp:204) -/
def stable (net : Net K) (s s' : Sys K σ) : Bool :=
  net.solverOuts.all (fun f => decide (|(s'.rate f).getD 0 - (s.rate f).getD 0| ≤ prec))

/-- `EnforceConstraints` with at most `n` sweeps (Processor.cpp:191-209). -/
def enforce (net : Net K) (dt : K) : Nat → Sys K σ → Except Err (Sys K σ)
  | 0, s => .ok s
  | n + 1, s => do
    let s' ← sweep net dt s
    if stable net s s' then return s' else enforce net dt n s'

/-- `ConstrainRates` (Processor.cpp:174-189): link, enforce with at most ten sweeps, read back. -/
def constrainRates (net : Net K) (dt : K) (k : Nat → K) (s : Sys K σ) :
    Except Err ((Nat → K) × Sys K σ) := do
  let s ← enforce net dt 10 (linkRates net.isOvf net.solverOuts k s)
  return (fun f => (s.rate f).getD 0, s)

/-- `EvaluateRates` with constraints (Processor.cpp:146-172). The linking, interleaved with the
evaluation in the code, is done after it here: no process reads a change-rate slot. -/
def evaluateConstrained (net : Net K) (laws : Laws K σ) (dt : K) (s : Sys K σ) :
    Except Err ((Nat → K) × Sys K σ) :=
  let (k, s) := evaluate net laws s
  constrainRates net dt k s

/-- One brick of `ApplyRates` (Processor.cpp:213-225). -/
def applyBrick (net : Net K) (dt : K) (k : Nat → K) (ph : Phys K) (b : Brick) : Phys K :=
  b.procs.foldl (fun ph p => p.outs.foldl (fun ph f => applyChange net dt p.src f (k f) ph) ph)
    (readInputs net b ph)

/-- `ApplyRates` (Processor.cpp:211-226). -/
def applyRates (net : Net K) (dt : K) (k : Nat → K) (s : Sys K σ) : Sys K σ :=
  { s with ph := net.solver.foldl (applyBrick net dt k) s.ph }

/-- `FinalizeTimeStep` (Processor.cpp:228-235). -/
def finalizeTimeStep (net : Net K) (laws : Laws K σ) (s : Sys K σ) : Sys K σ :=
  net.solver.foldl (fun s b => finBrick laws b s) s

/-- Overwrite the dynamic changes of the solver's state vector. -/
def mapDyn (net : Net K) (g : K → K) (s : Sys K σ) : Sys K σ :=
  { s with ph := { s.ph with cont := fun c =>
      if c ∈ net.solverConts then { s.ph.cont c with dyn := g (s.ph.cont c).dyn } else s.ph.cont c } }

/-- `ResetState` (Processor.cpp:140-144). -/
def resetState (net : Net K) (s : Sys K σ) : Sys K σ := mapDyn net (fun _ => 0) s

/-- `GatherState`, `state *= 0.5`, `ScatterState` (SolverRK4.cpp:25-27, 36-38). -/
def halveState (net : Net K) (s : Sys K σ) : Sys K σ := mapDyn net (fun x => x * (1 / 2)) s

/-- `SolverEulerExplicit::Solve` (SolverEulerExplicit.cpp:13-22). -/
def solveEuler (net : Net K) (laws : Laws K σ) (dt : K) (s : Sys K σ) : Except Err (Sys K σ) := do
  let (k1, s) ← evaluateConstrained net laws dt s
  return finalizeTimeStep net laws (applyRates net dt k1 s)

/-- `SolverHeunExplicit::Solve` (SolverHeunExplicit.cpp:16-38). -/
def solveHeun (net : Net K) (laws : Laws K σ) (dt : K) (s : Sys K σ) : Except Err (Sys K σ) := do
  let (k1, s) ← evaluateConstrained net laws dt s
  let s := applyRates net dt k1 s
  let (k2, s) := evaluate net laws s
  let s := resetState net s
  let (k, s) ← constrainRates net dt (fun f => (k1 f + k2 f) / 2) s
  return finalizeTimeStep net laws (applyRates net dt k s)

/-- `SolverRK4::Solve` (SolverRK4.cpp:19-63). -/
def solveRK4 (net : Net K) (laws : Laws K σ) (dt : K) (s : Sys K σ) : Except Err (Sys K σ) := do
  let (k1, s) ← evaluateConstrained net laws dt s
  let s := halveState net (applyRates net dt k1 s)
  let (k2, s) := evaluate net laws s
  let (k2, s) ← constrainRates net dt k2 (resetState net s)
  let s := halveState net (applyRates net dt k2 s)
  let (k3, s) := evaluate net laws s
  let (k3, s) ← constrainRates net dt k3 (resetState net s)
  let s := applyRates net dt k3 s
  let (k4, s) := evaluate net laws s
  let s := resetState net s
  let (k, s) ← constrainRates net dt (fun f => (k1 f + 2 * k2 f + 2 * k3 f + k4 f) / 6) s
  return finalizeTimeStep net laws (applyRates net dt k s)

/-- One brick of `SolverSequential::Solve` (SolverSequential.cpp:46-83). -/
def seqBrick (net : Net K) (law : SeqLaw K σ) (dt : K) (s : Sys K σ) (b : Brick) :
    Except Err (Sys K σ) := do
  let c := (b.conts.getLast?.map (·.1)).getD 0      -- GetWaterContainer()
  let (k, x, h) := law b dt (s.ph.cont c).withChanges (sumIncoming net s.ph c / dt) s.hid s.ph
  let s := { s with ph := b.procs.foldl (fun ph p => injCont ph p.src (x p.pid)) s.ph, hid := h, rate := b.outs.foldl (fun q f => upd q f (some (k f))) s.rate }
  let s ← (b.conts.map (·.1)).foldlM (constrainCont net dt b) s
  return { s with ph := applyBrick net dt (fun f => (s.rate f).getD 0) s.ph b }

/-- `SolverSequential::Solve` (SolverSequential.cpp:42-88). -/
def solveSequential (net : Net K) (laws : Laws K σ) (law : SeqLaw K σ) (dt : K) (s : Sys K σ) :
    Except Err (Sys K σ) := do
  let s ← net.solver.foldlM (seqBrick net law dt) s
  return finalizeTimeStep net laws s

/-- The solver in use. -/
inductive Scheme (K σ : Type*) | euler | heun | rk4 | sequential (law : SeqLaw K σ)

/-- `_solver->Solve`. -/
def solve (net : Net K) (laws : Laws K σ) (dt : K) (s : Sys K σ) : Scheme K σ → Except Err (Sys K σ)
  | .euler => solveEuler net laws dt s
  | .heun => solveHeun net laws dt s
  | .rk4 => solveRK4 net laws dt s
  | .sequential law => solveSequential net laws law dt s

/-- `ProcessTimeStep` (Processor.cpp:237-276) up to the outlet sum. -/
def processTimeStep (net : Net K) (laws : Laws K σ) (sch : Scheme K σ) (dt : K) (s : Sys K σ) :
    Except Err (Sys K σ) := do
  let s ← directPhase net laws dt s
  solve net laws dt s sch

/-- `ComputeOutletDischarge` (SubBasin.cpp:322-329). -/
def outletDischarge (net : Net K) (ph : Phys K) : K := (net.outlet.map (getAmount net ph)).sum

/-- Several time steps (loop of `ModelHydro::Run`, ModelHydro.cpp); returns the final state and the
physical states recorded after each step. `tick` is what happens to the hidden state between steps
(new forcing values, parameter updates). -/
def runSteps (net : Net K) (laws : Laws K σ) (sch : Scheme K σ) (dt : K) (tick : σ → σ) :
    Nat → Sys K σ → Except Err (List (Phys K) × Sys K σ)
  | 0, s => .ok ([], s)
  | n + 1, s => do
    let s ← processTimeStep net laws sch dt s
    let (l, s') ← runSteps net laws sch dt tick n { s with hid := tick s.hid }
    return (s.ph :: l, s')

end HB
