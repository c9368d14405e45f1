import Verif.Model.Run
import Verif.Model.Actions

/-!
# Reset of the model components

Model of the `Reset` functions of containers, processes, bricks, units and sub-basin.  A component is its configuration
(kind, initial content, initial extent, buffer sizes: set when the model is built) and the variables evolving in a run.
Splitter output fluxes are not part of it: no `Reset` touches them and they are recomputed at the beginning of each step
before being read.
-/

set_option linter.unusedSectionVars false

namespace HB

/-- `WaterContainer`: content, pending changes and `_initialState` (WaterContainer.h:342-345). -/
structure StoreMem (K : Type) where
  content : K
  changeDyn : K
  changeStat : K
  initial : K
  deriving DecidableEq, Repr

/-- Internal variables of the processes that keep some between steps. -/
inductive PState (K : Type) where
  | stateless
  /-- ProcessMeltCemaNeige.h:67 -/
  | cemaNeige (coldContent : K)
  /-- ProcessLateralSnowRedistributionFrey.h:109-110 -/
  | frey (density prevSwe : K)
  /-- ProcessRoutingGR4J.h:68-78 -/
  | gr4j (stuh1 stuh2 : List K) (r qr qd storage : K)
  /-- ProcessRoutingGR6J.h:83-95 -/
  | gr6j (stuh1 stuh2 : List K) (r rexp qr qrexp qd storage : K)
  /-- ProcessRoutingHBV.h:83-91 -/
  | hbv (stuh : List K) (previousContent storage : K)
  deriving DecidableEq, Repr

/-- An output flux: amount, whether it is weighted by the land cover extent, that weight (Flux.h:192-197). -/
structure OutMem (K : Type) where
  amount : K
  weighted : Bool
  fracLC : K
  deriving DecidableEq, Repr

structure ProcMem (K : Type) where
  outs : List (OutMem K)
  st : PState K
  deriving DecidableEq, Repr

/-- Kinds of bricks with a `Reset` of their own. -/
inductive MemKind | plain | landCover | glacier | snowpack
  deriving DecidableEq, Repr

/-- A brick: water container, second container (snow of a snowpack, ice of a glacier), extent, processes. -/
structure BrickMem (K : Type) where
  kind : MemKind
  water : StoreMem K
  second : StoreMem K
  frac : K
  initFrac : K
  procs : List (ProcMem K)
  deriving DecidableEq, Repr

/-- The components: sub-basin bricks, bricks of each hydro unit, amounts of the outlet fluxes. -/
structure World (K : Type) where
  basin : List (BrickMem K)
  units : List (List (BrickMem K))
  outlet : List K
  deriving DecidableEq, Repr

section
variable {K : Type} [Field K]

/-- `WaterContainer::Reset` (WaterContainer.cpp:218-222). -/
def StoreMem.reset (s : StoreMem K) : StoreMem K := { s with content := s.initial, changeDyn := 0, changeStat := 0 }

/-- `constants::snowDensity` (GlobVars.h), in kg/m³. -/
def snowDensity0 : K := 250

/-- Process-specific part of `Reset` (ProcessMeltCemaNeige.cpp:58-61, ProcessLateralSnowRedistributionFrey.cpp:93-97,
ProcessRoutingGR4J.cpp:36-45, ProcessRoutingGR6J.cpp:52-63, ProcessRoutingHBV.cpp:41-47).  Buffers keep their length
(`_recomputeUH` with unchanged parameters). -/
def PState.reset : PState K → PState K
  | .stateless => .stateless
  | .cemaNeige _ => .cemaNeige 0
  | .frey _ _ => .frey snowDensity0 0
  | .gr4j a b _ _ _ _ => .gr4j (a.map fun _ => 0) (b.map fun _ => 0) 0 0 0 0
  | .gr6j a b _ _ _ _ _ _ => .gr6j (a.map fun _ => 0) (b.map fun _ => 0) 0 0 0 0 0 0
  | .hbv a _ _ => .hbv (a.map fun _ => 0) 0 0

/-- `Flux::Reset` (Flux.cpp:16-18). -/
def OutMem.reset (f : OutMem K) : OutMem K := { f with amount := 0 }

/-- `Process::Reset` (Process.cpp:445-449) and the overrides. -/
def ProcMem.reset (p : ProcMem K) : ProcMem K := { outs := p.outs.map OutMem.reset, st := p.st.reset }

/-- `LandCover::SetAreaFraction` (LandCover.cpp:27-37): extent and weights of the output fluxes. -/
def BrickMem.setFrac (b : BrickMem K) (x : K) : BrickMem K :=
  { b with
    frac := x
    procs := b.procs.map fun p => { p with outs := p.outs.map fun f => if f.weighted then { f with fracLC := x } else f } }

/-- `Brick::Reset` (Brick.cpp:47-52). -/
def BrickMem.resetPlain (b : BrickMem K) : BrickMem K :=
  { b with water := b.water.reset, procs := b.procs.map ProcMem.reset }

/-- `Reset` by kind: `Brick::Reset` (Brick.cpp:47-52), `LandCover::Reset` (LandCover.cpp:13-19), `Glacier::Reset`
(Glacier.cpp:9-14), `Snowpack::Reset` (Snowpack.cpp:9-12: the processes are not reset). -/
def BrickMem.reset (b : BrickMem K) : BrickMem K :=
  match b.kind with
  | .plain => b.resetPlain
  | .landCover => b.resetPlain.setFrac b.initFrac
  | .glacier => { b.resetPlain.setFrac b.initFrac with second := b.second.reset }
  | .snowpack => { b with water := b.water.reset, second := b.second.reset }

/-- `SubBasin::Reset` (SubBasin.cpp:103-113) and `HydroUnit::Reset` (HydroUnit.cpp:103-107). -/
def World.reset (w : World K) : World K :=
  { basin := w.basin.map BrickMem.reset, units := w.units.map (List.map BrickMem.reset), outlet := w.outlet.map fun _ => 0 }

/-- Land covers (glaciers included) of a unit. -/
def BrickMem.isCover (b : BrickMem K) : Bool := b.kind == .landCover || b.kind == .glacier

/-- `SubBasin::RestoreInitialAreaFractions` (SubBasin.cpp:124-128, HydroUnit.cpp:453-457, LandCover.h:77-79). -/
def World.restoreExtents (w : World K) : World K :=
  { w with units := w.units.map (List.map fun b => if b.isCover then b.setFrac b.initFrac else b) }

end

end HB
