import Verif.Model.Container

/-!
# Bricks as sets of containers

Model of the storage side of `core/src/bricks/{Brick,LandCover,Glacier,Snowpack,Storage,
InterceptionStorage}.cpp`: which containers a brick owns, what `Reset`, `SaveAsInitialState`,
`Finalize` and `UpdateContentFromInputs` do to them.  `P` is the internal state of the brick's
processes and `resetP` the virtual `Process::Reset`.
-/

namespace HB

/-- Brick classes (Brick.cpp:29-45). -/
inductive BrickKind | storage | genericLandCover | glacier | snowpack | interception
  deriving DecidableEq, Repr

/-- State of a brick: its water container, the snow (Snowpack.h) or ice (Glacier.h) container, the
current and initial area fractions (LandCover.h:103-104), the process states. -/
structure BrickSt (K P : Type*) where
  kind : BrickKind
  water : Cont K
  snow : Cont K
  ice : Cont K
  frac : K
  frac0 : K
  procs : List P
  deriving DecidableEq

variable {K P : Type*} [Field K] [LinearOrder K] [IsStrictOrderedRing K]

namespace BrickSt

/-- `Reset`: Brick.cpp:47-52 (storage, interception), LandCover.cpp:13-19, Glacier.cpp:9-14,
Snowpack.cpp:9-12 (which, unlike the others, does not reset its processes). -/
def reset (resetP : P → P) (b : BrickSt K P) : BrickSt K P :=
  match b.kind with
  | .storage | .interception => { b with water := b.water.reset, procs := b.procs.map resetP }
  | .genericLandCover =>
    { b with water := b.water.reset, procs := b.procs.map resetP, frac := b.frac0 }
  | .glacier =>
    { b with water := b.water.reset, procs := b.procs.map resetP, frac := b.frac0,
             ice := b.ice.reset }
  | .snowpack => { b with water := b.water.reset, snow := b.snow.reset }

/-- `SaveAsInitialState`: Brick.cpp:54-56, LandCover.cpp:21-25, Glacier.cpp:16-19,
Snowpack.cpp:14-17. -/
def save (b : BrickSt K P) : BrickSt K P :=
  match b.kind with
  | .storage | .interception => { b with water := b.water.save }
  | .genericLandCover => { b with water := b.water.save, frac0 := b.frac }
  | .glacier => { b with water := b.water.save, frac0 := b.frac, ice := b.ice.save }
  | .snowpack => { b with water := b.water.save, snow := b.snow.save }

end BrickSt

/-- What can happen to one container during a simulation (all the mutators of WaterContainer other
than the initial-state ones). -/
inductive ContOp (K : Type*)
  | addDyn (x : K) | subDyn (x : K) | addStat (x : K) | scatterDyn (x : K) | finalize | update (v : K)

/-- Effect of a container operation; `scatterDyn` is the solver writing the dynamic change directly
(Processor.cpp:133-144); a refused `UpdateContent` throws and leaves the container as it was. -/
def ContOp.run (c : Cont K) : ContOp K → Cont K
  | .addDyn x => c.addDyn x
  | .subDyn x => c.subDyn x
  | .addStat x => c.addStat x
  | .scatterDyn x => { c with dyn := x }
  | .finalize => c.finalize
  | .update v => match c.updateContent v with | .ok c' => c' | .error _ => c

/-- What can happen to a brick during a simulation: container operations, a change of extent
(LandCover.cpp:27-37), any evolution of its processes. -/
inductive BrickOp (K P : Type*)
  | water (o : ContOp K) | snow (o : ContOp K) | ice (o : ContOp K)
  | setFraction (v : K) | procs (f : List P → List P)

def BrickOp.run (b : BrickSt K P) : BrickOp K P → BrickSt K P
  | .water o => { b with water := o.run b.water }
  | .snow o => { b with snow := o.run b.snow }
  | .ice o => { b with ice := o.run b.ice }
  | .setFraction v => { b with frac := v }
  | .procs f => { b with procs := f b.procs }

end HB
