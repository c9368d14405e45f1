import Verif.Model.Container

/-!
# Classification of bricks and topology check

Model of `Processor::Initialize`, `ConnectToElementsToSolve` and `ValidateFluxTopology`
(Processor.cpp:15-112).
-/

namespace HB

/-- Where an output flux goes: `FluxToBrick` (and its instantaneous variant) know their target brick;
`FluxToOutlet`, `FluxToAtmosphere` and the `FluxSimple` to a splitter are of other classes. -/
inductive RawTarget | brick (id : Nat) | outlet | atmosphere | splitter (id : Nat)
  deriving DecidableEq, Repr

/-- A built brick: its identity, `NeedsSolver()` and the targets of the output fluxes of each of its
processes. -/
structure RawBrick where
  id : Nat
  needsSolver : Bool
  procs : List (List RawTarget)
  deriving DecidableEq, Repr

/-- A built model: bricks of each unit, bricks of the sub-basin. -/
structure RawModel where
  units : List (List RawBrick)
  basin : List RawBrick
  deriving DecidableEq, Repr

/-- `_iterableBricks` (ConnectToElementsToSolve, Processor.cpp:58-112): unit bricks needing the solver
then *all* sub-basin bricks. -/
def RawModel.iterable (m : RawModel) : List RawBrick :=
  m.units.flatMap (fun u => u.filter (·.needsSolver)) ++ m.basin

/-- The brick a `FluxToBrick` points to. -/
def RawModel.find (m : RawModel) (id : Nat) : Option RawBrick :=
  (m.units.flatten ++ m.basin).find? (·.id = id)

/-- `ValidateFluxTopology` (Processor.cpp:29-52). -/
def RawModel.validate (m : RawModel) : Except Err Unit :=
  if m.iterable.any (fun b => b.procs.any (fun p => p.any (fun t =>
      match t with
      | .brick id => match m.find id with
        | some tb => !tb.needsSolver
        | none => false
      | _ => false)))
  then .error .topology else .ok ()

end HB
