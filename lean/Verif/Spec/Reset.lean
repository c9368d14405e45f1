import Verif.Model.Reset

/-!
# Specification for C43/C44: what belongs to the configuration of the components

Configuration: everything that is fixed when the model is built and that a run must not change.
-/

namespace HB

/-- Which process state it is and the sizes of its buffers. -/
inductive PShape | stateless | cemaNeige | frey | gr4j (a b : ℕ) | gr6j (a b : ℕ) | hbv (a : ℕ)
  deriving DecidableEq, Repr

def PState.shape {K : Type} : PState K → PShape
  | .stateless => .stateless
  | .cemaNeige _ => .cemaNeige
  | .frey _ _ => .frey
  | .gr4j a b .. => .gr4j a.length b.length
  | .gr6j a b .. => .gr6j a.length b.length
  | .hbv a .. => .hbv a.length

/-- Configuration of a flux: weighted or not; the weight itself only if it never follows the extent. -/
def OutMem.config {K : Type} (f : OutMem K) : Bool × Option K := (f.weighted, if f.weighted then none else some f.fracLC)

def ProcMem.config {K : Type} (p : ProcMem K) : List (Bool × Option K) × PShape := (p.outs.map OutMem.config, p.st.shape)

/-- Configuration of a brick: kind, initial contents, initial extent, processes; the extent itself and the flux weights
for bricks that are not land covers (nothing changes them in a run), the content of a second container that the brick
kind does not use. -/
structure BrickCfg (K : Type) where
  kind : MemKind
  water : K
  second : K
  initFrac : K
  frac : Option K
  unused : Option (StoreMem K)
  weights : Option (List (List K))
  procs : List (List (Bool × Option K) × PShape)

def BrickMem.config {K : Type} (b : BrickMem K) : BrickCfg K :=
  { kind := b.kind
    water := b.water.initial
    second := b.second.initial
    initFrac := b.initFrac
    frac := if b.kind = .landCover ∨ b.kind = .glacier then none else some b.frac
    unused := if b.kind = .glacier ∨ b.kind = .snowpack then none else some b.second
    weights := if b.kind = .landCover ∨ b.kind = .glacier then none else
      some (b.procs.map fun p => p.outs.map fun f => f.fracLC)
    procs := b.procs.map ProcMem.config }

/-- Configuration of all components. -/
def World.config {K : Type} (w : World K) : List (BrickCfg K) × List (List (BrickCfg K)) × ℕ :=
  (w.basin.map BrickMem.config, w.units.map (List.map BrickMem.config), w.outlet.length)

/-- All bricks. -/
def World.bricks {K : Type} (w : World K) : List (BrickMem K) := w.basin ++ w.units.flatten

end HB
