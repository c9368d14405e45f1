import Verif.Model.Network

/-!
# Specification: groundwater exchange of a time step (C69)
-/

namespace HB.Spec

/-- The processes of the bricks computed directly, unit by unit, in order (bricks without area are skipped). -/
def directProcs {K : Type} (net : Net K) : List Proc :=
  net.units.flatMap fun u => (u.direct.filter (!·.null)).flatMap (·.procs)

/-- The processes of the solved bricks, in order. -/
def solvedProcs {K : Type} (net : Net K) : List Proc := net.solver.flatMap (·.procs)

/-- What processes add to container `c`, when process `p` adds `x p` each time. -/
def addedTo {K : Type} [AddCommMonoid K] (ps : List Proc) (x : ℕ → K) (c : ℕ) : K :=
  (ps.map fun p => if p.src = c then x p.pid else 0).sum

/-- How often a scheme evaluates the processes in a time step. -/
def evaluations {K σ : Type} : Scheme K σ → Option ℕ
  | .euler => some 1
  | .heun => some 2
  | .rk4 => some 4
  | .sequential _ => none

/-- Each process exchanges an amount that does not depend on the state (for instance a fixed state of the routing store). -/
def SteadyExchange {K σ : Type} [Field K] (net : Net K) (laws : Laws K σ) (x : ℕ → K) : Prop :=
  ∀ p ∈ directProcs net ++ solvedProcs net, ∀ h ph, (laws.rates p.pid h ph).2.1 = x p.pid

end HB.Spec
