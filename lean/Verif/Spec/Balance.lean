import Verif.Model.Network
import Mathlib.Algebra.BigOperators.Group.Finset.Basic
import Mathlib.Algebra.BigOperators.Ring.Finset
import Mathlib.Algebra.Order.BigOperators.Group.Finset

/-!
# Specification of the water balance

What a hydrologist means by the balance of a set `C` of containers: volumes are depths times areas;
the stored volume is content plus changes not yet committed plus the water in transit in fluxes that
have been released and not yet booked by their target; flows are read from the flux amounts recorded
at the end of the step (the same numbers the model logs).
-/

namespace HB.Spec

variable {K σ : Type} [Field K] [LinearOrder K] [IsStrictOrderedRing K]

/-- The system under balance: its containers, the area of each container's depth, and the area over
which each flux amount is expressed. -/
structure Geo (K : Type) where
  C : Finset Nat
  A : Nat → K
  tA : Nat → K

/-- Fluxes written during the direct phase: splitter outputs (no source container) and outputs of the
bricks computed directly that exist (non-null). -/
def writesDirect (net : Net K) : List (Option Nat × Nat) :=
  net.units.flatMap (fun u =>
    u.splitters.flatMap (fun sp => sp.2.map (fun f => (none, f))) ++
    (u.direct.filter (!·.null)).flatMap (fun b => b.procs.flatMap (fun p => p.outs.map (fun f => (some p.src, f)))))

/-- Fluxes written by the solver. -/
def writesSolve (net : Net K) : List (Option Nat × Nat) :=
  net.solver.flatMap (fun b => b.procs.flatMap (fun p => p.outs.map (fun f => (some p.src, f))))

/-- The flux ends in a container of the system. -/
def into (net : Net K) (C : Finset Nat) (f : Nat) : Bool :=
  match (net.flux f).target with
  | .cont c => decide (c ∈ C)
  | .outside => false

/-- The flux starts from a container of the system. -/
def from' (C : Finset Nat) : Option Nat → Bool
  | some c => decide (c ∈ C)
  | none => false

/-- Volume entering the system through the fluxes of `w`. -/
def entering (net : Net K) (g : Geo K) (w : List (Option Nat × Nat)) (amt : Nat → K) : K :=
  (w.map (fun q => if into net g.C q.2 && !from' g.C q.1 then g.tA q.2 * amt q.2 else 0)).sum

/-- Volume leaving the system through the fluxes of `w`. -/
def leaving (net : Net K) (g : Geo K) (w : List (Option Nat × Nat)) (amt : Nat → K) : K :=
  (w.map (fun q => if from' g.C q.1 && !into net g.C q.2 then g.tA q.2 * amt q.2 else 0)).sum

/-- Volume stored in the containers. -/
def stored (g : Geo K) (ph : Phys K) : K :=
  ∑ c ∈ g.C, g.A c * ((ph.cont c).content + (ph.cont c).dyn + (ph.cont c).stat)

/-- Volume in transit in the fluxes of `F`. -/
def transit (g : Geo K) (F : Finset Nat) (ph : Phys K) : K := ∑ f ∈ F, g.tA f * ph.amt f

/-- Volume added by the end-of-step snapping to zero since the counters were at zero. -/
def snapped (g : Geo K) (ph : Phys K) : K := ∑ c ∈ g.C, g.A c * ph.snap c

/-- Volume exchanged with the outside by processes with a groundwater exchange. -/
def exchanged (g : Geo K) (ph : Phys K) : K := ∑ c ∈ g.C, g.A c * ph.exch c

/-- The areas are consistent with the flux scaling: an amount received is expressed over the area of
its target, and what leaves a container of the system as a depth over its own area is the same volume
once scaled (C12 shows that the weights set by the model builder satisfy this). -/
structure GeoOK (net : Net K) (g : Geo K) (w : List (Option Nat × Nat)) : Prop where
  target : ∀ f c, (net.flux f).target = .cont c → c ∈ g.C → g.tA f = g.A c
  conserve : ∀ src f, (some src, f) ∈ w → src ∈ g.C → ∀ x, g.tA f * (net.flux f).scale x = g.A src * x

end HB.Spec
