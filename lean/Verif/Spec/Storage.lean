import Verif.Model.Container

/-!
# Specification vocabulary for storages (independent of how the code limits rates)
-/

namespace HB.Spec

variable {K : Type*} [Field K] [LinearOrder K] [IsStrictOrderedRing K]

/-- Total of the requested rates; an unlinked (null) request counts for nothing. -/
def total : List (Option K) → K
  | [] => 0
  | none :: l => total l
  | some r :: l => r + total l

/-- Total rate entering a storage. -/
def inRate : List (Inflow K) → K
  | [] => 0
  | .rate (some r) :: l => r + inRate l
  | _ :: l => inRate l

/-- Total amount entering a storage independently of any rate. -/
def inAmount : List (Inflow K) → K
  | [] => 0
  | .inst a :: l => a + inAmount l
  | .amount a :: l => a + inAmount l
  | .rate _ :: l => inAmount l

/-- Content at the end of a step of length `dt` if the given rates are applied. -/
def endContent (c : Cont K) (dt : K) (outs : List (Option K)) (ins : List (Inflow K)) : K :=
  c.content + c.dyn + inAmount ins + (inRate ins - total outs) * dt

/-- Part of the requested outflow that lies below machine epsilon. -/
def tinyOut : List (Option K) → K
  | [] => 0
  | none :: l => tinyOut l
  | some r :: l => (if 0 < r ∧ r ≤ epsD then r else 0) + tinyOut l

/-- Part of the inflow rates that lies below machine epsilon. -/
def tinyIn : List (Inflow K) → K
  | [] => 0
  | .rate (some r) :: l => (if 0 < r ∧ r ≤ epsD then r else 0) + tinyIn l
  | _ :: l => tinyIn l

end HB.Spec
