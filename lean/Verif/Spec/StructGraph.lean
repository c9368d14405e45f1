import Verif.Model.StructGraph

/-! # What the graph of a structure is -/

namespace HB.Spec.StructGraph

open HB.StructGraph

/-- The bricks and splitters of a structure. -/
def bricks (v : Variant) : List Comp := v.unitBricks ++ v.basinBricks
def splitters (v : Variant) : List Comp := v.unitSplitters ++ v.basinSplitters

/-- The fluxes of a process: one for each output, or one to the atmosphere. -/
def processFluxes (b : Comp) (p : Proc) : List Edge :=
  match p.outputs with
  | [] => [⟨b.name, "atmosphere", p.name, p.kind, "water", false⟩]
  | outs => outs.map fun o => ⟨b.name, o.target, p.name, p.kind, o.fluxType, o.instantaneous⟩

/-- The fluxes of a structure. -/
def fluxes (v : Variant) : List Edge :=
  ((bricks v).flatMap fun b => b.processes.flatMap (processFluxes b)) ++
    (splitters v).flatMap fun s => s.outputs.map fun o => ⟨s.name, o.target, "", s.kind, o.fluxType, o.instantaneous⟩

/-- The component `c` reads the forcing `f`. -/
def Reads (v : Variant) (f c : String) : Prop :=
  (∃ b ∈ bricks v, b.name = c ∧ (f ∈ b.forcing ∨ ∃ p ∈ b.processes, f ∈ p.forcing)) ∨ ∃ s ∈ splitters v, s.name = c ∧ f ∈ s.forcing

/-- The edge of a forcing. -/
def forcingEdge (f c : String) : Edge := ⟨f, c, "", "forcing", f, false⟩

end HB.Spec.StructGraph
