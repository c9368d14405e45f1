import Verif.Model.Settings

/-!
# Specification vocabulary for model settings

Components, and settings with some parameter values replaced.
-/

set_option linter.unusedSectionVars false

namespace HB

/-- Where a component lives. -/
inductive Place | unitBrick | basinBrick | splitter
  deriving DecidableEq, Repr

/-- A component of a variant, as seen by its user. -/
structure Comp where
  place : Place
  name : String
  type : String
  deriving DecidableEq, Repr

section
variable {V : Type}

/-- Parameter list with each value replaced by `f name value`. -/
def mapVals (f : String → V → V) (l : List (String × V)) : List (String × V) := l.map fun e => (e.1, f e.1 e.2)

def BrickSet.mapVals (f : String → V → V) (b : BrickSet V) : BrickSet V :=
  { b with params := HB.mapVals f b.params, procs := b.procs.map fun p => { p with params := HB.mapVals f p.params } }

def SplitSet.mapVals (f : String → V → V) (s : SplitSet V) : SplitSet V := { s with params := HB.mapVals f s.params }

/-- The variant with each parameter value replaced by `f component parameterName value`, everything else kept. -/
def Variant.mapVals (f : Comp → String → V → V) (s : Variant V) : Variant V :=
  { s with
    unitBricks := s.unitBricks.map fun b => b.mapVals (f ⟨.unitBrick, b.name, b.type⟩)
    basinBricks := s.basinBricks.map fun b => b.mapVals (f ⟨.basinBrick, b.name, b.type⟩)
    unitSplits := s.unitSplits.map fun b => b.mapVals (f ⟨.splitter, b.name, b.type⟩)
    basinSplits := s.basinSplits.map fun b => b.mapVals (f ⟨.splitter, b.name, b.type⟩) }

/-- The settings with each parameter value of each variant replaced by `f component parameterName value`. -/
def Settings.mapVals (f : Comp → String → V → V) (S : Settings V) : Settings V :=
  { S with variants := S.variants.map fun s => s.mapVals f }

/-- Names of the parameters of a component, one entry per parameter. -/
def BrickSet.paramNames (b : BrickSet V) : List String :=
  b.params.map Prod.fst ++ (b.procs.map fun p => p.params.map Prod.fst).flatten

/-- All components of a variant with the names of their parameters. -/
def Variant.comps (s : Variant V) : List (Comp × List String) :=
  (s.unitBricks.map fun b => (⟨.unitBrick, b.name, b.type⟩, b.paramNames)) ++
  (s.basinBricks.map fun b => (⟨.basinBrick, b.name, b.type⟩, b.paramNames)) ++
  ((s.unitSplits ++ s.basinSplits).map fun b => (⟨.splitter, b.name, b.type⟩, b.params.map Prod.fst))

/-- Some variant has a component of that name. -/
def Settings.Has (S : Settings V) (c : String) : Prop := ∃ s ∈ S.variants, ∃ k ∈ s.comps, k.1.name = c

/-- No two components of a variant share a name, and no component has two parameters of the same name. -/
def Settings.Distinct (S : Settings V) : Prop :=
  ∀ s ∈ S.variants, (s.comps.map fun k => k.1.name).Nodup ∧ ∀ k ∈ s.comps, k.2.Nodup

/-- Variant ids are distinct and the selection is one of the variants (as left by the constructor and `AddStructure`). -/
def Settings.WellFormed (S : Settings V) : Prop :=
  (S.variants.map fun s => s.id).Nodup ∧ S.sel < S.variants.length

end

end HB
