import Verif.Model.Params

/-!
# Specification vocabulary: which parameter values the components of a built model use
-/

set_option linter.unusedSectionVars false

namespace HB.Par
open HB.Names

section
variable {V : Type}

/-- Parameter names, without the values. -/
def erasePs (l : List (String × V)) : List String := l.map Prod.fst

/-- A brick's settings without parameter values. -/
def eraseBrick (b : BrickSet V) : String × String × List String × List (String × String × List String) :=
  (b.name, b.type, erasePs b.params, b.procs.map fun p => (p.name, p.type, erasePs p.params))

/-- A splitter's settings without parameter values. -/
def eraseSplit (s : SplitSet V) : String × String × List String := (s.name, s.type, erasePs s.params)

/-- Two variants that differ at most in parameter values and log items. -/
structure SameVariant (s s' : Variant V) : Prop where
  id : s.id = s'.id
  covers : s.coverIdx = s'.coverIdx
  unitBricks : s.unitBricks.map eraseBrick = s'.unitBricks.map eraseBrick
  basinBricks : s.basinBricks.map eraseBrick = s'.basinBricks.map eraseBrick
  unitSplits : s.unitSplits.map eraseSplit = s'.unitSplits.map eraseSplit
  basinSplits : s.basinSplits.map eraseSplit = s'.basinSplits.map eraseSplit

/-- Two settings that differ at most in parameter values, log items and selection. -/
def SameShape (S S' : Settings V) : Prop := List.Forall₂ SameVariant S.variants S'.variants

/-- The value a component is meant to use: that of the first parameter with the first of the names under which there is one;
without any, the neutral factor `one` or nothing. -/
def meant (one : V) (ps : List (String × V)) (n : Need) : Option V :=
  match n.names.find? fun nm => decide (nm ∈ ps.map Prod.fst) with
  | some nm => (ps.find? fun e => e.1 == nm).map Prod.snd
  | none => if n.other = .one then some one else none

/-- A built process reads the values of these settings. -/
def ProcReads (one : V) (mem : ℕ → Settings V) (aspect : String) (p : BProc) (s : ProcSet V) : Prop :=
  (registry.lookup (resolveAlias s.type)).map Prod.fst = some p.cls ∧
  p.ptrs.map (read one mem) = (procNeeds aspect p.cls).map (meant one s.params)

/-- A built splitter reads the values of these settings. -/
def SplitReads (one : V) (mem : ℕ → Settings V) (p : BSplit) (s : SplitSet V) : Prop :=
  splitterMap.lookup s.type = some p.cls ∧ p.ptrs.map (read one mem) = (splitNeeds p.cls).map (meant one s.params)

/-- A built brick and its processes read the values of these settings. -/
def BrickReads (one : V) (mem : ℕ → Settings V) (aspect : String) (b : BBrick) (s : BrickSet V) : Prop :=
  b.name = s.name ∧ brickMap.lookup s.type = some b.cls ∧ b.ptrs.map (read one mem) = (brickNeeds b.cls).map (meant one s.params) ∧
  List.Forall₂ (ProcReads one mem aspect) b.procs s.procs

/-- A built unit reads the values of this variant: every brick and splitter those of its own settings, and every brick and
splitter of the variant is there. -/
def UnitReads (one : V) (mem : ℕ → Settings V) (u : BUnit) (s : Variant V) : Prop :=
  s.id = u.structureId ∧
  (∀ b ∈ u.bricks, ∃ x ∈ s.unitBricks, BrickReads one mem u.aspect b x) ∧
  (∀ x ∈ s.unitBricks, ∃ b ∈ u.bricks, BrickReads one mem u.aspect b x) ∧
  List.Forall₂ (SplitReads one mem) u.splits s.unitSplits

/-- The whole model reads the values of `S`: the sub-basin those of variant 1, each unit those of the variant with its
structure id. -/
def Reads (one : V) (mem : ℕ → Settings V) (m : Built) (S : Settings V) : Prop :=
  (∃ s ∈ S.variants, s.id = 1 ∧ List.Forall₂ (BrickReads one mem "") m.basinBricks s.basinBricks ∧
    List.Forall₂ (SplitReads one mem) m.basinSplits s.basinSplits) ∧
  ∀ u ∈ m.units, ∃ s ∈ S.variants, UnitReads one mem u s

/-- What `AddStructure`, `AddLandCoverBrick` and `AddSurfaceComponentBrick` leave behind: distinct ids including 1; positions
of land covers and surface components are positions of bricks, without repetition; unit bricks of a variant have distinct
names. -/
structure Tidy (surf : ℕ → List ℕ) (S : Settings V) : Prop where
  ids : (S.variants.map fun s => s.id).Nodup
  one : ∃ s ∈ S.variants, s.id = 1
  places : ∀ v s, S.variants[v]? = some s → (surf v ++ s.coverIdx).Nodup ∧ ∀ i ∈ surf v ++ s.coverIdx, i < s.unitBricks.length
  names : ∀ s ∈ S.variants, (s.unitBricks.map fun b => b.name).Nodup

end

end HB.Par
