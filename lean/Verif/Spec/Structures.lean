import Verif.Model.Structures

/-! # Specification vocabulary for labels -/

set_option linter.unusedSectionVars false

namespace HB

variable {V : Type}

/-- In a hydro unit built from variant `s`, the source `src` is what the label `x` names: item of a brick
(`brick:item`), of a process (`brick:process:item`) or of a splitter (`splitter:item`). -/
def Variant.UnitNames (s : Variant V) (x : String) : LogSrc → Prop
  | .brick nm item => (∃ b ∈ s.unitBricks, b.name = nm ∧ item ∈ b.logs) ∧ x = nm ++ ":" ++ item
  | .proc nm pos item => ∃ b ∈ s.unitBricks, b.name = nm ∧ ∃ p, b.procs[pos]? = some p ∧ item ∈ p.logs ∧
      x = nm ++ ":" ++ p.name ++ ":" ++ item
  | .split pos item => ∃ sp, s.unitSplits[pos]? = some sp ∧ item ∈ sp.logs ∧ x = sp.name ++ ":" ++ item
  | .generic _ => False

/-- The same for the sub-basin; generic items are their own label. -/
def Variant.BasinNames (s : Variant V) (x : String) : LogSrc → Prop
  | .brick nm item => (∃ b ∈ s.basinBricks, b.name = nm ∧ item ∈ b.logs) ∧ x = nm ++ ":" ++ item
  | .proc nm pos item => ∃ b ∈ s.basinBricks, b.name = nm ∧ ∃ p, b.procs[pos]? = some p ∧ item ∈ p.logs ∧
      x = nm ++ ":" ++ p.name ++ ":" ++ item
  | .split pos item => ∃ sp, s.basinSplits[pos]? = some sp ∧ item ∈ sp.logs ∧ x = sp.name ++ ":" ++ item
  | .generic item => item ∈ s.logs ∧ x = item

/-- `l` lists the elements of `all` without repetition, ordered by first appearance. -/
def FirstSeenOf (l all : List String) : Prop :=
  l.Nodup ∧ (∀ x, x ∈ l ↔ x ∈ all) ∧ l.Pairwise fun x y => all.idxOf x < all.idxOf y

end HB
