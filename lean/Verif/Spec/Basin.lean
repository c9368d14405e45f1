import Verif.Model.Basin

/-!
# Specification of the basin set-up (C61)

Vocabulary only: what a list of calls declares, read off the calls themselves.
-/

namespace HB.Basin.Spec

variable {K : Type}

/-- The call declares a hydro unit. -/
def isUnit : Cmd K → Bool | .unit .. => true | _ => false

/-- The call concerns the unit declared last. -/
def ofUnit : Cmd K → Bool | .cover .. | .propD .. | .propS .. => true | _ => false

/-- Calls that only declare something (no clearing, no going back to an earlier unit). -/
def plain : Cmd K → Bool | .clear | .select _ => false | _ => true

/-- The covers, properties, units and connections declared by a list of calls, in order. -/
def covers (l : List (Cmd K)) : List (CoverDecl K) := l.filterMap fun | .cover n t f => some ⟨n, t, f⟩ | _ => none
def numbers (l : List (Cmd K)) : List (PropD K) := l.filterMap fun | .propD n v u => some ⟨n, v, u⟩ | _ => none
def texts (l : List (Cmd K)) : List PropS := l.filterMap fun | .propS n v => some ⟨n, v⟩ | _ => none
def laterals (l : List (Cmd K)) : List (LatDecl K) := l.filterMap fun | .lateral g r f t => some ⟨g, r, f, t⟩ | _ => none

/-- The id is that of a declared unit. -/
def Known (d : Decl K) (id : ℤ) : Prop := ∃ u ∈ d.units, u.id = id

/-- The fraction declared for a cover of a unit: the last one if it is declared more than once, 1 if it is not. -/
def declared [One K] (u : UnitDecl K) (cover : String) : K :=
  (((u.covers.filter fun c => c.name == cover).getLast?).map (·.fraction)).getD 1

end HB.Basin.Spec
