import Mathlib.Algebra.Order.Group.Abs

/-!
# What a table look-up should answer
-/

namespace HB.Spec

section
variable {K : Type} [AddCommGroup K] [LinearOrder K]

/-- Sorted one way or the other (repeated entries allowed). -/
def Sorted (t : List K) : Prop := t.Pairwise (· ≤ ·) ∨ t.Pairwise (· ≥ ·)

/-- The value matches entry `i` within the tolerance. -/
def Matches (t : List K) (v tol : K) (i : ℕ) : Prop := ∃ x, t[i]? = some x ∧ |v - x| ≤ tol

/-- The value lies beyond all the entries, on one side. -/
def Outside (t : List K) (v : K) : Prop := (∀ x ∈ t, v < x) ∨ (∀ x ∈ t, x < v)

end
end HB.Spec
