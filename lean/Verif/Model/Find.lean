import Mathlib.Algebra.Order.Group.Abs
import Mathlib.Algebra.Order.Group.Int

/-!
# Table look-up

Model of `Find` / `FindT` (Utils.cpp:130-209), used for the years and dates of time-varying parameters
(ParameterModifier.cpp:62, 85).  The three overloads (int, float, double) are one definition over any ordered group.
A table is a list; positions are natural numbers.
-/

namespace HB

/-- What `Find` returns: an index, `NOT_FOUND` (-3) or `OUT_OF_RANGE` (-2) (Includes.h constants). -/
inductive Found where
  | at (i : ℕ)
  | notFound
  | outOfRange
  deriving DecidableEq, Repr

/-- `std::lower_bound` on `len` entries from position `first`, as the standard library implements it: `before a` says that
the entry `a` is ordered before the searched value (Utils.cpp:166, 169). -/
def lowerBound {K : Type} [Zero K] (t : List K) (before : K → Bool) (first len : ℕ) : ℕ :=
  if h : len = 0 then first
  else
    let half := len / 2
    if before (t.getD (first + half) 0) then lowerBound t before (first + half + 1) (len - half - 1)
    else lowerBound t before first half
termination_by len
decreasing_by all_goals omega

section
variable {K : Type} [AddCommGroup K] [LinearOrder K]

/-- `NearlyEqual` (NumericConstants.h:51-53). -/
def nearly (a b tol : K) : Bool := decide (|a - b| ≤ tol)

/-- `FindT` (Utils.cpp:142-209) on a table with at least one entry (an empty one is an invalid pointer, see
`Modifier.updateValue`). -/
def find (t : List K) (v tol : K) : Found :=
  let n := t.length
  let a := t.getD 0 0
  let z := t.getD (n - 1) 0
  if n = 1 then (if nearly v a tol then .at 0 else .notFound)
  else
    let asc := decide (a < z)
    let it := lowerBound t (fun x => if asc then decide (x < v) else decide (v < x)) 0 n
    if it ≠ n ∧ nearly v (t.getD it 0) tol then .at it
    else if it ≠ 0 ∧ nearly v (t.getD (it - 1) 0) tol then .at (it - 1)
    else if asc then (if v < a ∨ z < v then .outOfRange else .notFound)
    else (if a < v ∨ v < z then .outOfRange else .notFound)

end
end HB
