import Verif.Model.Calendar

/-!
# What a time-varying parameter should be worth

A declaration gives values per year, per month or per date.  The value in force after a series of visited dates is the one
declared for the latest of them that has one, or the initial value if none has.
-/

namespace HB.Spec

/-- What the user declares: values of consecutive years, of the twelve months, or of given dates. -/
inductive Declaration (K : Type) where
  | years (first : ℤ) (values : List K)
  | months (values : List K)
  | dates (table : List (K × K))

/-- A visited instant: the clock's day number and the calendar date-time it stands for. -/
structure Visit (K : Type) where
  mjd : K
  time : CTime

/-- The value declared for an instant, if any. -/
def declared {K : Type} [DecidableEq K] : Declaration K → Visit K → Option K
  | .years first values, v => if first ≤ v.time.year then values[(v.time.year - first).toNat]? else none
  | .months values, v => values[(v.time.month - 1).toNat]?
  | .dates table, v => (table.find? fun e => e.1 = v.mjd).map (·.2)

/-- The value in force after the visits: the most recent declaration, otherwise the initial value. -/
def inForce {K : Type} [DecidableEq K] (initial : Option K) (d : Declaration K) (visits : List (Visit K)) : Option K :=
  (visits.reverse.findSome? (declared d)).or initial

end HB.Spec
