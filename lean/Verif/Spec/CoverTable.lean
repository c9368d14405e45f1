import Verif.Model.CoverTable

/-! # What is expected of units and of tables of land cover changes -/

namespace HB.Spec.CoverTable

open HB.CoverTable

set_option linter.unusedSectionVars false

/-- Dimension of the units that can be converted: length, area, time, water per time. -/
inductive Dim where
  | length | area | time | rate
  deriving DecidableEq

/-- Size of a unit in metres, square metres, seconds, mm per day. -/
def size {K : Type} [Field K] : U → Option (Dim × K)
  | .mm => some (.length, 1 / 1000)
  | .m => some (.length, 1)
  | .km => some (.length, 1000)
  | .m2 => some (.area, 1)
  | .km2 => some (.area, 1000 * 1000)
  | .s => some (.time, 1)
  | .h => some (.time, 60 * 60)
  | .day => some (.time, 24 * 60 * 60)
  | .mmD => some (.rate, 1)
  | .mmH => some (.rate, 24)
  | _ => none

/-- The documented names of the units of length, area, time and rate that have no space. -/
def names : List (U × List String) :=
  [(.mm, ["mm", "millimeter"]), (.m, ["m", "meter"]), (.km, ["km", "kilometer"]), (.m2, ["m2", "m^2", "m**2"]),
   (.km2, ["km2", "km^2", "km**2"]), (.day, ["day", "days"]), (.h, ["h", "hour", "hours"]), (.s, ["s", "second", "seconds"]),
   (.mmD, ["mm/d", "mm/day", "mm_d", "mm_day"]), (.mmH, ["mm/h", "mm/hour", "mm_h", "mm_hour"]), (.frac, ["frac", "fraction"]),
   (.deg, ["deg", "degree", "degrees"]), (.year, ["year", "years"]), (.month, ["month", "months"]), (.c, ["°C", "C", "celsius"])]

variable {K : Type} [LinearOrder K]

/-- The area of a cover in a unit once the changes up to the date have been applied one after the other: the last one
counts. -/
def areaAt (changes : List (Change K)) (cover : String) (u : ℤ) (date : K) : Option K :=
  (((changes.filter fun c => decide (c.1 ≤ date)).filter fun c => decide (c.2.1 = u ∧ c.2.2.1 = cover)).map
    fun c => c.2.2.2).getLast?

/-- What a row of the table says at a date: the last value not missing among the columns up to the date. -/
def tableAt (dates : List K) (cells : List (Option K)) (date : K) : Option K :=
  (((dates.zip cells).filter fun p => decide (p.1 ≤ date)).filterMap Prod.snd).getLast?

end HB.Spec.CoverTable
