import Verif.Model.Regrid
import Verif.Props.Calendar

/-! # Mean over the pixels of a unit -/

namespace HB.Spec.Regrid

variable {K : Type} [Field K] [LinearOrder K]

/-- Mean over pixels, given by the data cells they lie in. -/
def pixelMean (cells : List ℕ) (f : ℕ → K) : K := (cells.map f).sum / (cells.length : K)

/-- All the assignments, each block and unit at least once, in any order. -/
def Complete (blocks units : ℕ) (order : List (ℕ × ℕ)) : Prop :=
  (∀ b < blocks, ∀ u < units, (b, u) ∈ order) ∧ ∀ p ∈ order, p.1 < blocks ∧ p.2 < units

/-- The pixels of the unit number `u` that lie in the data, by their cells. -/
def pixelsOf (pixels : List (ℤ × Option ℕ)) (uid : ℤ) : List ℕ := (pixels.filter fun p => decide (p.1 = uid)).filterMap Prod.snd

/-- The day of the year of a date: the lengths of the months before, and the day. -/
def yearDay (y m d : ℤ) : ℤ := ((List.range (m - 1).toNat).map fun i : ℕ => Spec.monthLength y ((i : ℤ) + 1)).sum + d

/-- The days of the year of the file, 1 to 366. -/
def allDays : List ℤ := (List.range 366).map fun i : ℕ => (i : ℤ) + 1

end HB.Spec.Regrid
