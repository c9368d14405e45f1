import Verif.Model.RefMetric
import Verif.Props.Calendar

/-! # Observed series of whole years -/

namespace HB.Spec.RefMetric

variable {K : Type}

/-- The daily series `q` (by number of the day) from 1 January of year `a` to 31 December of year `b`. -/
def wholeYears (a b : ℤ) (q : ℤ → Option K) : List (ℤ × Option K) :=
  (List.range (HB.sysDays b 12 31 - HB.sysDays a 1 1 + 1).toNat).map fun (k : ℕ) => (HB.sysDays a 1 1 + (k : ℤ), q (HB.sysDays a 1 1 + (k : ℤ)))

/-- The years from `a` to `b`. -/
def yearList (a b : ℤ) : List ℤ := (List.range (b - a + 1).toNat).map fun (k : ℕ) => a + (k : ℤ)

/-- A day that every year has. -/
def CommonDay (m d : ℤ) : Prop := HB.Spec.Date 2001 m d

end HB.Spec.RefMetric
