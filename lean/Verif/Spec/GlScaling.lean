import Verif.Model.GlScaling

/-! # What is expected of the area-scaling tables -/

namespace HB.Spec.GlScaling

set_option linter.unusedSectionVars false

variable {K : Type} [Field K] [LinearOrder K]

/-- The glacier of a unit once a layer of thickness `t` has been taken off each of its cells (cells thinner than that are
bare): the cells that keep some ice, and the sum of their thicknesses. -/
def cellsLeft (ice : List K) (t : K) : ℕ := (ice.filter fun x => decide (t < x)).length

def thicknessLeft (ice : List K) (t : K) : K := (ice.map fun x => max (x - t) 0).sum

/-- The thicknesses of the glacier cells of a unit on the map. -/
def ice (cells : List (ℤ × Option K)) (u : ℤ) : List K :=
  cells.filterMap fun c => if c.1 = u then c.2.bind fun x => if 0 < x then some x else none else none

end HB.Spec.GlScaling
