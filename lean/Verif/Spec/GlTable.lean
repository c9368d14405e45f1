import Verif.Model.GlTable

/-! # What is expected of the delta-h tables -/

namespace HB.Spec.GlTable

open HB.GlTable

set_option linter.unusedSectionVars false

variable {κ ι U K : Type} [Fintype κ] [Fintype ι] [DecidableEq ι] [DecidableEq U] [Fintype U] [Field K] [LinearOrder K]

/-- A glacier profile: a catchment, parts with an area and no negative thickness, bands that are those of the parts. -/
structure Proper (g : Profile κ ι U K) : Prop where
  catchment : 0 < g.catchment
  area : ∀ p, 0 < g.area p
  we : ∀ p, 0 ≤ g.we p
  bands : ∀ i, ∃ p, g.band p = i

/-- The volume of ice of the whole glacier in row `k`. -/
def volume (g : Profile κ ι U K) (iceWe : K) (k : ℕ) (r : Row ι K) : K := ∑ u, g.unitVolume iceWe k r u

/-- The volume of ice of the profile itself: areas (m²) times thicknesses (m of ice). -/
def profileVolume (g : Profile κ ι U K) (iceWe : K) : K :=
  ∑ p, (g.area p * g.catchment) * (g.we p / (iceWe * 1000))

end HB.Spec.GlTable
