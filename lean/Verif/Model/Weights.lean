import Verif.Model.Network

/-!
# Area weights of the fluxes

Model of the weights the model builder gives to fluxes (ModelBuilder.cpp:448-548) and of their update
when the extent of a land cover changes (LandCover.cpp:27-37, SurfaceComponent.cpp:12-24).
-/

namespace HB

variable {K : Type} [Field K] [LinearOrder K] [IsStrictOrderedRing K]

/-- Target of a flux leaving a brick of a hydro unit. -/
inductive Dst | outlet | subBasinBrick | unitStorage | unitCover
  deriving DecidableEq, Repr

/-- The members of `Flux` concerned with weighting (Flux.h, Flux.cpp:6-14). -/
structure OutFlux (K : Type) where
  dst : Dst
  inst : Bool := false
  needsW : Bool := false
  fracUnit : K
  fracLand : K
  deriving DecidableEq, Repr

/-- `_fractionTotal` (Flux.h: UpdateFractionTotal). -/
def OutFlux.frac (f : OutFlux K) : K := f.fracUnit * f.fracLand

/-- Creation of an output flux of a unit brick (ModelBuilder.cpp:463-476 outlet, 506-545 bricks);
`canHave` is `CanHaveAreaFraction()` of the source brick (true for land covers and surface
components), a `unitCover` target can have an area fraction, the others cannot. -/
def buildFlux (canHave : Bool) (unitArea basinArea : K) (dst : Dst) (inst : Bool) : OutFlux K :=
  match dst with
  | .outlet => ⟨dst, false, canHave, unitArea / basinArea, 1⟩
  | .subBasinBrick => ⟨dst, inst, canHave, unitArea / basinArea, 1⟩
  | .unitStorage => ⟨dst, inst, canHave, 1, 1⟩
  | .unitCover => ⟨dst, inst, false, 1, 1⟩

/-- The `FluxSpec` seen by the time stepping. -/
def OutFlux.spec (f : OutFlux K) : FluxSpec K := { target := .outside, inst := f.inst, frac := f.frac }

/-- Amount transmitted for a released amount `x` (`UpdateFlux`). -/
def OutFlux.deliver (f : OutFlux K) (x : K) : K := f.spec.scale x

/-- A land cover: its extent and its output fluxes. -/
structure CoverW (K : Type) where
  frac : K
  outs : List (OutFlux K)

/-- A new land cover (LandCover.cpp:6-11: fraction 1) with its fluxes. -/
def CoverW.build (unitArea basinArea : K) (dsts : List (Dst × Bool)) : CoverW K :=
  ⟨1, dsts.map (fun d => buildFlux true unitArea basinArea d.1 d.2)⟩

/-- `LandCover::SetAreaFraction` (LandCover.cpp:27-37). -/
def CoverW.setFraction (c : CoverW K) (v : K) : CoverW K :=
  ⟨v, c.outs.map (fun f => if f.needsW then { f with fracLand := v } else f)⟩

/-- The loop of `SurfaceComponent::SetAreaFraction` (SurfaceComponent.cpp:12-24): `value` is
multiplied by the parent fraction at every weighted output. -/
def surfaceWeights (parent : K) : K → List (OutFlux K) → List (OutFlux K)
  | _, [] => []
  | v, f :: l =>
    if f.needsW then { f with fracLand := v * parent } :: surfaceWeights parent (v * parent) l
    else f :: surfaceWeights parent v l

/-- `SubBasin::GetArea`: sum of the unit areas (SubBasin.cpp:173). -/
def basinArea (areas : List K) : K := areas.foldl (· + ·) 0

end HB
