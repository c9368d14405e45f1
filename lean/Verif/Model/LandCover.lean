import Verif.Model.Num

/-!
# Land covers of a hydro unit: extents and transfer of contents

Model of `HydroUnit.cpp:8-72` (content slots) and `285-490` (validation, change of extents, transfer, fix of the
total).  A unit has its land covers (`_landCoverBricks`, names unique, so that `_landCoverMap` finds the brick of
that name), their extents and their content slots.  `slot c r = none`: the cover has no such storage (no snowpack,
no canopy, not a glacier) or it is an infinite one, which `GetContentSlots` leaves out.
-/

namespace HB

variable {K : Type} [Field K] [LinearOrder K] [IsStrictOrderedRing K]

/-- `CoverRole` (HydroUnit.cpp:12-18). -/
inductive Role | selfWater | selfIce | snow | snowpackWater | canopyWater
  deriving DecidableEq, Repr

/-- Content type `Water` (HydroUnit.cpp:38-50). -/
def Role.isWater : Role → Bool
  | .selfWater | .snowpackWater | .canopyWater => true
  | .selfIce | .snow => false

def Role.all : List Role := [.selfWater, .selfIce, .snow, .snowpackWater, .canopyWater]

/-- The part of a hydro unit concerned. -/
structure HU (K : Type) where
  covers : List String
  frac : String → K
  slot : String → Role → Option K

namespace HU

/-- `GetSlotDepth` (HydroUnit.cpp:54-61): 0 when absent. -/
def depth (u : HU K) (c : String) (r : Role) : K := (u.slot c r).getD 0

/-- Sum of the extents (HydroUnit.cpp:297-300, 463-466). -/
def total (u : HU K) : K := (u.covers.map u.frac).sum

/-- `LandCover::SetAreaFraction` (LandCover.cpp:27-37; the flux weights are in `CoverW.setFraction`). -/
def setFrac (u : HU K) (c : String) (v : K) : HU K := { u with frac := Function.update u.frac c v }

/-- `GetGenericLandCover` (HydroUnit.cpp:371-381). -/
def generic (u : HU K) : Option String :=
  ["open", "ground", "generic", "generic_land_cover"].find? (fun n => decide (n ∈ u.covers))

/-- Water of the donor in storages the receiver does not have (HydroUnit.cpp:427-432). -/
def unmatched (u : HU K) (donor recv : String) : K :=
  ((Role.all.filter fun r => r.isWater && (u.slot donor r).isSome && !(u.slot recv r).isSome).map (u.depth donor)).sum

/-- Depths of the receiver after the transfer (HydroUnit.cpp:434-442). -/
def recvSlots (u : HU K) (donor recv : String) (fOld fNew strip : K) (r : Role) : Option K :=
  (u.slot recv r).map fun rd =>
    let dd := u.depth donor r
    let dd := if r = .selfWater then dd + u.unmatched donor recv else dd
    (rd * fOld + dd * strip) / fNew

/-- `TransferLandCoverContent` (HydroUnit.cpp:383-451). -/
def transfer (u : HU K) (changed : String) (oldF newF : K) (gen : String) (gOld gNew : K) : HU K :=
  let delta := newF - oldF
  if nearlyZero delta epsD then u else
  let donor := if delta > 0 then gen else changed
  let recv := if delta > 0 then changed else gen
  let fRecvOld := if delta > 0 then oldF else gOld
  let fRecvNew := if delta > 0 then newF else gNew
  let fDonorNew := if delta > 0 then gNew else newF
  let strip := if delta > 0 then delta else -delta
  if nearlyZero fRecvNew epsD then u else
  let s1 := Function.update u.slot recv (u.recvSlots donor recv fRecvOld fRecvNew strip)
  let s2 := if nearlyZero fDonorNew epsD then
      Function.update s1 donor (fun r => (u.slot donor r).map fun _ => 0) else s1
  { u with slot := s2 }

/-- `FixLandCoverFractionsTotal` (HydroUnit.cpp:459-490). -/
def fix (u : HU K) : Bool × HU K :=
  if nearlyEqual u.total 1 epsD then (true, u) else
  let diff := u.total - 1
  match u.generic with
  | none => (false, u)
  | some g =>
    if lessThan (u.frac g) diff epsD then (false, u)
    else if u.frac g - diff > 0 then (true, u.setFrac g (u.frac g - diff))
    else (true, u.setFrac g 0)

/-- `ChangeLandCoverAreaFraction` (HydroUnit.cpp:332-369). -/
def change (u : HU K) (name : String) (f : K) : Bool × HU K :=
  if f < 0 ∨ f > 1 then (false, u)
  else if name ∉ u.covers then (false, u)
  else
    match u.generic with
    | none => fix (u.setFrac name f)
    | some g =>
      if g ≠ name ∧ u.covers.length > 1 then
        let delta := f - u.frac name
        let gNew := u.frac g - delta
        if lessThan gNew 0 epsD then (false, u)
        else fix ((u.transfer name (u.frac name) f g (u.frac g) gNew).setFrac name f)
      else fix (u.setFrac name f)

/-- First cover with an extent above the difference (HydroUnit.cpp:314-319). -/
def fixFirst (u : HU K) (diff : K) : HU K :=
  match u.covers.find? (fun c => decide (u.frac c > diff)) with
  | some c => u.setFrac c (u.frac c - diff)
  | none => u

/-- Land cover part of `IsValid` (HydroUnit.cpp:296-321): it also corrects small errors. -/
def validate (u : HU K) : Bool × HU K :=
  if u.covers = [] then (true, u)
  else if nearlyEqual u.total 1 epsD then (true, u)
  else if nearlyEqual u.total 1 tolLoose then (true, u.fixFirst (u.total - 1))
  else (false, u)

/-- A sequence of requests; the run stops with an error at the first refusal (ActionsManager.cpp:92-95 of the
file, `RuntimeError`). -/
def changes (u : HU K) : List (String × K) → Option (HU K)
  | [] => some u
  | (n, f) :: l => if (u.change n f).1 then (u.change n f).2.changes l else none

end HU

/-! ## Glacier actions -/

/-- `ActionGlacierSnowToIceTransformation::Apply` for one unit (lines 45-71): `none` when the ice storage cannot be
updated (infinite storage: WaterContainer.h:208-211 throws). Units without the cover, without snowpack, or with
negligible extent are skipped. -/
def snowToIce (u : HU K) (cover : String) : Option (HU K) :=
  if cover ∉ u.covers ∨ nearlyZero (u.frac cover) prec then some u
  else match u.slot cover .snow with
    | none => some u
    | some s =>
      if s ≤ 0 then some u
      else match u.slot cover .selfIce with
        | none => none
        | some i =>
          let sl := Function.update (Function.update (u.slot cover) .selfIce (some (i + s))) .snow (some 0)
          some { u with slot := Function.update u.slot cover sl }

/-- `Action::CheckLandCoverAreaFraction` (Action.cpp:71-91): `none` = ModelConfigError. -/
def checkFraction (f : K) : Option K :=
  if nearlyZero f prec then some 0
  else if nearlyEqual 1 f prec then some 1
  else if f < 0 ∨ f > 1 then none
  else some f

end HB
