import Verif.Model.LandCover
import Mathlib.Algebra.Order.Floor.Defs

/-!
# Glacier evolution actions

Model of `ActionGlacierEvolutionAreaScaling::Apply` (ActionGlacierEvolutionAreaScaling.cpp:75-123) and
`ActionGlacierEvolutionDeltaH::Apply` (ActionGlacierEvolutionDeltaH.cpp:79-142), one look-up table column per hydro
unit (`_hydroUnitIds` without repetition).  `static_cast<int>` of a non-negative quotient is `Nat.floor`.
-/

namespace HB

variable {K : Type} [Field K] [LinearOrder K] [IsStrictOrderedRing K] [FloorSemiring K]

/-- A hydro unit listed by the action: its area [m²] (`GetArea`), its covers, its columns of the two tables. -/
structure GlUnit (K : Type) where
  area : K
  hu : HU K
  tabArea : ℕ → K
  tabVol : ℕ → K

/-- How `Apply` can fail: an exception, a refused change (`return false`, which `ActionsManager` turns into an error),
a division by zero leaving an infinite or undefined depth in the storage, or a row outside the table. -/
inductive GlErr | throws | refused | divZero | outOfTable
  deriving DecidableEq, Repr

/-- `UpdateContent(value, Ice)` on the cover (Glacier.cpp:102-114, WaterContainer.h:207-213): throws for an infinite
storage or a cover without ice. -/
def HU.setIce (u : HU K) (c : String) (v : K) : Except GlErr (HU K) :=
  match u.slot c .selfIce with
  | none => .error .throws
  | some _ => .ok { u with slot := Function.update u.slot c (Function.update (u.slot c) .selfIce (some v)) }

/-- Row of the table (AreaScaling.cpp:78-79, 100-105; DeltaH.cpp:100-109): `n` rows, initial ice `w0`, ice left `w`. -/
def glRow (n : ℕ) (w0 w : K) : ℕ := ⌊max 0 ((w0 - w) / w0) / (1 / ((n : K) - 1))⌋₊

/-- Extent read from the table, snapped and checked, then applied (AreaScaling.cpp:108-114; DeltaH.cpp:113-121). -/
def GlUnit.resize (g : GlUnit K) (c : String) (newArea : K) : Except GlErr (HU K) :=
  match checkFraction (newArea / g.area) with
  | none => .error .throws
  | some f => if (g.hu.change c f).1 then .ok (g.hu.change c f).2 else .error .refused

/-- `ActionGlacierEvolutionAreaScaling::Apply`, one unit (lines 82-119 of the file). `w0` is
`_initialGlacierWE[i]`. In the "no ice left" branch the result of the change is ignored by the code. -/
def GlUnit.areaScaling (g : GlUnit K) (c : String) (n : ℕ) (w0 : K) : Except GlErr (HU K) :=
  if c ∉ g.hu.covers ∨ nearlyZero (g.hu.frac c) prec then .ok g.hu
  else
    let iceVolume := g.hu.frac c * g.area * g.hu.depth c .selfIce
    if nearlyZero iceVolume prec then .ok (g.hu.change c 0).2
    else
      let row := glRow n w0 iceVolume
      if row < n then
        match g.resize c (g.tabArea row) with
        | .error e => .error e
        | .ok h => if g.tabArea row = 0 then .error .divZero else h.setIce c (iceVolume / g.tabArea row)
      else .error .outOfTable

/-- Total ice of the listed units (DeltaH.cpp:84-96), skipping covers with a negligible extent. -/
def glTotal (c : String) (l : List (GlUnit K)) : K :=
  (l.map fun g => if c ∉ g.hu.covers ∨ nearlyZero (g.hu.frac c) prec then 0
    else g.hu.frac c * g.area * g.hu.depth c .selfIce).sum

/-- First loop (DeltaH.cpp:113-121). -/
def glResizeAll (c : String) (row : ℕ) : List (GlUnit K) → Except GlErr (List (GlUnit K))
  | [] => .ok []
  | g :: l => match g.resize c (g.tabArea row) with
    | .error e => .error e
    | .ok h => match glResizeAll c row l with
      | .error e => .error e
      | .ok l' => .ok ({ g with hu := h } :: l')

/-- Second loop (DeltaH.cpp:126-139). -/
def glSpread (c : String) (row : ℕ) (we rowSum : K) : List (GlUnit K) → Except GlErr (List (GlUnit K))
  | [] => .ok []
  | g :: l =>
    let ice : Except GlErr K := if nearlyZero (g.tabArea row) prec then .ok 0
      else if rowSum = 0 then .error .divZero
      else .ok (we * (g.tabVol row / rowSum) / g.tabArea row)
    match ice with
    | .error e => .error e
    | .ok v => match g.hu.setIce c v with
      | .error e => .error e
      | .ok h => match glSpread c row we rowSum l with
        | .error e => .error e
        | .ok l' => .ok ({ g with hu := h } :: l')

/-- `ActionGlacierEvolutionDeltaH::Apply`: new units and the new `_lastRow`. -/
def glDeltaH (c : String) (n : ℕ) (w0 : K) (last : ℕ) (l : List (GlUnit K)) : Except GlErr (List (GlUnit K) × ℕ) :=
  let we := glTotal c l
  let row := glRow n w0 we
  if row < n then
    match (if row ≠ last then glResizeAll c row l else .ok l) with
    | .error e => .error e
    | .ok l1 => match glSpread c row we (l.map fun g => g.tabVol row).sum l1 with
      | .error e => .error e
      | .ok l2 => .ok (l2, row)
  else .error .outOfTable

end HB
