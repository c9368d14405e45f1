import Mathlib.Algebra.Order.Field.Basic
import Mathlib.Algebra.BigOperators.Group.Finset.Basic
import Mathlib.Algebra.BigOperators.Ring.Finset
import Mathlib.Data.Fintype.Basic
import Mathlib.Algebra.Order.BigOperators.Group.Finset

/-!
# The look-up tables of the delta-h method (Python side)

`GlacierEvolutionDeltaH.compute_lookup_table` (python/src/hydrobricks/preprocessing/glacier_evolution_delta_h.py:415-571) with
the elevation bands (not the pixel-based approach): the tables of areas and volumes that the action of the C++ core
(`ActionGlacierEvolutionDeltaH`, C38) reads.

Simplifications.  Numbers are exact and the square root is a parameter `root`.  numpy arrays are functions of the index: the rows of the
glacier profile (the *parts*, rows without area already dropped) are the index type `κ`, the distinct elevations (the *bands*) the
index type `ι`, `band` is `np.unique(..., return_inverse=True)`.  A division by zero, which numpy turns into `nan`/`inf` values,
gives no row (`none`).
-/

namespace HB.GlTable

set_option linter.unusedSectionVars false

/-- The glacier profile. -/
structure Profile (κ ι U K : Type) where
  /-- catchment area, m² -/
  catchment : K
  /-- area of each part divided by the area of the catchment (lines 517-518) -/
  area : κ → K
  /-- water equivalent of each part, mm (lines 506-507, 516) -/
  we : κ → K
  /-- elevation band of each part (lines 527-529) -/
  band : κ → ι
  /-- hydro unit of each part -/
  unit : κ → U
  /-- elevation of each band -/
  elev : ι → K
  /-- highest and lowest elevations -/
  top : K
  bottom : K

/-- The coefficients of the parametrisation (`_set_delta_h_parametrization`, 710-736). -/
structure Coeffs (K : Type) where
  a : K
  b : K
  c : K
  gamma : ℕ

/-- How the width is updated (`update_width`, `update_width_reference`). -/
inductive Width where
  | initial | previous | atTheEnd
  deriving DecidableEq

/-- A row of the tables of bands, and the melt that could not be taken so far (`excess_melt_we`). -/
structure Row (ι K : Type) where
  we : ι → K
  area : ι → K
  owed : K

section
variable {κ ι U K : Type} [Fintype κ] [Fintype ι] [DecidableEq ι] [DecidableEq U] [Field K] [LinearOrder K]

/-- `_set_delta_h_parametrization` (710-736). -/
def coeffs (km2 : K) : Option (Coeffs K) :=
  if 20 < km2 then some ⟨-2/100, 12/100, 0, 6⟩
  else if 5 ≤ km2 ∧ km2 ≤ 20 then some ⟨-5/100, 19/100, 1/100, 4⟩
  else if 0 < km2 ∧ km2 < 5 then some ⟨-30/100, 60/100, 9/100, 2⟩
  else none

/-- The normalised change (Eq. 4, 761-767) of a normalised elevation. -/
def Coeffs.change (p : Coeffs K) (x : K) : K := (x + p.a) ^ p.gamma + p.b * (x + p.a) + p.c

/-- Normalised elevation of a band (Eq. 3, 697-702). -/
def Profile.norm (g : Profile κ ι U K) (i : ι) : K := (g.top - g.elev i) / (g.top - g.bottom)

/-- Glacier area in km² (704-707). -/
def Profile.km2 (g : Profile κ ι U K) : K := (∑ p, g.area p) * g.catchment / (1000 * 1000)

/-- Area of a band (`_init_parts_containers`, 665-681). -/
def Profile.bandArea (g : Profile κ ι U K) (i : ι) : K := ∑ p with g.band p = i, g.area p

/-- Water equivalent of a band: the mean of its parts weighted by their areas (677-681). -/
def Profile.bandWe (g : Profile κ ι U K) (i : ι) : K := ∑ p with g.band p = i, g.we p * (g.area p / g.bandArea i)

/-- The first row. -/
def Profile.start (g : Profile κ ι U K) : Row ι K := ⟨g.bandWe, g.bandArea, 0⟩

/-- `initial_total_glacier_we` (Eq. 2, 690-692). -/
def Profile.total (g : Profile κ ι U K) : K := ∑ p, g.area p * g.we p

/-- Steps 2 and 3 (`_compute_delta_h`, 769-776, and `_update_glacier_thickness`, 788-803): the melt `m` is spread over the bands in
proportion of the normalised changes; what a band cannot give is owed. -/
def melt (dh : ι → K) (m : K) (r : Row ι K) : Option (Row ι K) :=
  let s := ∑ i, r.area i * dh i
  if s = 0 then none
  else
    let fs := m / s
    some
      { we := fun i => if r.we i - fs * dh i < 0 then 0 else r.we i - fs * dh i
        area := r.area
        owed := -∑ i, (if r.we i - fs * dh i < 0 then r.we i - fs * dh i else 0) * r.area i }

/-- Step 4 (`_width_scaling`, 886-950): `old` is the previous row, `ref` the row of reference, `r` the row after the melt. -/
def scale (root : K → K) (ref old r : Row ι K) : Row ι K :=
  let area := fun i => if 0 < ref.we i then ref.area i * root (r.we i / ref.we i) else 0
  let we := fun i => if 0 < r.we i then r.we i * (old.area i / area i) else r.we i
  { we := we
    area := fun i => if we i = 0 then 0 else area i
    owed := r.owed }

/-- The areas when the width is not updated (951-957). -/
def keepWidth (old r : Row ι K) : Row ι K :=
  { r with area := fun i => if r.we i = 0 then 0 else old.area i }

/-- One increment (559-564); `w0 / n` is the melt of an increment. -/
def step (root : K → K) (mode : Width) (dh : ι → K) (w0 : K) (n : ℕ) (first old : Row ι K) : Option (Row ι K) :=
  (melt dh (w0 / n + old.owed) old).map fun r =>
    match mode with
    | .initial => scale root first old r
    | .previous => scale root old old r
    | .atTheEnd => keepWidth old r

/-- The rows of the loop (559-564). -/
def rows (root : K → K) (mode : Width) (dh : ι → K) (w0 : K) (n : ℕ) (first : Row ι K) : ℕ → Option (Row ι K)
  | 0 => some first
  | k + 1 => (rows root mode dh w0 n first k).bind (step root mode dh w0 n first)

/-- `_final_width_scaling` (980-996), for the rows after the first. -/
def finalWidth (root : K → K) (first r : Row ι K) : Row ι K :=
  let area := fun i => if 0 < first.we i then first.area i * root (r.we i / first.we i) else r.area i
  { we := fun i => if 0 < r.we i then r.we i * (first.area i / area i) else r.we i
    area := area
    owed := r.owed }

/-- Row `k` of the tables of bands, for `n` increments: the last row is kept with zeros (559). -/
def bandRow (root : K → K) (mode : Width) (dh : ι → K) (w0 : K) (n : ℕ) (first : Row ι K) (k : ℕ) : Option (Row ι K) :=
  if k < n then
    (rows root mode dh w0 n first k).map fun r =>
      if mode = .atTheEnd ∧ 0 < k then finalWidth root first r else r
  else some ⟨fun _ => 0, fun _ => 0, 0⟩

/-- Water equivalent of a part (`_adjust_we_parts`, 1024-1038; `_compute_sub_band_parts`, 1040-1058). -/
def Profile.partWe (g : Profile κ ι U K) (k : ℕ) (r : Row ι K) (p : κ) : K :=
  if k = 0 then g.we p
  else if r.we (g.band p) = 0 then 0
  else g.we p * (r.we (g.band p) / g.bandWe (g.band p))

/-- Area of a part, divided by the area of the catchment (`_adjust_areas_parts`, 998-1022). -/
def Profile.partArea (g : Profile κ ι U K) (k : ℕ) (r : Row ι K) (p : κ) : K :=
  if k = 0 then g.area p
  else if g.partWe k r p = 0 then 0
  else if 0 < g.partWe k r p then g.area p * (r.area (g.band p) / g.bandArea (g.band p))
  else g.area p

/-- The table of areas (m²) of the hydro units (`_update_lookup_tables`, 1060-1077). -/
def Profile.unitArea (g : Profile κ ι U K) (k : ℕ) (r : Row ι K) (u : U) : K :=
  ∑ p with g.unit p = u, g.partArea k r p * g.catchment

/-- The table of volumes (m³); `iceWe` is the density of ice divided by the density of water. -/
def Profile.unitVolume (g : Profile κ ι U K) (iceWe : K) (k : ℕ) (r : Row ι K) (u : U) : K :=
  ∑ p with g.unit p = u, g.partWe k r p * (g.partArea k r p * g.catchment) / (iceWe * 1000)

/-- `compute_lookup_table` (415-571): row `k` of the tables. -/
def Profile.tableRow (g : Profile κ ι U K) (root : K → K) (mode : Width) (n k : ℕ) : Option (Row ι K) :=
  (coeffs g.km2).bind fun p => bandRow root mode (fun i => p.change (g.norm i)) g.total n g.start k

/-- The same with an observed change per band (`observed_dh`, 747-759; the interpolation is numpy's). -/
def Profile.observedRow (g : Profile κ ι U K) (root : K → K) (mode : Width) (dh : ι → K) (n k : ℕ) : Option (Row ι K) :=
  (coeffs g.km2).bind fun _ => bandRow root mode dh g.total n g.start k

end

end HB.GlTable
