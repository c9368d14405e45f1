import Mathlib.Algebra.Order.Floor.Ring
import Mathlib.Algebra.Order.Field.Basic

/-!
# Cast shadows (Python side)

`PotentialSolarRadiation.calculate_cast_shadows` (python/src/hydrobricks/preprocessing/potential_solar_radiation.py:288-407).

Simplifications.  Numbers are exact; `tan` and the factor from degrees to radians are parameters.  NaN is `none`.  A raster is a function of row and column; rows go
from north to south.
-/

namespace HB.Shadow

variable {K : Type} [Field K] [LinearOrder K] [FloorRing K]

inductive Err | resolution
deriving DecidableEq

/-- The distance grid, the base of the ray numbers and the angle in degrees. -/
structure Rays (K : Type) where
  ref : ℕ → ℕ → ℤ
  base : ℕ → ℕ → ℤ
  deg : K

/-- `xv`, `yv` and their reversals. -/
def xv : ℕ → ℕ → ℤ := fun r _ => r
def yv : ℕ → ℕ → ℤ := fun _ c => c
def xvRev (n : ℕ) : ℕ → ℕ → ℤ := fun r _ => (n : ℤ) - 1 - r
def yvRev (m : ℕ) : ℕ → ℕ → ℤ := fun _ c => (m : ℤ) - 1 - c

/-- The base arrays by azimuth, from the south, positive to the west (351-382). -/
def rays (n m : ℕ) (az : K) : Rays K :=
  if az < -135 then ⟨xv, yvRev m, -(az + 90)⟩
  else if az < -90 then ⟨yvRev m, xv, az + 180⟩
  else if az < -45 then ⟨yvRev m, xvRev n, -az⟩
  else if az < 0 then ⟨xvRev n, yvRev m, 90 + az⟩
  else if az < 45 then ⟨xvRev n, yv, 90 - az⟩
  else if az < 90 then ⟨yv, xvRev n, az⟩
  else if az < 135 then ⟨yv, xv, 180 - az⟩
  else ⟨xv, yv, az - 90⟩

/-- All cells, row by row. -/
def cells (n m : ℕ) : List (ℕ × ℕ) := (List.range n).flatMap fun r => (List.range m).map fun c => (r, c)

/-- `base_ray_ids - ref_grid / angle` (385). -/
def rawRay (R : Rays K) (t : K) (p : ℕ × ℕ) : K := (R.base p.1 p.2 : K) - (R.ref p.1 p.2 : K) / t

/-- `np.nanmin`. -/
def least : List K → K
  | [] => 0
  | v :: vs => vs.foldl min v

/-- `astype(int)`: towards zero. -/
def trunc (x : K) : ℤ := if 0 ≤ x then ⌊x⌋ else ⌈x⌉

/-- The number of the ray of a cell (385-387). -/
def rayId (R : Rays K) (t : K) (n m : ℕ) (p : ℕ × ℕ) : ℤ := trunc (rawRay R t p - least ((cells n m).map (rawRay R t))) + 1

/-- The tilted elevation (390-392). -/
def tilted (R : Rays K) (t tz px : K) (dem : ℕ → ℕ → Option K) (p : ℕ × ℕ) : Option K :=
  (dem p.1 p.2).map fun h => h + ((R.ref p.1 p.2 : K) + (R.base p.1 p.2 : K) / t) * px / tz

/-- `mapped[i, j] = x`. -/
def put (mapped : ℤ → ℤ → Option K) (i j : ℤ) (x : Option K) : ℤ → ℤ → Option K := fun i' j' => if i' = i ∧ j' = j then x else mapped i' j'

/-- The remapping on rays (395-397). -/
def mapped (R : Rays K) (t tz px : K) (n m : ℕ) (dem : ℕ → ℕ → Option K) : ℤ → ℤ → Option K :=
  (cells n m).foldl (fun a p => put a (rayId R t n m p) (R.ref p.1 p.2) (tilted R t tz px dem p)) fun _ _ => none

/-- `np.fmax`. -/
def fmax : Option K → Option K → Option K
  | none, b => b
  | a, none => a
  | some a, some b => some (max a b)

/-- `np.fmax.accumulate` along a ray (398). -/
def accumulated (row : ℤ → Option K) : ℕ → Option K
  | 0 => row 0
  | j + 1 => fmax (accumulated row j) (row (j + 1))

/-- `>` of numpy. -/
def greater : Option K → Option K → Bool
  | some a, some b => decide (b < a)
  | _, _ => false

/-- The shadow of a cell, before the mask (399-400). -/
def inShadow (R : Rays K) (t tz px : K) (n m : ℕ) (dem : ℕ → ℕ → Option K) (p : ℕ × ℕ) : Bool :=
  let row := mapped R t tz px n m dem (rayId R t n m p)
  greater (accumulated row (R.ref p.1 p.2).toNat) (row (R.ref p.1 p.2))

/-- `calculate_cast_shadows`. -/
def castShadows (tan : K → K) (toRad : K) (n m : ℕ) (dem masked : ℕ → ℕ → Option K) (xSize ySize zenith az : K) : Except Err (ℕ → ℕ → Option K) :=
  if |xSize| ≠ |ySize| then .error .resolution
  else if 90 ≤ zenith then .ok fun r c => (masked r c).map fun _ => 1
  else
    let R := rays n m az
    .ok fun r c => (masked r c).map fun _ =>
      if inShadow R (tan (R.deg * toRad)) (tan (zenith * toRad)) ((|xSize| + |ySize|) / 2) n m dem (r, c) then 1 else 0

end HB.Shadow
