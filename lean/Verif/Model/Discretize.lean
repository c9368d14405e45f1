import Mathlib.Algebra.Order.Field.Basic
import Mathlib.Algebra.Order.Floor.Ring
import Mathlib.Algebra.Order.Floor.Semiring
import Mathlib.Algebra.BigOperators.Group.List.Basic
import Mathlib.Data.List.Sort

/-!
# Discretisation of a catchment into hydro units (Python side)

`CatchmentDiscretization.discretize_by` (python/src/hydrobricks/preprocessing/catchment_discretization.py) and the areas of
`Catchment.get_hydro_units_attributes` (python/src/hydrobricks/catchment.py).

Simplifications.  Numbers are exact; the maps are lists of cells in one order (`none` is `nan`); slope, aspect and radiation maps and
the rasterised sub-catchments are inputs.  Rounding of the attributes to two decimals is left out.
-/

namespace HB.Discretize

set_option linter.unusedSectionVars false

/-- A cell of the maps: elevation, slope, aspect, radiation, sub-catchment (0: none). -/
structure Cell (K : Type) where
  dem : Option K
  slope : Option K
  aspect : Option K
  radiation : Option K
  sub : ℕ

inductive Kind where
  | elevation | slope | radiation
  deriving DecidableEq, Repr

inductive Aspect where
  | n | e | s | w
  deriving DecidableEq, Repr

/-- A class of a criterion. -/
inductive Class (K : Type) where
  | band (k : Kind) (lo hi : K)
  | aspect (a : Aspect)
  | sub (i : ℕ)
  deriving DecidableEq, Repr

inductive Err
  | data | assertion
  deriving DecidableEq, Repr

section
variable {K : Type} [Field K] [LinearOrder K] [FloorRing K]

def Cell.value (c : Cell K) : Kind → Option K
  | .elevation => c.dem
  | .slope => c.slope
  | .radiation => c.radiation

/-- `lo <= x < hi`, false for `nan`. -/
def within (lo hi : K) : Option K → Bool
  | some x => decide (lo ≤ x ∧ x < hi)
  | none => false

/-- The masks (322-377). -/
def Class.holds (c : Cell K) : Class K → Bool
  | .band k lo hi => within lo hi (c.value k)
  | .aspect .n => match c.aspect with
    | some x => decide ((315 ≤ x ∧ x ≤ 360) ∨ (0 ≤ x ∧ x < 45))
    | none => false
  | .aspect .e => within 45 135 c.aspect
  | .aspect .s => within 135 225 c.aspect
  | .aspect .w => within 225 315 c.aspect
  | .sub i => decide (c.sub = i)

/-- `np.arange(a, b, d)`. -/
def arange (a b d : K) : List K := (List.range ⌈(b - a) / d⌉₊).map fun (i : ℕ) => a + (i : K) * d

/-- `elevations[i : i + 2]` for all `i` (179-180). -/
def pairs (l : List K) : List (K × K) := l.zip l.tail

/-- Python's `x % d`. -/
def pyMod (x d : K) : K := x - d * ⌊x / d⌋

/-- `np.nanmin`, `np.nanmax`; `none` without a value. -/
def least : List K → Option K
  | [] => none
  | x :: r => some (r.foldl min x)

def greatest : List K → Option K
  | [] => none
  | x :: r => some (r.foldl max x)

/-- The equal intervals (170-180; slope 196-205; radiation 228-241): given bounds, or the multiples of the distance around the
values. -/
def equalBands (values : List K) (dist : K) (mn mx : Option K) : Option (List (K × K)) := do
  let lo ← match mn with
    | some a => some a
    | none => (least values).map fun m => m - pyMod m dist
  let hi ← match mx with
    | some b => some b
    | none => (greatest values).map fun m => m + (dist - pyMod m dist)
  pure (pairs (arange lo (hi + dist) dist))

/-- `np.nanquantile` (linear) of sorted values at `q`. -/
def quantile (sorted : List K) (q : K) : K :=
  let p := q * ((sorted.length - 1 : ℕ) : K)
  let i := ⌊p⌋₊
  sorted.getD i 0 + (p - (i : K)) * (sorted.getD (i + 1) 0 - sorted.getD i 0)

/-- `np.linspace(0, 1, num=n)`. -/
def linspace (n : ℕ) : List K := (List.range n).map fun (k : ℕ) => (k : K) / ((n - 1 : ℕ) : K)

/-- The quantile bands (181-186). -/
def quantileBands (values : List K) (n : ℕ) : List (K × K) :=
  pairs ((linspace n).map (quantile (values.insertionSort fun a b => a ≤ b)))

/-- Bands of a kind as classes. -/
def bandClasses (k : Kind) (l : List (K × K)) : List (Class K) := l.map fun p => .band k p.1 p.2

def aspectClasses : List (Class K) := [.aspect .n, .aspect .e, .aspect .s, .aspect .w]

def subClasses (n : ℕ) : List (Class K) := (List.range n).map fun i => .sub (i + 1)

/-- `itertools.product` (281). -/
def product {α : Type} : List (List α) → List (List α)
  | [] => [[]]
  | l :: r => l.flatMap fun x => (product r).map fun t => x :: t

/-- `mask_unit` of a combination (289-379). -/
def inUnit (combo : List (Class K)) (c : Cell K) : Bool := c.dem.isSome && combo.all (Class.holds c)

/-- The loop over the combinations (287-416): the map of ids and the combinations kept so far; unit numbers start at 1; the
assertion (386). -/
def loop (cells : List (Cell K)) : List (List (Class K)) → List ℕ × List (List (Class K)) →
    Except Err (List ℕ × List (List (Class K)))
  | [], s => .ok s
  | combo :: rest, (ids, kept) =>
    if (cells.filter (inUnit combo)).length = 0 then loop cells rest (ids, kept)
    else if ((cells.zip ids).filter fun p => inUnit combo p.1 && p.2 != 0).length ≠ 0 then .error .assertion
    else loop cells rest
      ((cells.zip ids).map fun p => if inUnit combo p.1 then kept.length + 1 else p.2, kept ++ [combo])

/-- `discretize_by` (123-458) once the classes of the criteria are known: the map of ids (stored as `uint16`, 418) and the class
combination of each unit. -/
def discretize (cells : List (Cell K)) (criteria : List (List (Class K))) : Except Err (List ℕ × List (List (Class K))) :=
  match loop cells (product criteria) (cells.map fun _ => 0, []) with
  | .ok (ids, kept) => .ok (ids.map fun i => i % 65536, kept)
  | .error e => .error e

/-- Area of a unit (catchment.py:541-545). -/
def unitArea (px : K) (ids : List ℕ) (u : ℕ) : K := ((ids.filter fun i => i == u).length : K) * px

/-- Attributes of a band: middle, lower and upper value (392-409). -/
def bandOf (k : Kind) (combo : List (Class K)) : Option (K × K × K) :=
  combo.findSome? fun
    | .band k' lo hi => if k' = k then some ((lo + hi) / 2, lo, hi) else none
    | _ => none

end
end HB.Discretize
