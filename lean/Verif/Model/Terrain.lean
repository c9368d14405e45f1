import Verif.Model.Basin
import Mathlib.Algebra.Order.Floor.Ring
import Mathlib.Algebra.Order.Field.Basic
import Mathlib.Algebra.BigOperators.Group.List.Basic
import Mathlib.Data.List.Sort

/-!
# Connections between hydro units, computed from the terrain

`CatchmentConnectivity.calculate` (python/src/hydrobricks/preprocessing/catchment_connectivity.py) and
`HydroUnits.set_connectivity` (python/src/hydrobricks/hydro_units.py:738-849).

Simplifications: numbers are exact; the flow directions and the flow accumulation of the pysheds library are inputs of the model
(any map of directions, any map of amounts); a dictionary is the list of its entries in the order of insertion;
`sorted` is written as an insertion sort (both are stable); the ids of the
hydro units are taken to be distinct (with repeated ids Python would fill the dictionary of the last row only).
-/

namespace HB.Terrain

inductive Err
  /-- `DataError`: unknown direction, shares refused -/
  | data
  | key | config
deriving DecidableEq

/-- The maps: ids of the hydro units (0 outside the catchment), directions (D8 codes), amounts. -/
structure Maps (K : Type) where
  rows : ℕ
  cols : ℕ
  unit : ℕ → ℕ → ℤ
  dir : ℕ → ℕ → ℤ
  acc : ℕ → ℕ → K

/-- `d8_offsets` (catchment_connectivity.py:391-400). -/
def offset : ℤ → Option (ℤ × ℤ)
  | 1 => some (0, 1)
  | 2 => some (1, 1)
  | 4 => some (1, 0)
  | 8 => some (1, -1)
  | 16 => some (0, -1)
  | 32 => some (-1, -1)
  | 64 => some (-1, 0)
  | 128 => some (-1, 1)
  | _ => none

section
variable {K : Type} [Field K] [LinearOrder K]

/-- `connect[k] = connect.get(k, 0) + x` (catchment_connectivity.py:442-444). -/
def addTo : List (ℤ × K) → ℤ → K → List (ℤ × K)
  | [], k, x => [(k, 0 + x)]
  | e :: r, k, x => if e.1 = k then (e.1, e.2 + x) :: r else e :: addTo r k x

/-- The body of the loop over the cells (catchment_connectivity.py:404-444). -/
def cell (m : Maps K) (ids : List ℤ) (st : ℤ → List (ℤ × K)) (c : ℕ × ℕ) : Except Err (ℤ → List (ℤ × K)) :=
  let u := m.unit c.1 c.2
  if u = 0 then .ok st
  else if m.dir c.1 c.2 ≤ 0 then .ok st
  else match offset (m.dir c.1 c.2) with
    | none => .error .data
    | some o =>
      let i := (c.1 : ℤ) + o.1
      let j := (c.2 : ℤ) + o.2
      if i < 0 ∨ (m.rows : ℤ) ≤ i ∨ j < 0 ∨ (m.cols : ℤ) ≤ j then .ok st
      else
        let v := m.unit i.toNat j.toNat
        if v = u then .ok st
        else if u ∈ ids then .ok (Function.update st u (addTo (st u) v (m.acc c.1 c.2)))
        else .error .key

/-- The cells in the order of the two loops. -/
def cells (m : Maps K) : List (ℕ × ℕ) := (List.range m.rows).flatMap fun i => (List.range m.cols).map fun j => (i, j)

/-- The loop over the cells. -/
def cellLoop (m : Maps K) (ids : List ℤ) : List (ℕ × ℕ) → (ℤ → List (ℤ × K)) → Except Err (ℤ → List (ℤ × K))
  | [], st => .ok st
  | c :: r, st => (cell m ids st c).bind fun st' => cellLoop m ids r st'

/-- `_sum_contributing_flow_acc` (catchment_connectivity.py:359-444): one dictionary per unit, empty at first (line 118). -/
def flows (m : Maps K) (ids : List ℤ) : Except Err (ℤ → List (ℤ × K)) := cellLoop m ids (cells m) fun _ => []

/-- `sum(connect.values())`. -/
def total (d : List (ℤ × K)) : K := (d.map Prod.snd).sum

/-- `remove_connectivity_out` (catchment_connectivity.py:136-160), `del connectivity[0]`. -/
def removeOut (d : List (ℤ × K)) : List (ℤ × K) := d.filter fun e => e.1 != 0

/-- `ndimage.binary_dilation(mask, iterations=1)`: the cells of the unit and those that share a side with one of them. -/
def dilated (m : Maps K) (u : ℤ) (c : ℕ × ℕ) : Bool :=
  m.unit c.1 c.2 == u || (decide (1 ≤ c.1) && m.unit (c.1 - 1) c.2 == u) || (decide (c.1 + 1 < m.rows) && m.unit (c.1 + 1) c.2 == u)
    || (decide (1 ≤ c.2) && m.unit c.1 (c.2 - 1) == u) || (decide (c.2 + 1 < m.cols) && m.unit c.1 (c.2 + 1) == u)

/-- `map_unit_ids[dilated_mask]` (catchment_connectivity.py:186-188). -/
def around (m : Maps K) (u : ℤ) : List ℤ := ((cells m).filter (dilated m u)).map fun c => m.unit c.1 c.2

/-- `connect_to_neighbours` (catchment_connectivity.py:162-200); `np.unique` sorts. -/
def neighbours (m : Maps K) (u : ℤ) (d : List (ℤ × K)) : List (ℤ × K) :=
  if d = [] then
    ((((around m u).dedup.insertionSort fun a b => a ≤ b).filter fun v => v != 0).filter fun v => v != u).map fun v =>
      (v, ((around m u).count v : K))
  else d

/-- `_normalize_row` (catchment_connectivity.py:202-220). -/
def normalize (d : List (ℤ × K)) : List (ℤ × K) := d.map fun e => (e.1, e.2 / total d)

/-- `connectivity = {k: v … if v >= 0.01}` (catchment_connectivity.py:297). -/
def dropSmall (d : List (ℤ × K)) : List (ℤ × K) := d.filter fun e => decide (1 / 100 ≤ e.2)

/-- `max(connectivity, key=connectivity.get)`: the first of the greatest; `b` the best so far. -/
def maxFrom (b : ℤ × K) : List (ℤ × K) → ℤ
  | [] => b.1
  | e :: r => maxFrom (if b.2 < e.2 then e else b) r

/-- `keep_highest_connectivity` (catchment_connectivity.py:306-338). -/
def single (force : Bool) (d : List (ℤ × K)) : List (ℤ × K) :=
  match d with
  | [] => []
  | e :: r => if maxFrom e r = 0 ∧ force = false then [] else [(maxFrom e r, 1)]

/-- A Python slice `l[:n]`. -/
def slice {α : Type} (l : List α) (n : ℤ) : List α := if 0 ≤ n then l.take n.toNat else l.take (l.length - (-n).toNat)

section
variable [FloorRing K]

/-- `int(x)`. -/
def trunc (x : K) : ℤ := if 0 ≤ x then ⌊x⌋ else ⌈x⌉

/-- `round(x)`: half to even. -/
def roundEven (x : K) : ℤ :=
  if x - ⌊x⌋ < 1 / 2 then ⌊x⌋ else if 1 / 2 < x - ⌊x⌋ then ⌊x⌋ + 1 else if ⌊x⌋ % 2 = 0 then ⌊x⌋ else ⌊x⌋ + 1

/-- The keys whose share is rounded up (catchment_connectivity.py:241-247). -/
def roundedUp (p : ℕ) (d : List (ℤ × K)) : List ℤ :=
  let diff := roundEven (total d * 10 ^ p) - (d.map fun e => trunc (e.2 * 10 ^ p)).sum
  slice (((d.map fun e => (e.1, e.2 * 10 ^ p - ((trunc (e.2 * 10 ^ p) : ℤ) : K))).insertionSort
    fun a b => b.2 ≤ a.2).map Prod.fst) diff

/-- `_round_and_normalize_row` (catchment_connectivity.py:222-252). -/
def roundRow (p : ℕ) (d : List (ℤ × K)) : List (ℤ × K) :=
  d.map fun e => (e.1, ((trunc (e.2 * 10 ^ p) + if e.1 ∈ roundedUp p d then 1 else 0 : ℤ) : K) / 10 ^ p)

/-- `normalize_connectivity` (catchment_connectivity.py:254-304). -/
def multiple (force : Bool) (p : ℕ) (d : List (ℤ × K)) : List (ℤ × K) :=
  match d with
  | [] => []
  | e :: r =>
    if maxFrom e r = 0 ∧ force = false then []
    else if total (removeOut d) = 0 then removeOut d
    else roundRow p (normalize (dropSmall (normalize (removeOut d))))

/-- `CatchmentConnectivity.calculate` (catchment_connectivity.py:36-357): the table of ids and connections. -/
def calculate (m : Maps K) (ids : List ℤ) (mode : String) (force : Bool) (p : ℕ) : Except Err (List (ℤ × List (ℤ × K))) :=
  (flows m ids).bind fun st =>
  let row := fun u => if force then neighbours m u (removeOut (st u)) else st u
  if mode = "multiple" then .ok (ids.map fun u => (u, multiple force p (row u)))
  else if mode = "single" then .ok (ids.map fun u => (u, single force (row u)))
  else .error .config

end

/-- The checks of one connection and the call (hydro_units.py:808-847); the type of the connection is left empty. -/
def setOne (ids : List ℤ) (u : ℤ) (e : ℤ × K) : Except Err (Basin.LatDecl K) :=
  if e.1 = u then .error .data
  else if e.2 < 0 then .error .data
  else if 1 < e.2 then .error .data
  else if u ∉ ids then .error .data
  else if e.1 ∉ ids then .error .data
  else .ok ⟨u, e.1, e.2, ""⟩

/-- The connections of one unit, one after the other: what was declared, and the exception if there was one. -/
def setEntries (ids : List ℤ) (u : ℤ) : List (ℤ × K) → List (Basin.LatDecl K) × Option Err
  | [] => ([], none)
  | e :: r => match setOne ids u e with
    | .error x => ([], some x)
    | .ok l => (l :: (setEntries ids u r).1, (setEntries ids u r).2)

/-- `np.isclose(total_ratio, 1.0)`. -/
def isClose1 (x : K) : Bool := decide (|x - 1| ≤ 1 / 10 ^ 8 + 1 / 10 ^ 5)

/-- `HydroUnits.set_connectivity` (hydro_units.py:738-847) on a table: what was declared, and the exception if there was one. -/
def setConnectivity (ids : List ℤ) : List (ℤ × List (ℤ × K)) → List (Basin.LatDecl K) × Option Err
  | [] => ([], none)
  | (u, d) :: r =>
    if d = [] then setConnectivity ids r
    else if isClose1 (total d) then
      match setEntries ids u d with
      | (l, some x) => (l, some x)
      | (l, none) => (l ++ (setConnectivity ids r).1, (setConnectivity ids r).2)
    else ([], some .data)

end
end HB.Terrain
