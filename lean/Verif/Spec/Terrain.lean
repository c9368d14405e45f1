import Verif.Model.Terrain
import Mathlib.Algebra.BigOperators.Group.Finset.Basic

/-!
# Specification of the connections between hydro units (C77)
-/

namespace HB.Terrain.Spec

open Finset
open scoped Classical in
section

/-- The eight directions of a map whose rows go south and whose columns go east. -/
inductive Compass | n | ne | e | se | s | sw | w | nw

/-- The D8 code of a direction. -/
def Compass.code : Compass → ℤ
  | .n => 64 | .ne => 128 | .e => 1 | .se => 2 | .s => 4 | .sw => 8 | .w => 16 | .nw => 32

/-- Rows to the south. -/
def Compass.down : Compass → ℤ
  | .n | .ne | .nw => -1
  | .e | .w => 0
  | .s | .se | .sw => 1

/-- Columns to the east. -/
def Compass.right : Compass → ℤ
  | .w | .nw | .sw => -1
  | .n | .s => 0
  | .e | .ne | .se => 1

variable {K : Type} [Field K] [LinearOrder K]

/-- What leaves the cell enters a cell of the map that belongs to `v`. -/
def FlowsInto (m : Maps K) (i j : ℕ) (v : ℤ) : Prop :=
  ∃ c : Compass, m.dir i j = c.code ∧ ∃ i' j' : ℕ, (i' : ℤ) = i + c.down ∧ (j' : ℤ) = j + c.right ∧
    i' < m.rows ∧ j' < m.cols ∧ m.unit i' j' = v

/-- What flows from `u` to `v`: the amounts of the cells of `u` draining into a cell of `v`. -/
noncomputable def flow (m : Maps K) (u v : ℤ) : K :=
  ∑ i ∈ range m.rows, ∑ j ∈ range m.cols, if m.unit i j = u ∧ FlowsInto m i j v then m.acc i j else 0

/-- The cells share a side. -/
def Touch (c c' : ℕ × ℕ) : Prop :=
  (c.1 = c'.1 ∧ (c.2 + 1 = c'.2 ∨ c'.2 + 1 = c.2)) ∨ (c.2 = c'.2 ∧ (c.1 + 1 = c'.1 ∨ c'.1 + 1 = c.1))

/-- The number of cells of `v` that share a side with a cell of `u`. -/
noncomputable def border (m : Maps K) (u v : ℤ) : ℕ :=
  ((range m.rows ×ˢ range m.cols).filter fun c => m.unit c.1 c.2 = v ∧
    ∃ c' : ℕ × ℕ, c'.1 < m.rows ∧ c'.2 < m.cols ∧ Touch c c' ∧ m.unit c'.1 c'.2 = u).card

/-- The maps make sense: every cell of a unit belongs to a declared unit, has no direction or one of the eight, and carries
a positive amount. -/
structure Proper (m : Maps K) (ids : List ℤ) : Prop where
  mapped : ∀ i j : ℕ, i < m.rows → j < m.cols → m.unit i j = 0 ∨ m.unit i j ∈ ids
  direction : ∀ i j : ℕ, i < m.rows → j < m.cols → m.dir i j ≤ 0 ∨ ∃ c : Compass, m.dir i j = c.code
  amount : ∀ i j : ℕ, i < m.rows → j < m.cols → m.unit i j ≠ 0 → 0 < m.acc i j
  ids_nonzero : 0 ∉ ids
  ids_distinct : ids.Nodup

/-- The entries of `d` are shares for unit `u`: each receiver once, another declared unit, a share in (0, 1] with `p` decimals,
together exactly one, each within one unit of the last decimal of what `weight` says. -/
structure Shares (ids : List ℤ) (u : ℤ) (p : ℕ) (weight : ℤ → K) (d : List (ℤ × K)) : Prop where
  once : (d.map Prod.fst).Nodup
  other : ∀ e ∈ d, e.1 ∈ ids ∧ e.1 ≠ u
  pos : ∀ e ∈ d, 0 < e.2 ∧ e.2 ≤ 1
  sum : (d.map Prod.snd).sum = 1
  decimals : ∀ e ∈ d, ∃ n : ℕ, e.2 = n / 10 ^ p
  near : ∀ e ∈ d, |e.2 - weight e.1 / (d.map fun e => weight e.1).sum| < 1 / 10 ^ p

/-- The receivers are those that get at least one per cent of what goes to other units. -/
def Kept (ids : List ℤ) (u : ℤ) (weight : ℤ → K) (d : List (ℤ × K)) : Prop :=
  ∀ v ∈ ids, v ≠ u →
    (v ∈ d.map Prod.fst ↔ 0 < weight v ∧ 1 / 100 * ((ids.filter fun w => w ≠ u).map weight).sum ≤ weight v)

end
end HB.Terrain.Spec
