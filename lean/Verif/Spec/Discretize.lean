import Verif.Model.Discretize

/-! # What is expected of the hydro units of a discretised catchment -/

namespace HB.Spec.Discretize

open HB.Discretize

variable {K : Type} [Field K] [LinearOrder K]

/-- A cell belongs to a class of a criterion: bands contain their lower bound and not their upper bound; aspects in degrees from
north; sub-catchments by number.  A cell without a value belongs to none. -/
def Inside (c : Cell K) : Class K → Prop
  | .band .elevation lo hi => ∃ x, c.dem = some x ∧ lo ≤ x ∧ x < hi
  | .band .slope lo hi => ∃ x, c.slope = some x ∧ lo ≤ x ∧ x < hi
  | .band .radiation lo hi => ∃ x, c.radiation = some x ∧ lo ≤ x ∧ x < hi
  | .aspect .n => ∃ x, c.aspect = some x ∧ ((315 ≤ x ∧ x ≤ 360) ∨ (0 ≤ x ∧ x < 45))
  | .aspect .e => ∃ x, c.aspect = some x ∧ 45 ≤ x ∧ x < 135
  | .aspect .s => ∃ x, c.aspect = some x ∧ 135 ≤ x ∧ x < 225
  | .aspect .w => ∃ x, c.aspect = some x ∧ 225 ≤ x ∧ x < 315
  | .sub i => c.sub = i

/-- The cell is in the catchment and in every class of the combination. -/
def InCombo (combo : List (Class K)) (c : Cell K) : Prop := c.dem ≠ none ∧ ∀ cl ∈ combo, Inside c cl

/-- The cell is in the catchment and in a class of every criterion. -/
def Covered (criteria : List (List (Class K))) (c : Cell K) : Prop :=
  c.dem ≠ none ∧ ∀ classes ∈ criteria, ∃ cl ∈ classes, Inside c cl

/-- The classes of a criterion exclude each other on the map. -/
def Exclusive (cells : List (Cell K)) (classes : List (Class K)) : Prop :=
  classes.Pairwise fun a b => ∀ c ∈ cells, ¬ (Inside c a ∧ Inside c b)

/-- The combination takes one class of every criterion, in order. -/
def OneOfEach (criteria : List (List (Class K))) (combo : List (Class K)) : Prop :=
  List.Forall₂ (fun cl classes => cl ∈ classes) combo criteria

end HB.Spec.Discretize
