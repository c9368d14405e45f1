import Verif.Model.UnitTable

/-!
# What the table of hydro units is documented to contain

Written from the docstrings of `HydroUnits` and `CatchmentLandCover`.
-/

namespace HB.Spec.UnitTable

open HB.UnitTable HB.Basin

/-- A generic (soil) cover, by its name or its type. -/
def Soil (c : String × String) : Prop :=
  c.1 ∈ ["open", "ground", "generic", "generic_land_cover"] ∨ c.2 ∈ ["open", "ground", "generic", "generic_land_cover"]

instance (c : String × String) : Decidable (Soil c) := by unfold Soil; infer_instance

/-- `g` is the cover that takes the rest: the first soil cover. -/
def Rest (covers : List (String × String)) (g : String) : Prop :=
  ∃ before c after, covers = before ++ c :: after ∧ Soil c ∧ c.1 = g ∧ ∀ b ∈ before, ¬ Soil b

/-- Number of cells of the map in a unit, and number of those whose class belongs to a cover. -/
def cellsOf (cells : List (ℤ × ℤ)) (u : ℤ) : ℕ := cells.countP fun c => decide (c.1 = u)
def cellsWith (cells : List (ℤ × ℤ)) (mapping : List (ℤ × String)) (u : ℤ) (name : String) : ℕ :=
  cells.countP fun c => decide (c.1 = u ∧ (c.2, name) ∈ mapping)

variable {K : Type} [Field K] [LinearOrder K]

/-- Everything belongs to the cover that takes the rest. -/
def Started (t : Table K) (g : String) : Prop :=
  ∀ r ∈ t.rows, ∀ c ∈ t.covers, r.frac c.1 = some (if c.1 = g then 1 else 0)

/-- The fractions of a row are between 0 and 1 and add up to 1. -/
def Whole (covers : List (String × String)) (r : Row K) : Prop :=
  (∀ c ∈ covers, ∃ x, r.frac c.1 = some x ∧ 0 ≤ x ∧ x ≤ 1) ∧ (covers.map fun c => (r.frac c.1).getD 0).sum = 1

/-- The table describes the map: distinct units, numbered from 1, with the area of their cells; distinct covers; every class belongs
to one cover at most. -/
structure OnMap (px : K) (cells : List (ℤ × ℤ)) (mapping : List (ℤ × String)) (t : Table K) : Prop where
  pixel : 0 < px
  classes : (mapping.map Prod.fst).Nodup
  ids : (t.rows.map Row.id).Nodup
  numbered : ∀ r ∈ t.rows, r.id ≠ 0
  areas : ∀ r ∈ t.rows, r.area = px * (cellsOf cells r.id : K)
  known : ∀ c ∈ cells, c.1 ≠ 0 → ∃ r ∈ t.rows, r.id = c.1
  names : (t.covers.map Prod.fst).Nodup

/-- The unit that a row describes. -/
def unitOf (covers : List (String × String)) (r : Row K) : UnitDecl K :=
  ⟨r.id, r.area, r.elev, covers.map fun c => ⟨c.1, c.2, (r.frac c.1).getD 0⟩,
    r.props.filterMap fun p => match p.2 with | .inl (x, u) => some ⟨p.1, x, u⟩ | .inr _ => none,
    r.props.filterMap fun p => match p.2 with | .inl _ => none | .inr s => some ⟨p.1, s⟩⟩

/-- What a row says beside the fractions. -/
def rest (r : Row K) : ℤ × K × K × List (String × ((K × String) ⊕ String)) := (r.id, r.area, r.elev, r.props)

end HB.Spec.UnitTable
