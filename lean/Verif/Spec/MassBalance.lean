import Verif.Model.MassBalance

/-! # What the mass balance of a glacier is -/

namespace HB.Spec.MassBalance

variable {K : Type} [Field K] [LinearOrder K]

/-- A glacier in a unit: snow on it and ice melt in millimetres over the glacier, and its area, at the end of each day. -/
structure Glacier (K : Type) where
  elev : K
  snow : ℕ → K
  melt : ℕ → K
  area : ℕ → K

/-- Surface balance from the end of day `i0` to the end of day `i1`: change of the snow less the ice melted after day `i0`. -/
def Glacier.balance (g : Glacier K) (i0 i1 : ℕ) : K := g.snow i1 - g.snow i0 - ∑ t ∈ Finset.Ico (i0 + 1) (i1 + 1), g.melt t

/-- Mean area from day `i0` to day `i1`, both included. -/
def Glacier.meanArea (g : Glacier K) (i0 i1 : ℕ) : K := (∑ t ∈ Finset.Ico i0 (i1 + 1), g.area t) / ((i1 + 1 - i0 : ℕ) : K)

/-- In the elevation band, lower bound included, upper bound excluded; no band: the whole glacier. -/
def InBand (band : Option (K × K)) (e : K) : Prop := ∀ b, band = some b → b.1 ≤ e ∧ e < b.2

instance (band : Option (K × K)) (e : K) : Decidable (InBand band e) := by
  cases band with
  | none => exact isTrue (fun b h => by cases h)
  | some b =>
    exact decidable_of_iff (b.1 ≤ e ∧ e < b.2) ⟨fun h c hc => by cases hc; exact h, fun h => h b rfl⟩

/-- The glaciers of a band. -/
def selected (band : Option (K × K)) (i0 i1 : ℕ) (gs : List (Glacier K)) : List (Glacier K) :=
  gs.filter fun g => decide (0 < g.meanArea i0 i1 ∧ InBand band g.elev)

/-- Area of the glaciers. -/
def total (i0 i1 : ℕ) (gs : List (Glacier K)) : K := (gs.map fun g => g.meanArea i0 i1).sum

/-- Balance of the glaciers, weighted by their areas. -/
def weighted (i0 i1 : ℕ) (gs : List (Glacier K)) : K := (gs.map fun g => g.balance i0 i1 * g.meanArea i0 i1).sum / total i0 i1 gs

/-- A recorded unit: with a glacier, or (`inl`, with its elevation) without. -/
def recorded : K ⊕ Glacier K → HB.MassBalance.Unit' K
  | .inl e => ⟨e, [⟨fun _ => none, fun _ => none, fun _ => none⟩]⟩
  | .inr g => ⟨g.elev, [⟨fun t => some (g.snow t), fun t => some (g.melt t), fun t => some (g.area t)⟩]⟩

/-- The glaciers of a list of units. -/
def glaciers (us : List (K ⊕ Glacier K)) : List (Glacier K) := us.filterMap Sum.getRight?

end HB.Spec.MassBalance
