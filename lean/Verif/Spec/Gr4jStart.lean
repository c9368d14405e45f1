import Verif.Spec.Gr4j
import Verif.Model.Gr4jLaws

/-!
# Setting of a GR4J or GR6J run: parameters, weather, initial state, mean over the basin
-/

namespace HB.Spec.Gr

open HB.Wire

noncomputable section

/-- Production store of at least 1 mm, precipitation and potential evapotranspiration of at most 13 times its capacity a day. -/
structure Fair (X1 S0 : ℝ) (P E : ℕ → ℝ) : Prop where
  cap : 1 ≤ X1
  start : 0 ≤ S0 ∧ S0 ≤ X1
  rain : ∀ t, 0 ≤ P t ∧ P t ≤ 13 * X1
  demand : ∀ t, 0 ≤ E t ∧ E t ≤ 13 * X1

/-- GR4J: the parameters are in their range and nothing comes near the 10 m a day the code refuses (WaterContainer.cpp:84-87). -/
structure FairGR4J (X1 X2 X3 X4 S0 : ℝ) (P E : ℕ → ℝ) : Prop extends Fair X1 S0 P E where
  routing : 0 < X3
  base : 0 < X4
  sizes : ∀ t, X1 + P t + X3 + 2 * |X2| ≤ 10000

/-- GR6J. -/
structure FairGR6J (X1 X2 X3 X4 X5 X6 S0 : ℝ) (P E : ℕ → ℝ) : Prop extends Fair X1 S0 P E where
  routing : 0 < X3
  base : 0 < X4
  exp : 0 < X6
  sizes : ∀ t, X1 + P t + X3 + X6 + 3 * |X2| * (1 + |X5|) ≤ 10000

/-- The initial state: the production stores at `S0` with capacity `X1`, everything else empty, first day.  With `neg` the containers of
the routing may be negative (they are set so by the GR6J routing, ProcessRoutingGR6J.cpp:24-28). -/
structure Fresh {R : Type} (neg : Bool) (inp : Input ℝ) (X1 S0 : ℝ) (r0 : R) (s : Sys ℝ (GrHid R)) : Prop where
  time : s.hid.time = 0
  demand : ∀ u, s.hid.pet u = none
  routing : ∀ u, s.hid.st u = r0
  water : ∀ (u : ℕ) (un : UnitIn ℝ) (i : ℕ) (b : Wire.Brick), inp.units[u]? = some un → un.str.unitBricks[i]? = some b →
    s.ph.cont (Asm.contId (.unitBrick u i) .water) =
      if b.name = "production_store" then ⟨S0, 0, 0, S0, some X1, false, false⟩
      else ⟨0, 0, 0, 0, none, false, decide (b.name = "uh_input") && neg⟩

/-- Mean of the amounts of the units, weighted by area. -/
def overBasin (inp : Input ℝ) (Q : ℕ → ℕ → ℝ) (t : ℕ) : ℝ :=
  (inp.units.zipIdx.map fun uu => uu.1.area / basinArea inp * Q uu.2 t).sum

/-- An empty GR4J routing: empty store, empty unit hydrographs. -/
def emptyGR4J (X4 : ℝ) : GR4JSt := ⟨0, List.replicate (uh1 X4).length 0, List.replicate (uh2 X4).length 0⟩

/-- An empty GR6J routing. -/
def emptyGR6J (X4 : ℝ) : GR6JSt := ⟨0, 0, List.replicate (uh1 X4).length 0, List.replicate (uh2 X4).length 0⟩

end

end HB.Spec.Gr
