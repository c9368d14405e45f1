import Verif.Spec.Equations
import Mathlib.Algebra.BigOperators.Group.List.Basic

/-!
# GR4J and GR6J as daily recursions

The model of Perrin et al. (2003), as a recursion over days on the documented formulas of `Spec/Equations.lean`, and the same recursion
with the two things an implementation that moves water between containers adds: amounts of at most 1e-8 mm are dropped, and the
discharge of a day of GR4J is at most the water held in the routing container before the groundwater exchange.
-/

namespace HB.Spec.Gr

noncomputable section

/-! ## The published model -/

/-- Net rain. -/
def netRain (P E : ℝ) : ℝ := max 0 (P - E)

/-- Net evapotranspiration capacity. -/
def netDemand (P E : ℝ) : ℝ := max 0 (E - P)

/-- Percolation, from the level after rain and evapotranspiration. -/
def percolated (X1 S Pn En : ℝ) : ℝ :=
  Doc.percolationGR4J (S + Doc.infiltrationGR4J Pn S X1 - Doc.etGR4J S En X1) X1

/-- Water leaving the production store for the routing. -/
def effective (X1 S Pn En : ℝ) : ℝ := Doc.productionPR Pn (Doc.infiltrationGR4J Pn S X1) (percolated X1 S Pn En)

/-- Level of the production store before day `t`. -/
def bookLevel (X1 S0 : ℝ) (P E : ℕ → ℝ) : ℕ → ℝ
  | 0 => S0
  | t + 1 =>
    let S := bookLevel X1 S0 P E t
    let Pn := netRain (P t) (E t)
    let En := netDemand (P t) (E t)
    S + Doc.infiltrationGR4J Pn S X1 - Doc.etGR4J S En X1 - percolated X1 S Pn En

/-- Water reaching the unit hydrographs on day `t`. -/
def bookPR (X1 S0 : ℝ) (P E : ℕ → ℝ) (t : ℕ) : ℝ :=
  effective X1 (bookLevel X1 S0 P E t) (netRain (P t) (E t)) (netDemand (P t) (E t))

/-- Discharge of GR4J on day `t`, from an empty routing. -/
def bookGR4J (X1 X2 X3 X4 S0 : ℝ) (P E : ℕ → ℝ) (t : ℕ) : ℝ := Doc.dischargeGR4J X2 X3 X4 (bookPR X1 S0 P E) t

/-- Discharge of GR6J on day `t`, from empty stores, for an outflow function `q` of the exponential store. -/
def bookGR6J (q : ℝ → ℝ) (X1 X2 X3 X4 X5 S0 : ℝ) (P E : ℕ → ℝ) (t : ℕ) : ℝ := Doc.dischargeGR6J q X2 X3 X4 X5 (bookPR X1 S0 P E) t

/-! ## With small amounts dropped -/

/-- What is kept of an amount. -/
def keep (x : ℝ) : ℝ := if x ≤ 1 / 10 ^ 8 then 0 else x

/-- Rain left by the interception. -/
def rainLeft (P E : ℝ) : ℝ := keep (P - keep (min P E))

/-- Demand left by the interception. -/
def demandLeft (P E : ℝ) : ℝ := if P ≤ 1 / 10 ^ 8 then E else max 0 (E - P)

/-- Water leaving the production store for the routing. -/
def given (X1 S Pn En : ℝ) : ℝ := keep (effective X1 S Pn En)

/-- Evapotranspiration from the production store; nothing is taken from a store that is empty after the production. -/
def taken (X1 S Pn En : ℝ) : ℝ := if S + Pn - given X1 S Pn En ≤ 1 / 10 ^ 8 then 0 else keep (Doc.etGR4J S En X1)

/-- Level of the production store before day `t`. -/
def level (X1 S0 : ℝ) (P E : ℕ → ℝ) : ℕ → ℝ
  | 0 => S0
  | t + 1 =>
    let S := level X1 S0 P E t
    let Pn := rainLeft (P t) (E t)
    let En := demandLeft (P t) (E t)
    keep (S + Pn - given X1 S Pn En - taken X1 S Pn En)

/-- Water reaching the unit hydrographs on day `t`. -/
def runPR (X1 S0 : ℝ) (P E : ℕ → ℝ) (t : ℕ) : ℝ :=
  given X1 (level X1 S0 P E t) (rainLeft (P t) (E t)) (demandLeft (P t) (E t))

/-- Water in the routing container before day `t`, for the water coming in, the discharge asked for and the groundwater exchange.
Nothing happens in an empty container. -/
def held (PR asked exchange : ℕ → ℝ) : ℕ → ℝ
  | 0 => 0
  | t + 1 =>
    let V := held PR asked exchange t + PR t
    keep (V - keep (min (asked t) V) + if V ≤ 1 / 10 ^ 8 then 0 else exchange t)

/-- Discharge of day `t`. -/
def released (PR asked exchange : ℕ → ℝ) (t : ℕ) : ℝ := keep (min (asked t) (held PR asked exchange t + PR t))

/-- Net groundwater exchange of GR4J on day `t`: into the routing store and the direct branch, neither below zero. -/
def exchangedGR4J (X2 X3 X4 : ℝ) (PR : ℕ → ℝ) (t : ℕ) : ℝ :=
  let R := Doc.storeGR4J X2 X3 X4 PR t
  let F := Doc.exchangeGR4J X2 R X3
  let Q9 := Doc.routed (Doc.sCurve1 X4) (fun s => 0.9 * PR s) t
  let Q1 := Doc.routed (Doc.sCurve2 X4) (fun s => 0.1 * PR s) t
  (max 0 (R + Q9 + F) - (R + Q9)) + (max 0 (Q1 + F) - Q1)

/-- Water in the routing of the published GR4J before day `t`: routing store and unit hydrographs. -/
def bookHeld (X2 X3 X4 : ℝ) (PR : ℕ → ℝ) : ℕ → ℝ
  | 0 => 0
  | t + 1 => bookHeld X2 X3 X4 PR t + PR t + exchangedGR4J X2 X3 X4 PR t - Doc.dischargeGR4J X2 X3 X4 PR t

/-- An amount that is not dropped, or nothing. -/
def Seen (x : ℝ) : Prop := x = 0 ∨ 1 / 10 ^ 8 < x

/-- All amounts of the published model are zero or above 1e-8 mm. -/
structure Clear (X1 X2 X3 X4 S0 : ℝ) (P E : ℕ → ℝ) : Prop where
  rain : ∀ t, Seen (P t)
  demand : ∀ t, Seen (E t)
  netRain : ∀ t, Seen (netRain (P t) (E t))
  level : ∀ t, Seen (bookLevel X1 S0 P E t)
  taken : ∀ t, Seen (Doc.etGR4J (bookLevel X1 S0 P E t) (netDemand (P t) (E t)) X1)
  given : ∀ t, Seen (bookPR X1 S0 P E t)
  held : ∀ t, Seen (bookHeld X2 X3 X4 (bookPR X1 S0 P E) t)
  discharge : ∀ t, Seen (bookGR4J X1 X2 X3 X4 S0 P E t)

/-- Discharge of GR4J on day `t`. -/
def runGR4J (X1 X2 X3 X4 S0 : ℝ) (P E : ℕ → ℝ) (t : ℕ) : ℝ :=
  let PR := runPR X1 S0 P E
  released PR (Doc.dischargeGR4J X2 X3 X4 PR) (exchangedGR4J X2 X3 X4 PR) t

/-- Discharge of GR6J on day `t`: the routing may take more than is held, so only small amounts are dropped. -/
def runGR6J (q : ℝ → ℝ) (X1 X2 X3 X4 X5 S0 : ℝ) (P E : ℕ → ℝ) (t : ℕ) : ℝ :=
  keep (Doc.dischargeGR6J q X2 X3 X4 X5 (runPR X1 S0 P E) t)

end

end HB.Spec.Gr
