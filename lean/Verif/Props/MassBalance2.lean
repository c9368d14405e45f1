import Verif.Props.MassBalance
import Verif.Model.Network
import Mathlib.Data.Rat.Defs
import Mathlib.Algebra.Order.Field.Rat

/-! # C86: examples and limits -/

namespace HB.MassBalance

/-- **C86 (link)**: the amount a flux of the core holds after an update, which is what is recorded, is `recordedMelt` of its fraction, for the
instantaneous fluxes of the glacier covers. -/
theorem c86_core {K : Type} [Field K] [LinearOrder K] (net : Net K) (ph : Phys K) (f : ℕ) (x : K) (hi : (net.flux f).inst = true) :
    (updateFlux net ph f x).amt f = recordedMelt (net.flux f).frac x := by
  unfold updateFlux recordedMelt FluxSpec.scale
  rw [hi]
  simp only [if_true]
  split <;> simp [upd]

namespace Demo

open HB.Spec.MassBalance

/-- Two glaciers and a unit without: snow builds up to day 2 and melts to day 4, then ice melts. -/
def high : Glacier ℚ := ⟨3000, fun t => [100, 150, 200, 150, 120].getD t 0, fun t => if t = 4 then 10 else 0, fun _ => 2⟩
def low : Glacier ℚ := ⟨2500, fun t => [50, 80, 100, 0, 0].getD t 0, fun t => if 3 ≤ t then 60 else 0, fun _ => 1⟩
def us : List (ℚ ⊕ Glacier ℚ) := [.inr high, .inr low, .inl 2000]

def target (a b : ℤ) (band : Option (ℚ × ℚ)) : Target ℚ := ⟨86400 * a, 86400 * b, 0, band⟩

/-- Winter, summer and year; bands. -/
theorem c86_demo : simulated 0 5 (us.map recorded) [target 0 2 none, target 2 4 none, target 0 4 none, target 0 4 (some (2400, 3000)),
    target 0 4 (some (3000, 3100)), target 0 4 (some (2000, 2400)), target 0 5 none, target 3 3 none] =
    [some (250 / 3), some (-400 / 3), some (-150 / 3), some (-170), some 10, none, none, none] := by decide +kernel

/-- The hypotheses of `c86_seasons` are met. -/
example : simulatedOne 0 5 (us.map recorded) (target 0 4 none) = some (250 / 3 + -400 / 3) :=
  c86_seasons 0 5 us none 0 2 4 (by decide) (by decide) (by decide) (fun g => if g.elev = 3000 then 2 else 1)
    (by intro g hg t _ _; simp only [us, glaciers] at hg; simp at hg; rcases hg with rfl | rfl <;> simp [high, low]) 0 0 0 _ _
    (by decide +kernel) (by decide +kernel)

/-- **C86 (limit: recorded melt, example)**: in a basin of 10 with one glacier of 2 in a unit of 4, which loses 1000 mm of ice, the recorded melt is 200
and the simulated balance -200 mm. -/
theorem c86_melt_demo : recordedMelt (fluxFraction 4 10 (1 / 2)) 1000 = (200 : ℚ) ∧
    simulatedOne 0 2 ([.inr ⟨3000, fun _ => 0, fun t => if t = 1 then recordedMelt (fluxFraction 4 10 (1 / 2)) 1000 else 0, fun _ => 2⟩].map
      recorded) (target 0 1 none) = some (-200) := by
  constructor <;> decide +kernel

/-- **C86 (limit: two glacier covers)**: the millimetres of the covers are added, not averaged: two covers of the same unit that
both lose 100 mm give a balance of -200 mm. -/
theorem c86_two_covers :
    simulatedOne 0 2 [⟨3000, [⟨fun _ => some 0, fun t => some (if t = 1 then 100 else 0), fun _ => some 2⟩,
      ⟨fun _ => some 0, fun t => some (if t = 1 then 100 else 0), fun _ => some 3⟩]⟩] (target 0 1 none) = some (-200 : ℚ) := by decide +kernel

/-- **C86 (limit: a cover is absent)**: a unit that has only one of the two glacier covers has no area and is left out. -/
theorem c86_absent_cover :
    simulatedOne 0 2 [⟨3000, [⟨fun _ => some 0, fun t => some (if t = 1 then 100 else 0), fun _ => some 2⟩,
      ⟨fun _ => none, fun _ => none, fun _ => none⟩]⟩] (target 0 1 none) = (none : Option ℚ) := by decide +kernel

/-- **C86 (limit: gap)**: consecutive years derived from a year column leave out the change of the first day of each: here 30 mm of ice melted on
1 October 2001 are in neither year. -/
theorem c86_gap : (periodFromYear 2001 10).1 - (periodFromYear 2000 10).2 = 86400 ∧
    simulated 0 4 [⟨3000, [⟨fun _ => some 0, fun t => some (if t = 2 then 30 else 0), fun _ => some 1⟩]⟩] [target 0 1 none, target 2 3 none, target 0 3 none] =
      [some (0 : ℚ), some 0, some (-30)] := by
  constructor <;> decide +kernel

/-- **C86 (limit: changing areas)**: when the glaciers change, winter and summer do not add up to the year. -/
theorem c86_changing : simulated 0 3 ([.inr ⟨3000, fun _ => 0, fun _ => 10, fun _ => 1⟩,
    .inr ⟨2500, fun _ => 0, fun _ => 100, fun t => if t = 2 then 0 else 1⟩].map recorded) [target 0 1 none, target 1 2 none, target 0 2 none] =
    [some (-55 : ℚ), some (-40), some (-92)] := by decide +kernel

/-- Period of the hydrological year 2000. -/
theorem year_demo : periodFromYear 2000 10 = (sysDays 2000 10 1 * 86400, sysDays 2001 9 30 * 86400) ∧
    periodFromYear 2000 1 = (sysDays 2000 1 1 * 86400, sysDays 2000 12 31 * 86400) := by
  constructor <;> decide +kernel

end Demo
end HB.MassBalance
