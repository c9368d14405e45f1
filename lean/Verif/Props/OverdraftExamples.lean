import Verif.Props.PredefinedExamples

/-!
# C71: HBV-96 with its own snow routine takes more out of a snowpack than it holds

The degree-day equations are those of the code (C25, C66), over the rationals.  One unit of open land of area 1, all of it snow-covered.
-/

namespace HB

set_option linter.unusedSectionVars false

open HB.Names HB.Wire HB.Asm

namespace OverdraftDemo

open PreDemo

/-- HBV-96 with its default options on open land, one unit of area 1. -/
def inp : Input ℚ := inputOf (hbv96 {} plainLand) [(0, 1)]

theorem from_hbv : Spec.FromModel (hbv96 {} plainLand) inp := from_of (by decide) (by decide +kernel) (by decide +kernel)

theorem builds : build inp = .ok (modelOf inp) :=
  modelOf_eq ((c64_hbv_builds plain_good hbv_snow ⟨⟨"open", "open"⟩, by decide, by decide, by decide⟩ (fun _ => by decide)).2 _ from_hbv
    (fun h => absurd rfl h))

/-- The declared process behind a process number. -/
def typeOf (pid : ℕ) : String :=
  ((allBricks inp).flatMap fun cb => cb.2.procs.zipIdx.filterMap fun pj =>
    if pid = Nat.pair (compCode cb.1) pj.2 then some pj.1.type else none).headD ""

/-- Snow and liquid water of the snowpack, water of the ground. -/
def snow : ℕ := contId (.unitBrick 0 1) .snow
def water : ℕ := contId (.unitBrick 0 1) .water
def ground : ℕ := contId (.unitBrick 0 0) .water

/-- Content with the changes under way. -/
def level (ph : Phys ℚ) (c : ℕ) : ℚ := (ph.cont c).content + (ph.cont c).dyn + (ph.cont c).stat

/-- The equations: degree-day factor 3 (ProcessMeltDegreeDay.cpp:50-61), refreezing factor 1/20 (ProcessRefreezeDegreeDay.cpp:66-83),
holding capacity of a tenth of the snow (ProcessOutflowSnowHolding.cpp), melting temperature 0; the soil is full, so that nothing
infiltrates and the ground passes everything on (ProcessOutflowRest.cpp); the other stores keep their water.  `T`, `rain` and `snowfall`
give the weather of day `h`; the splitter separating rain and snow hands them out, the others pass them on. -/
def laws (T rain snowfall : ℕ → ℚ) : Laws ℚ ℕ where
  rates pid h ph :=
    let r : ℚ :=
      if typeOf pid = "melt:degree_day" then (if 0 < level ph snow then (if 0 ≤ T h then (T h - 0) * 3 else 0) else 0)
      else if typeOf pid = "refreeze:degree_day" then
        (if 1 / 100000000 < level ph water then (if 0 ≤ T h then 0 else 1 / 20 * 3 * (0 - T h)) else 0)
      else if typeOf pid = "outflow:snow_holding" then max 0 (level ph water - 1 / 10 * level ph snow)
      else if typeOf pid = "outflow:rest" then level ph ground
      else 0
    (fun _ => r, 0, h)
  fin _ h _ := h
  split _ h _ := (fun f => match (modelOf inp).net.outs[f]? with
    | some x => if x.content = .snow then snowfall h else rain h
    | none => 0, h)

/-- The stores hold nothing but the given snow and water. -/
def start (s w : ℚ) : Sys ℚ ℕ :=
  ⟨{ cont := fun c => ⟨if c = snow then s else if c = water then w else 0, 0, 0, 0, none, false, false⟩
     amt := fun _ => 0, snap := fun _ => 0, exch := fun _ => 0 }, fun _ => none, 0⟩

/-- Days run, stored volume at the end, volume that came in, discharged volume, lost volume, number of reports of a negative content. -/
def outcome (T rain snowfall : ℕ → ℚ) (s w : ℚ) (n : ℕ) : Option (ℕ × ℚ × ℚ × ℚ × ℚ × ℕ) :=
  let m := modelOf inp
  let ext := share inp
  let sys := Spec.system inp ext (start s w).ph
  match runSteps (asm inp m ext) (laws T rain snowfall) .euler 1 (· + 1) n (start s w) with
  | .ok (recs, s') => some (recs.length, Spec.volume inp ext sys s'.ph, (recs.map (Spec.inflow inp ext m sys)).sum,
      (recs.map (outletDischarge (asm inp m ext))).sum, (recs.map (Spec.losses inp ext m sys)).sum, s'.ph.logs)
  | .error _ => none

end OverdraftDemo

open OverdraftDemo PreDemo

/-- **C71 (finding).** HBV-96 with default options: 1 mm of snow holding 1/2 mm of water, no precipitation, a day at -2 degrees and a day
at 10 degrees.  On the second day the snowpack gives away all its snow and once more what had refrozen the day before: a negative
content is reported, and 1/10 mm of water has appeared from nowhere. -/
theorem c71_refrozen_water_counted_again :
    build inp = .ok (modelOf inp) ∧ Spec.FromModel (hbv96 {} plainLand) inp ∧
    outcome (fun t => if t = 0 then -2 else 10) (fun _ => 0) (fun _ => 0) 1 (1 / 2) 2 = some (2, 1 + 1 / 2 + 1 / 10, 0, 0, 0, 1) :=
  ⟨builds, from_hbv, by decide +kernel⟩

/-- **C71 (finding).** HBV-96 with default options: 10 mm of snow without liquid water, -1/2 degrees, 1/25 mm of rain and 3/25 mm of snow.
The rain is counted twice by the limit on refreezing: 3/40 mm freeze although there is only 1/25 mm of water; a negative content is
reported and 7/200 mm of water have appeared from nowhere. -/
theorem c71_rain_counted_twice :
    outcome (fun _ => -1 / 2) (fun _ => 1 / 25) (fun _ => 3 / 25) 10 0 1 =
      some (1, 10 + 1 / 25 + 3 / 25 + 7 / 200, 1 / 25 + 3 / 25, 0, 0, 1) := by decide +kernel

end HB
