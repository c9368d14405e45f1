import Verif.Props.Scheme
import Verif.Props.PredefinedExamples

/-! # C68: the theorems applied to concrete models -/

set_option linter.unusedSectionVars false

namespace HB.PreDemo

open HB.Names HB.Wire

/-- The unit with a glacier of the Socont model: its ice melts into the storage of the sub-basin, the melt does not go to the outlet. -/
example : ∃ un, socontIn.units[1]? = some un ∧
    Spec.Arrow socontIn (modelOf socontIn) 1 un "glacier" "melt:degree_day" (.shared "glacier_area_icemelt_storage" .water) ∧
    Spec.Arrow socontIn (modelOf socontIn) 1 un "open" "outflow:rest" (.own "surface_runoff" .water) ∧
    ¬ Spec.Arrow socontIn (modelOf socontIn) 1 un "open" "outflow:rest" (.own "slow_reservoir" .water) ∧
    Spec.Falls (modelOf socontIn) 1 un .snow "glacier_snowpack" := by
  have hu : socontIn.units[1]? = some (socontIn.units[1]'(by decide)) := rfl
  generalize socontIn.units[1]'(by decide) = un at hu
  refine ⟨un, hu, ?_⟩
  obtain ⟨present, hp, hf⟩ := c68_socont_flows alpine_good default_snow ⟨⟨"open", "open"⟩, by decide, by decide⟩ (fun _ => by decide) socont_from
    (fun h => absurd rfl h) socont_builds hu
  have hpr : present = alpine := by
    rcases hp with hp | hp
    · exact hp
    · exfalso
      have hc := hf.covers
      unfold Spec.CoversOf at hc
      have hl := congrArg List.length hc
      rw [List.length_map, List.length_map, hp] at hl
      have hn : un.str.covers.length = 2 := by
        have h2 : (socontIn.units[1]?.map fun un => un.str.covers.length) = some 2 := by decide +kernel
        rw [hu] at h2
        simpa using h2
      rw [hn] at hl
      exact absurd hl (by decide)
  subst hpr
  refine ⟨(hf.arrows _ _ _ (by decide)).2 ?_, (hf.arrows _ _ _ (by decide)).2 ?_, fun h => ?_, (hf.falls _ _).2 ?_⟩
  · exact .glacier (c := ⟨"glacier", "glacier"⟩) (by decide) rfl .melt
  · exact .excess ⟨[], ⟨"open", "open"⟩, [⟨"glacier", "glacier"⟩], rfl, by decide, rfl, by simp⟩
  · have := (hf.arrows _ _ _ (by decide)).1 h
    generalize hx : "open" = x at this
    generalize hk : "outflow:rest" = k at this
    generalize he : Spec.End.own "slow_reservoir" Content.water = e at this
    cases this with
    | snow _ h =>
      cases h with
      | melt => exact absurd hk (by decide)
      | retained h => cases h
      | released h => cases h
      | refrozen h => cases h
      | ice _ h => cases h
      | sublimated h => cases h
    | canopy _ h => cases h <;> exact absurd hk (by decide)
    | glacier _ _ h => cases h <;> exact absurd hk (by decide)
    | excess => exact absurd he (by decide)
    | _ => exact absurd hk (by decide)
  · exact .snow (c := ⟨"glacier", "glacier"⟩) (by decide)

/-- The storages of its sub-basin drain to the outlet. -/
example : Spec.BasinArrow socontIn (modelOf socontIn) "glacier_area_icemelt_storage" "outflow:linear" .outlet :=
  (c68_socont_basin alpine_good default_snow ⟨⟨"open", "open"⟩, by decide, by decide⟩ (fun _ => by decide) socont_from (fun h => absurd rfl h)
    socont_builds _ _ _).2 (.ice (c := ⟨"glacier", "glacier"⟩) (by decide) rfl)

/-- The hypotheses hold for the HBV-96 model with forest, lake and glacier, and for the GR4J model with snow. -/
example {u : ℕ} {un : UnitIn ℚ} (hu : hbvIn.units[u]? = some un) :=
  c68_hbv_flows mixed_good hbv_snow ⟨⟨"open", "open"⟩, by decide, by decide⟩ (fun _ => by decide) hbv_from (fun h => absurd rfl h) hbv_builds hu

example : ∃ un, grIn.units[0]? = some un ∧ Spec.Arrow grIn (modelOf grIn) 0 un "open" "interception:gr4j" .air ∧
    Spec.Arrow grIn (modelOf grIn) 0 un "open_snowpack" "melt:cemaneige" (.own "open" .water) := by
  have hu : grIn.units[0]? = some (grIn.units[0]'(by decide)) := rfl
  generalize grIn.units[0]'(by decide) = un at hu
  have hf := (c68_gr_flows plain_good snowy_good gr_from (fun h => absurd rfl h) gr_builds hu).1 _ rfl
  refine ⟨un, hu, (hf.arrows _ _ _ (by decide)).2 (.interception rfl), (hf.arrows _ _ _ (by decide)).2 ?_⟩
  exact .snow (c := ⟨"open", "open"⟩) rfl (by decide) (.melt rfl)

end HB.PreDemo
