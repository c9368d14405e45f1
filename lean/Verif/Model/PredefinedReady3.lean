import Verif.Model.PredefinedReady2
import Verif.Model.PredefinedHbv2
import Verif.Model.PredefinedGr

/-! # Nothing is missing in the predefined models. -/

set_option linter.unusedSectionVars false
set_option linter.unusedSimpArgs false

namespace HB.Wire

open HB.Names

/-- Names of the processes working on water used by the models. -/
def waterNames : List String := waterKinds.map (·.1)

theorem works_on_water {k : String} (hk : k ∈ waterNames) (ty : String) : Spec.WorksOn k ty .water := by
  obtain ⟨⟨k', pc⟩, hm, rfl⟩ := List.mem_map.1 hk
  have key : ∀ x ∈ waterKinds, x.1 ∈ Spec.processNames x.2 := by decide
  have key2 : ∀ x ∈ waterKinds, ∀ c ∈ [Category.snowpack, .glacier, .other], Spec.storeFor x.2 c = some .water := by decide
  refine ⟨pc, key _ hm, key2 _ hm _ ?_⟩
  unfold Spec.kindOf
  split
  · decide
  · split <;> decide

theorem ownStore_land {t : String} (ht : t ∈ Spec.coverTypes) (hne : t ≠ "glacier") : Spec.ownStore t = .water := by
  have key : ∀ t ∈ Spec.coverTypes, t = "glacier" ∨ Spec.ownStore t = .water := by decide
  exact (key t ht).resolve_left hne

theorem melts_ice {k : String} (h : k ∈ Spec.meltKinds) (hne : k ≠ "melt:cemaneige") : Spec.WorksOn k "glacier" .ice := by
  have key : ∀ k ∈ Spec.meltKinds, k = "melt:cemaneige" ∨ ∃ pc ∈ [ProcClass.meltDegreeDay, .meltDegreeDayAspect, .meltTemperatureIndex],
      k ∈ Spec.processNames pc ∧ Spec.storeFor pc .glacier = some .ice := by decide
  obtain ⟨pc, -, h1, h2⟩ := (key k h).resolve_left hne
  exact ⟨pc, h1, h2⟩

theorem melt_no_water {k : String} (h : k ∈ Spec.meltKinds) (ty : String) : ¬ Spec.WorksOn k ty .water := by
  rintro ⟨pc, h1, h2⟩
  have key : ∀ pc, (∃ k ∈ Spec.meltKinds, k ∈ Spec.processNames pc) → ∀ c, Spec.storeFor pc c ≠ some .water := by
    intro pc
    cases pc <;> intro hk c <;> cases c <;> first | decide | (exfalso; revert hk; decide)
  exact key pc ⟨k, h, h1⟩ _ h2

/-- An entry with nothing missing. -/
structure ItemFine (melt : String) (it : Item) : Prop where
  kinds : ∀ p ∈ it.procs, p.kind ∈ waterNames ∨ (p.kind = melt ∧ it.place = .cover)
  single : ∀ p ∈ it.procs, p.kind ∉ Spec.atmosphereNames → p.kind ≠ "capillary:hbv" → p.targets.length = 1
  stored : it.place ≠ .cover → it.procs ≠ [] ∧ ∀ p ∈ it.procs, p.kind ≠ "outflow:direct"
  basin : it.place = .basin → ∀ p ∈ it.procs, p.kind = "outflow:linear"

theorem gsmStore_fine (melt n : String) : ItemFine melt (gsmStore n) := by
  have hp : ∀ p ∈ (gsmStore n).procs, p = ⟨"outflow", "outflow:linear", ["outlet"], false⟩ := fun p hp => by simpa [gsmStore] using hp
  refine ⟨fun p h => ?_, fun p h _ _ => ?_, fun _ => ⟨List.cons_ne_nil _ _, fun p h => ?_⟩, fun _ p h => ?_⟩ <;> rw [hp p h]
  · exact .inl (by decide)
  · rfl
  · dsimp only; decide

theorem gsmCover_fine {melt : String} (n : String) : ItemFine melt (gsmCover melt n) := by
  have hp : ∀ p ∈ (gsmCover melt n).procs, p = ⟨"outflow_rain_snowmelt", "outflow:direct", [gsmRain], true⟩ ∨ p = ⟨"melt", melt, [gsmIce], true⟩ :=
    fun p hp => by simpa [gsmCover] using hp
  refine ⟨fun p h => ?_, fun p h _ _ => ?_, fun h => absurd rfl h, fun h => by cases h⟩
  · rcases hp p h with rfl | rfl
    · exact .inl (by decide)
    · exact .inr ⟨rfl, rfl⟩
  · rcases hp p h with rfl | rfl <;> rfl

/-- Entries with nothing missing make a whole description. -/
theorem whole_of {v : Variant} {melt : String} (hm : melt ∈ Spec.meltKinds) (hsnow : DocSnow v.base)
    (hsp : v.base.withSnow = true → v.base.splitter ∈ ["snow_rain:threshold", "snow_rain:linear", "snow_rain:cemaneige"])
    (hland : v.base.covers ≠ []) (hfine : ∀ it ∈ v.items, ItemFine melt it)
    (hcap : ∀ it ∈ v.items, ∀ p ∈ it.procs, p.kind = "capillary:hbv" → p.targets ≠ [] ∧
      ∀ t ∈ p.targets, ∃ it' ∈ v.items, it'.place = .cover ∧ ∃ p' ∈ it'.procs, t ∈ p'.targets)
    (hcov : ∀ c ∈ v.base.covers, ∃ it ∈ v.items, it.place = .cover ∧ it.key = c.name ∧ ∃ p ∈ it.procs, Spec.WorksOn p.kind c.type (Spec.ownStore c.type))
    (hal : ∀ it ∈ v.items, it.place = .cover → ∀ (j k : ℕ) (p p' : PItem), it.procs[j]? = some p → it.procs[k]? = some p' →
      p.kind = "outflow:direct" → k ≠ j → p'.kind ∈ Spec.meltKinds) : Whole v where
  snow := hsnow
  splitter := hsp
  land := hland
  kinds it hit p hp := by
    have key : ∀ k ∈ waterNames ++ Spec.meltKinds, k ∉ Spec.lateralNames ∧ k ≠ "refreeze:degree_day" ∧ k ≠ "outflow:snow_holding" := by decide
    refine key p.kind (List.mem_append.2 ?_)
    rcases (hfine it hit).kinds p hp with h | ⟨h, -⟩
    · exact .inl h
    · exact .inr (h ▸ hm)
  single it hit := (hfine it hit).single
  capillary := hcap
  stored it hit hpl := by
    obtain ⟨h1, h2⟩ := (hfine it hit).stored hpl
    refine ⟨?_, h2⟩
    obtain ⟨p, hp⟩ := List.exists_mem_of_ne_nil _ h1
    refine ⟨p, hp, works_on_water ?_ _⟩
    exact ((hfine it hit).kinds p hp).resolve_right fun h => hpl h.2
  covered := hcov
  alone c _ it hit hpl _ j k p p' hj hk hd hne := melt_no_water (hal it hit hpl j k p p' hj hk hd hne) _
  basin it hit hpl p hp w hd := by
    rw [(hfine it hit).basin hpl p hp] at hd
    rcases hd with ⟨-, h⟩ | ⟨-, h⟩ | ⟨-, h⟩ <;> revert h <;> decide

theorem fits_of {v : Variant} {melt : String} {o : Spec.Choices} (hfine : ∀ it ∈ v.items, ItemFine melt it)
    (hsnow : v.base.withSnow = true → o.snow = true ∧ v.base.melt = o.melt ∧ v.base.splitter = o.splitter)
    (hmelt : (∃ it ∈ v.items, ∃ p ∈ it.procs, p.kind = melt) → o.snow = true ∧ melt = o.melt)
    (hslope : (∃ it ∈ v.items, ∃ p ∈ it.procs, p.kind = "runoff:socont") → o.slope)
    (hlat : v.base.withSnow = true → v.base.redistribution ≠ none → o.slope) : Fits o v where
  snow := hsnow
  heat it hit p hp ht := by
    rcases (hfine it hit).kinds p hp with h | ⟨h, -⟩
    · have key : ∀ k ∈ waterNames, k ∉ Spec.temperatureDriven := by decide
      exact absurd ht (key _ h)
    · rw [h]
      exact hmelt ⟨it, hit, p, hp, h⟩
  slope it hit p hp h := hslope ⟨it, hit, p, hp, h⟩
  lateral := hlat

/-- The glacier covers: alone on the water. -/
theorem gsm_alone {melt n : String} (hm : melt ∈ Spec.meltKinds) {j k : ℕ} {p p' : PItem} (hj : (gsmCover melt n).procs[j]? = some p)
    (hk : (gsmCover melt n).procs[k]? = some p') (hd : p.kind = "outflow:direct") (hne : k ≠ j) : p'.kind ∈ Spec.meltKinds := by
  match j, k, hj, hk with
  | 0, 0, _, _ => exact absurd rfl hne
  | 0, 1, _, hk => cases hk; exact hm
  | 1, _, hj, _ =>
    cases hj
    change melt = _ at hd
    rw [hd] at hm
    exact absurd hm (by decide)
  | 0, k + 2, _, hk => simp [gsmCover] at hk
  | j + 2, _, hj, _ => simp [gsmCover] at hj

/-- Documented options, with the companion. -/
theorem docSnow_of {o : SnowOpts} (ho : Spec.GoodSnow o) (hr : o.refreezing ≠ none → o.melt = "melt:degree_day") (cs : List PyCover) :
    DocSnow (snowArgs o cs) :=
  ⟨ho.melt, ho.retention, ho.refreezing, hr, ho.snowIce, ho.redistribution, ho.sublimation⟩

theorem defaultSplitter_known (melt : String) : defaultSplitter melt ∈ ["snow_rain:threshold", "snow_rain:linear", "snow_rain:cemaneige"] := by
  unfold defaultSplitter
  split <;> decide

end HB.Wire
