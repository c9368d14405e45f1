import Verif.Props.BaseStructure
import Verif.Props.Wiring3

/-!
# C58: the generated structure builds, and rain and snow reach every cover once
-/

set_option linter.unusedSectionVars false
set_option linter.unusedSimpArgs false

namespace HB.Wire

open HB.Names

local macro "lit" : tactic => `(tactic| simp [Spec.pr, Spec.canopyBrick, Spec.snowBrick, Spec.snowSplitter, Spec.rainSplitter,
  Spec.processNames, Spec.infiltrationNames, Spec.brickNames, Spec.splitterNames, Spec.storeFor])

theorem last_append {t k s : String} (hk : k.toList ≠ []) (h : t ++ k = s) : k.toList.getLast? = s.toList.getLast? := by
  rw [← h, String.toList_append, List.getLast?_append]
  cases hl : k.toList.getLast? with
  | none => exact absurd (List.getLast?_eq_none_iff.mp hl) hk
  | some x => rfl

theorem suffix_ne_keyword {t k : String} (hk : k = "_snowpack" ∨ k = "_canopy") : t ++ k ∉ Spec.keywords := by
  intro hm
  have key : ∀ s ∈ Spec.keywords, ∀ k ∈ ["_snowpack", "_canopy"], k.toList.getLast? ≠ s.toList.getLast? := by decide
  exact key _ hm k (by rcases hk with rfl | rfl <;> simp) (last_append (by rcases hk with rfl | rfl <;> decide) rfl)

section
variable {g : BaseArgs} (hg : Spec.GoodNames g) (hb : Spec.Buildable g)
include hg hb

/-- The bricks of the base structure. -/
theorem base_brick {b : Brick} : b ∈ (Spec.base g).unitBricks ↔ (∃ c ∈ g.covers, b = Spec.coverBrick c) ∨
    (∃ c ∈ g.covers, c.canopy = true ∧ b = Spec.canopyBrick g c) ∨ (g.withSnow = true ∧ ∃ c ∈ g.covers, b = Spec.snowBrick g c) := by
  unfold Spec.base
  simp only [List.mem_append, List.mem_map, Spec.canopies, List.mem_filter]
  constructor
  · rintro ((⟨c, hc, rfl⟩ | ⟨c, hc, rfl⟩) | h)
    · exact .inl ⟨c, hc, rfl⟩
    · exact .inr (.inl ⟨c, hc.1, hc.2, rfl⟩)
    · split at h
      · obtain ⟨c, hc, rfl⟩ := List.mem_map.mp h
        exact .inr (.inr ⟨by assumption, c, hc, rfl⟩)
      · cases h
  · rintro (⟨c, hc, rfl⟩ | ⟨c, hc, h, rfl⟩ | ⟨hw, c, hc, rfl⟩)
    · exact .inl (.inl ⟨c, hc, rfl⟩)
    · exact .inl (.inr ⟨c, ⟨hc, h⟩, rfl⟩)
    · rw [if_pos hw]; exact .inr (List.mem_map.mpr ⟨c, hc, rfl⟩)

theorem cover_mem {c : Cover} (hc : c ∈ g.covers) : Spec.coverBrick c ∈ (Spec.base g).unitBricks :=
  (base_brick hg hb).2 (.inl ⟨c, hc, rfl⟩)

theorem snow_mem (hw : g.withSnow = true) {c : Cover} (hc : c ∈ g.covers) : Spec.snowBrick g c ∈ (Spec.base g).unitBricks :=
  (base_brick hg hb).2 (.inr (.inr ⟨hw, c, hc, rfl⟩))

theorem canopy_mem {c : Cover} (hc : c ∈ g.covers) (h : c.canopy = true) : Spec.canopyBrick g c ∈ (Spec.base g).unitBricks :=
  (base_brick hg hb).2 (.inr (.inl ⟨c, hc, h, rfl⟩))

/-- No brick of the base structure is called like a keyword. -/
theorem base_names {b : Brick} (h : b ∈ (Spec.base g).unitBricks) : b.name ∉ Spec.keywords := by
  rcases (base_brick hg hb).1 h with ⟨c, hc, rfl⟩ | ⟨c, hc, _, rfl⟩ | ⟨_, c, hc, rfl⟩
  · exact hb.names c hc
  · exact suffix_ne_keyword (.inr rfl)
  · exact suffix_ne_keyword (.inl rfl)

theorem base_distinct : Spec.DistinctUnit (Spec.base g) := by
  have hk : (Spec.canopies g).length + (if g.withSnow = true then g.covers.length else 0) + g.covers.length =
      (Spec.base g).unitBricks.length := by
    unfold Spec.base
    cases g.withSnow <;> simp <;> omega
  refine ⟨⟨?_, ?_⟩, hg.distinct, ?_⟩
  · unfold Spec.base
    refine List.nodup_append.mpr ⟨List.nodup_range', List.nodup_range, ?_⟩
    intro x hx y hy
    have h1 := (List.mem_range'_1.mp hx).1
    have h2 := List.mem_range.mp hy
    omega
  · intro i hi
    rw [← hk]
    unfold Spec.base at hi
    rcases List.mem_append.mp hi with hi | hi
    · have := (List.mem_range'_1.mp hi).2
      omega
    · have := List.mem_range.mp hi
      omega
  · unfold Spec.base
    cases g.withSnow <;> simp [Spec.snowSplitter, Spec.rainSplitter]

/-- The processes of a snowpack of the base structure: each is a process that works on its own; what it feeds. -/
theorem snow_proc {c : Cover} (hc : c ∈ g.covers) {p : Proc} (hp : p ∈ Spec.snowProcs g c) :
    Spec.SelfContained p.type ∧ ∀ o ∈ p.outs,
      (o.target = c.name ∧ (o.content = .water ∨ o.content = .ice ∧ c.type = "glacier")) ∨
      (o.target = c.name ++ "_snowpack" ∧ (o.content = .water ∨ o.content = .snow)) ∨
      (o.target = "lateral" ∧ o.content = .snow ∧ p.type ∈ Spec.lateralNames ∧ g.redistribution ≠ none) := by
  have hlat : ∀ t ∈ Spec.lateralNames, Spec.SelfContained t := by
    intro t ht
    have key : ∀ t ∈ Spec.lateralNames, t ∉ Spec.infiltrationNames ∧ t ≠ "capillary:hbv" ∧
        (t ∈ Spec.processNames .snowSlide ∨ t ∈ Spec.processNames .snowFrey ∨ t ∈ Spec.processNames .snowFreyDynamic) := by decide
    obtain ⟨h1, h2, h3⟩ := key t ht
    exact ⟨by rcases h3 with h | h | h <;> exact ⟨_, h⟩, h1, h2⟩
  unfold Spec.snowProcs at hp
  rcases List.mem_append.mp hp with hp | hp
  · rcases List.mem_append.mp hp with hp | hp
    · rcases List.mem_append.mp hp with hp | hp
      · split at hp
        · rw [List.mem_singleton] at hp
          subst hp
          exact ⟨hb.melt, by simp [Spec.pr]⟩
        · rename_i r hr
          rcases List.mem_append.mp hp with hp | hp
          · rcases List.mem_cons.mp hp with rfl | hp
            · exact ⟨hb.melt, by simp [Spec.pr]⟩
            · rw [List.mem_singleton] at hp
              subst hp
              exact ⟨hb.outflow r hr, by simp [Spec.pr]⟩
          · cases hq : g.refreezing with
            | none => rw [hq] at hp; cases hp
            | some q =>
              rw [hq] at hp
              simp only [Spec.opt, Option.map_some, Option.toList_some, List.mem_singleton] at hp
              subst hp
              exact ⟨hb.refreezing q hq, by simp [Spec.pr]⟩
      · split at hp
        · rename_i ht
          cases hq : g.snowIce with
          | none => rw [hq] at hp; cases hp
          | some q =>
            rw [hq] at hp
            simp only [Spec.opt, Option.map_some, Option.toList_some, List.mem_singleton] at hp
            subst hp
            exact ⟨hb.snowIce q hq, by simp [Spec.pr, ht]⟩
        · cases hp
    · cases hq : g.redistribution with
      | none => rw [hq] at hp; cases hp
      | some q =>
        rw [hq] at hp
        simp only [Spec.opt, Option.map_some, Option.toList_some, List.mem_singleton] at hp
        subst hp
        exact ⟨hlat q (hb.redistribution q hq), by simp [Spec.pr, hb.redistribution q hq]⟩
  · cases hq : g.sublimation with
    | none => rw [hq] at hp; cases hp
    | some q =>
      rw [hq] at hp
      simp only [Spec.opt, Option.map_some, Option.toList_some, List.mem_singleton] at hp
      subst hp
      exact ⟨hb.sublimation q hq, by simp [Spec.pr]⟩

/-- The processes of any brick of the base structure work on their own. -/
theorem base_self {b : Brick} (h : b ∈ (Spec.base g).unitBricks) {p : Proc} (hp : p ∈ b.procs) : Spec.SelfContained p.type := by
  rcases (base_brick hg hb).1 h with ⟨c, hc, rfl⟩ | ⟨c, hc, _, rfl⟩ | ⟨_, c, hc, rfl⟩
  · cases hp
  · rcases List.mem_cons.mp hp with rfl | hp
    · exact ⟨⟨.outflowThreshold, by lit⟩, by lit, by lit⟩
    · rw [List.mem_singleton] at hp
      subst hp
      exact ⟨⟨.etOpenWater, by decide⟩, by decide, by decide⟩
  · exact (snow_proc hg hb hc hp).1

theorem base_brickOK {b : Brick} (h : b ∈ (Spec.base g).unitBricks) : Spec.BrickOK b := by
  have hst : ∀ pc, ∃ st, Spec.storeFor pc .snowpack = some st := fun pc => by cases pc <;> exact ⟨_, rfl⟩
  rcases (base_brick hg hb).1 h with ⟨c, hc, rfl⟩ | ⟨c, hc, _, rfl⟩ | ⟨_, c, hc, rfl⟩
  · refine ⟨?_, fun p hp => by cases hp⟩
    have key : ∀ t ∈ Spec.coverTypes, t ∈ Spec.brickNames .genericLandCover ∨ t ∈ Spec.brickNames .glacier := by decide
    rcases key _ (hb.types c hc) with h | h <;> exact ⟨_, h⟩
  · refine ⟨⟨.interceptionStorage, by lit⟩, fun p hp => ?_⟩
    rcases List.mem_cons.mp hp with rfl | hp
    · exact ⟨.outflowThreshold, .water, by lit, by lit⟩
    · rw [List.mem_singleton] at hp
      subst hp
      exact ⟨.etOpenWater, .water, by lit, by lit⟩
  · refine ⟨⟨.snowpack, by lit⟩, fun p hp => ?_⟩
    obtain ⟨⟨⟨pc, hpc⟩, -⟩, -⟩ := snow_proc hg hb hc hp
    obtain ⟨st, hs⟩ := hst pc
    exact ⟨pc, st, hpc, hs⟩

variable {K : Type} [Field K] {inp : Input K} {u : ℕ} {un : UnitIn K} (hun : un.str = Spec.base g)
include hun

/-- An output towards a brick of the base structure that takes the content. -/
theorem base_named {b : Brick} (h : b ∈ (Spec.base g).unitBricks) {o : Out} (ho : o.target = b.name) (ht : Spec.Takes b.type o.content) :
    Spec.NamedOK inp u un o := by
  obtain ⟨i, hi⟩ := List.mem_iff_getElem?.mp h
  exact .inl ⟨.unitBrick u i, b, .own (by rw [hun]; exact hi) ho.symm, ht⟩

theorem base_unitWF (hbas : inp.basin.basinBricks = [])
    (hlat : g.redistribution ≠ none → ∀ cn ∈ un.lateral, cn.1 < inp.units.length) : Spec.UnitWF inp u un := by
  have hnl : ∀ b ∈ (Spec.base g).unitBricks, b.name ≠ "lateral" ∧ b.name ≠ "outlet" := by
    intro b h
    have := base_names hg hb h
    exact ⟨fun he => this (by rw [he]; decide), fun he => this (by rw [he]; decide)⟩
  have hviaSnow : Spec.viaSnowpack g = true → g.withSnow = true := by
    intro h; simp [Spec.viaSnowpack] at h; exact h.1
  have hbelow : ∀ c ∈ g.covers, ∃ b ∈ (Spec.base g).unitBricks, b.name = Spec.belowCanopy g c := by
    intro c hc
    unfold Spec.belowCanopy
    split
    · rename_i h; exact ⟨_, snow_mem hg hb (hviaSnow h) hc, rfl⟩
    · exact ⟨_, cover_mem hg hb hc, rfl⟩
  have hentry : ∀ c ∈ g.covers, ∃ b ∈ (Spec.base g).unitBricks, b.name = Spec.rainEntry g c := by
    intro c hc
    unfold Spec.rainEntry
    split
    · rename_i h; exact ⟨_, canopy_mem hg hb hc h, rfl⟩
    · exact hbelow c hc
  have hfind : ∀ t ∈ ["rain_splitter", "snow_splitter"], ∀ c b, ¬ Spec.BrickNamed inp u un t c b := by
    intro t ht c b hn
    cases hn with
    | own h1 h2 =>
      rw [hun] at h1
      exact base_names hg hb (List.mem_of_getElem? h1) (by rw [h2]; rcases List.mem_cons.mp ht with rfl | ht <;> [decide; (rw [List.mem_singleton] at ht; subst ht; decide)])
    | basin h0 h1 h2 => rw [hbas] at h1; simp at h1
  have hsplit : ∀ t, (∃ s ∈ (Spec.base g).unitSplits, s.name = t) → ∃ c, Spec.SplitNamed inp u un t c := by
    rintro t ⟨s, hs, rfl⟩
    obtain ⟨i, hi⟩ := List.mem_iff_getElem?.mp hs
    exact ⟨_, .own (by rw [hun]; exact hi) rfl⟩
  refine ⟨?_, ?_, ?_, ?_, ?_, ?_, ?_⟩
  · rw [hun]; exact fun b h => base_brickOK hg hb h
  · rw [hun]
    intro s hs
    unfold Spec.base at hs
    cases hw : g.withSnow with
    | true =>
      simp only [hw, if_true, List.mem_cons, List.not_mem_nil, or_false] at hs
      rcases hs with rfl | rfl | rfl
      · exact hb.splitter hw
      · exact ⟨.multiFluxes, by lit⟩
      · exact ⟨.multiFluxes, by lit⟩
    | false =>
      simp only [hw, Bool.false_eq_true, if_false, List.mem_cons, List.not_mem_nil, or_false] at hs
      rcases hs with rfl | rfl
      · exact ⟨.rain, by decide⟩
      · exact ⟨.multiFluxes, by lit⟩
  · rw [hun]
    intro i hi b hib
    rcases (base_brick hg hb).1 (List.mem_of_getElem? hib) with ⟨c, hc, rfl⟩ | ⟨c, hc, _, rfl⟩ | ⟨_, c, hc, rfl⟩
    · exact .inl rfl
    · exact .inr ⟨_, cover_mem hg hb hc, rfl⟩
    · exact .inr ⟨_, cover_mem hg hb hc, rfl⟩
  · rw [hun]
    intro b h p hp _ o ho
    rcases (base_brick hg hb).1 h with ⟨c, hc, rfl⟩ | ⟨c, hc, hcc, rfl⟩ | ⟨hw, c, hc, rfl⟩
    · cases hp
    · rcases List.mem_cons.mp hp with rfl | hp
      · simp only [Spec.pr, List.mem_singleton] at ho
        subst ho
        obtain ⟨b', h1, h2⟩ := hbelow c hc
        exact .inr (.inr ⟨h2 ▸ (hnl b' h1).1, base_named hg hb hun h1 h2.symm (.inl rfl)⟩)
      · rw [List.mem_singleton] at hp
        subst hp
        cases ho
    · rcases (snow_proc hg hb hc hp).2 o ho with ⟨h1, h2⟩ | ⟨h1, h2⟩ | ⟨h1, h2, h3, h4⟩
      · refine .inr (.inr ⟨h1 ▸ (hnl _ (cover_mem hg hb hc)).1, base_named hg hb hun (cover_mem hg hb hc) h1 ?_⟩)
        rcases h2 with h2 | ⟨h2, h3⟩
        · exact .inl h2
        · exact .inr (.inr ⟨h2, h3⟩)
      · refine .inr (.inr ⟨h1 ▸ (hnl _ (snow_mem hg hb hw hc)).1, base_named hg hb hun (snow_mem hg hb hw hc) h1 ?_⟩)
        rcases h2 with h2 | h2
        · exact .inl h2
        · exact .inr (.inl ⟨h2, rfl⟩)
      · refine .inr (.inl ⟨h1, fun cn hcn => ?_⟩)
        have := hlat h4 cn hcn
        exact ⟨_, List.getElem?_eq_getElem this, h2, fun _ => h3⟩
  · rw [hun]
    intro s hs o ho
    have hrs : ∃ s ∈ (Spec.base g).unitSplits, s.name = "rain_splitter" := by
      refine ⟨Spec.rainSplitter g, ?_, rfl⟩
      unfold Spec.base
      cases g.withSnow <;> simp
    have hrain : o ∈ (Spec.rainSplitter g).outs → Spec.NamedOK inp u un o := by
      intro ho
      obtain ⟨c, hc, rfl⟩ := List.mem_map.mp ho
      obtain ⟨b', h1, h2⟩ := hentry c hc
      exact base_named hg hb hun h1 h2.symm (.inl rfl)
    unfold Spec.base at hs
    cases hw : g.withSnow with
    | true =>
      have hss : ∃ s ∈ (Spec.base g).unitSplits, s.name = "snow_splitter" := by
        refine ⟨Spec.snowSplitter g, ?_, rfl⟩
        unfold Spec.base
        simp [hw]
      simp only [hw, if_true, List.mem_cons, List.not_mem_nil, or_false] at hs
      rcases hs with rfl | rfl | rfl
      · simp only [List.mem_cons, List.not_mem_nil, or_false] at ho
        rcases ho with rfl | rfl
        · exact .inr (.inr ⟨hfind _ (by simp), hsplit _ hrs⟩)
        · exact .inr (.inr ⟨hfind _ (by simp), hsplit _ hss⟩)
      · obtain ⟨c, hc, rfl⟩ := List.mem_map.mp ho
        exact .inr (base_named hg hb hun (snow_mem hg hb hw hc) rfl (.inr (.inl ⟨rfl, rfl⟩)))
      · exact .inr (hrain ho)
    | false =>
      simp only [hw, Bool.false_eq_true, if_false, List.mem_cons, List.not_mem_nil, or_false] at hs
      rcases hs with rfl | rfl
      · simp only [List.mem_singleton] at ho
        subst ho
        exact .inr (.inr ⟨hfind _ (by simp), hsplit _ hrs⟩)
      · exact .inr (hrain ho)
  · rw [hun]
    intro b h p hp hi
    exact absurd hi (base_self hg hb h hp).2.1
  · rw [hun]
    intro b h p hp hi
    exact absurd hi (base_self hg hb h hp).2.2

end

/-- The unit's structure was generated, from usable names and existing components; lateral connections lead to units. -/
def FromBase {K : Type} (inp : Input K) (un : UnitIn K) (g : BaseArgs) : Prop :=
  Spec.GoodNames g ∧ Spec.Buildable g ∧ (∃ a, generateBase g = .ok a ∧ un.str = a.str) ∧
    (g.redistribution ≠ none → ∀ cn ∈ un.lateral, cn.1 < inp.units.length)

theorem fromBase_str {K : Type} {inp : Input K} {un : UnitIn K} {g : BaseArgs} (h : FromBase inp un g) : un.str = Spec.base g := by
  obtain ⟨hg, hb, ⟨a, h1, h2⟩, -⟩ := h
  have hl : ∀ p ∈ g.redistribution, Spec.IsProcess p := by
    intro p hp
    have := hb.redistribution p hp
    simp only [Spec.lateralNames, List.mem_cons, List.not_mem_nil, or_false] at this
    rcases this with rfl | rfl | rfl
    · exact ⟨.snowSlide, by decide⟩
    · exact ⟨.snowFrey, by decide⟩
    · exact ⟨.snowFreyDynamic, by decide⟩
  obtain ⟨b, h3, h4⟩ := c58_generated hg ⟨hb.retention, fun _ _ => hb.melt.1, fun _ _ p h => (hb.outflow p h).1,
    fun _ _ p h => (hb.refreezing p h).1, fun _ _ p h => (hb.snowIce p h).1, fun _ _ => hl, fun _ _ p h => (hb.sublimation p h).1⟩
  rw [h1] at h3
  cases h3
  rw [h2, h4]

section
variable {K : Type} [Field K] {inp : Input K} (hbb : inp.basin.basinBricks = []) (hbs : inp.basin.basinSplits = [])
  (hun : ∀ un ∈ inp.units, ∃ g, FromBase inp un g)
include hbb hbs hun

theorem fromBase_distinct : Spec.Distinct inp := by
  refine ⟨?_, by rw [hbb]; simp, by rw [hbs]; simp⟩
  intro un h
  obtain ⟨g, hg⟩ := hun un h
  rw [fromBase_str hg]
  exact base_distinct hg.1 hg.2.1

/-- **C58 (it builds).**  Every model whose units have generated structures, whatever the covers and options of each, is built
without a dangling reference. -/
theorem c58_builds : ∃ m, build inp = .ok m := by
  refine (c57_builds_iff (fromBase_distinct hbb hbs hun)).2 ⟨?_, ?_, ?_, ?_, ?_, ?_, ?_⟩
  · intro u un h
    obtain ⟨g, hg⟩ := hun un (List.mem_of_getElem? h)
    exact base_unitWF hg.1 hg.2.1 (fromBase_str hg) hbb hg.2.2.2
  · rw [hbb]; simp
  · rw [hbs]; simp
  · rw [hbb]; simp
  · rw [hbs]; simp
  · rw [hbb]; simp
  · rw [hbb]; simp

/-- The component of unit `u` a name denotes is the brick of that name. -/
theorem denotes_base {u : ℕ} {un : UnitIn K} {g : BaseArgs} (hg : FromBase inp un g) {t : String} {d : Dest}
    (h : Spec.Denotes inp u un t d) {b : Brick} (hb : b ∈ un.str.unitBricks) (ht : b.name = t) :
    ∃ i, un.str.unitBricks[i]? = some b ∧ d = .comp (.unitBrick u i) := by
  have hs := fromBase_str hg
  have hnd : (un.str.unitBricks.map (·.name)).Nodup := by rw [hs]; exact hg.1.distinct
  have hk : t ∉ Spec.keywords := by rw [← ht]; rw [hs] at hb; exact base_names hg.1 hg.2.1 hb
  obtain ⟨i, hi⟩ := List.mem_iff_getElem?.mp hb
  cases h with
  | outlet h => exact absurd (by rw [h]; decide) hk
  | brick _ hn =>
    cases hn with
    | @own j b' h1 h2 =>
      refine ⟨j, ?_, rfl⟩
      rw [h1]
      obtain ⟨hj, ej⟩ := List.getElem?_eq_some_iff.mp h1
      obtain ⟨hi', ei⟩ := List.getElem?_eq_some_iff.mp hi
      have : j = i := by
        refine (List.Nodup.getElem_inj_iff hnd (hi := by simpa using hj) (hj := by simpa using hi')).mp ?_
        simp only [List.getElem_map, ej, ei, h2, ht]
      subst this
      rw [← ej, ei]
    | basin h0 => exact absurd ht (h0 b hb)
  | split _ hn _ => exact absurd (.own hi ht) (hn (.unitBrick u i) b)

/-- **C58 (rain).**  In the built model the rain splitter of a unit has exactly one output per land cover, in order; it carries
the whole rain depth (no area weighting) as water to where the rain of that cover enters: its canopy, else its snowpack if the
rain goes there, else the cover itself. -/
theorem c58_rain {m : Wire.Model K} (h : build inp = .ok m) {u : ℕ} {un : UnitIn K} (hu : inp.units[u]? = some un)
    {g : BaseArgs} (hg : FromBase inp un g) {k : ℕ} {s : Split} (hk : un.str.unitSplits[k]? = some s) (hs : s.name = "rain_splitter") :
    List.Forall₂ (fun (f : Flux K) (c : Cover) => ∃ i b, un.str.unitBricks[i]? = some b ∧ b.name = Spec.rainEntry g c ∧
      f.dst = .comp (.unitBrick u i) ∧ f.content = .water ∧ f.weighted = false ∧ f.unitFrac = 1 ∧ f.share = 1)
      (m.net.outputs (.unitSplit u k) 0) g.covers := by
  have hstr := fromBase_str hg
  have hsp : s = Spec.rainSplitter g := by
    rw [hstr] at hk
    have hm := List.mem_of_getElem? hk
    unfold Spec.base at hm
    cases hw : g.withSnow <;>
      simp only [hw, if_true, Bool.false_eq_true, if_false, List.mem_cons, List.not_mem_nil, or_false] at hm
    · rcases hm with rfl | rfl
      · simp at hs
      · rfl
    · rcases hm with rfl | rfl | rfl
      · simp at hs
      · simp [Spec.snowSplitter] at hs
      · rfl
  have h2 := c57_splitter_outputs (fromBase_distinct hbb hbs hun) h hu hk
  rw [hsp] at h2
  simp only [Spec.rainSplitter, List.forall₂_map_right_iff] at h2
  have h3 : List.Forall₂ (fun (f : Flux K) (c : Cover) => c ∈ g.covers ∧ Spec.WiredSplit inp u un { target := Spec.rainEntry g c } f)
      (m.net.outputs (.unitSplit u k) 0) g.covers := by
    rw [List.forall₂_iff_get] at h2 ⊢
    exact ⟨h2.1, fun i h1 h2' => ⟨List.get_mem _ _, h2.2 i h1 h2'⟩⟩
  refine h3.imp ?_
  rintro f c ⟨hc, hf⟩
  have hb : ∃ b ∈ un.str.unitBricks, b.name = Spec.rainEntry g c := by
    rw [hstr]
    unfold Spec.rainEntry Spec.belowCanopy
    split
    · rename_i hcc; exact ⟨_, canopy_mem hg.1 hg.2.1 hc hcc, rfl⟩
    · split
      · rename_i hv
        simp only [Spec.viaSnowpack, Bool.and_eq_true] at hv
        exact ⟨_, snow_mem hg.1 hg.2.1 hv.1 hc, rfl⟩
      · exact ⟨_, cover_mem hg.1 hg.2.1 hc, rfl⟩
  obtain ⟨b, hb1, hb2⟩ := hb
  obtain ⟨i, hi, hd⟩ := denotes_base hbb hbs hun hg hf.dest hb1 hb2
  exact ⟨i, b, hi, hb2, hd, hf.content, hf.weighted, hf.staying (by rw [hd]; exact id), hf.share⟩

/-- **C58 (snow).**  In the built model the snow splitter of a unit has exactly one output per land cover, in order, carrying
the whole snow depth to the snowpack of that cover. -/
theorem c58_snow {m : Wire.Model K} (h : build inp = .ok m) {u : ℕ} {un : UnitIn K} (hu : inp.units[u]? = some un)
    {g : BaseArgs} (hg : FromBase inp un g) {k : ℕ} {s : Split} (hk : un.str.unitSplits[k]? = some s) (hs : s.name = "snow_splitter") :
    List.Forall₂ (fun (f : Flux K) (c : Cover) => ∃ i b, un.str.unitBricks[i]? = some b ∧ b.name = c.name ++ "_snowpack" ∧
      b.type = "snowpack" ∧ b.parent = c.name ∧
      f.dst = .comp (.unitBrick u i) ∧ f.content = .snow ∧ f.weighted = false ∧ f.unitFrac = 1 ∧ f.share = 1)
      (m.net.outputs (.unitSplit u k) 0) g.covers := by
  have hstr := fromBase_str hg
  have hsp : g.withSnow = true ∧ s = Spec.snowSplitter g := by
    rw [hstr] at hk
    have hm := List.mem_of_getElem? hk
    unfold Spec.base at hm
    cases hw : g.withSnow <;>
      simp only [hw, if_true, Bool.false_eq_true, if_false, List.mem_cons, List.not_mem_nil, or_false] at hm
    · rcases hm with rfl | rfl
      · simp at hs
      · simp [Spec.rainSplitter] at hs
    · rcases hm with rfl | rfl | rfl
      · simp at hs
      · exact ⟨rfl, rfl⟩
      · simp [Spec.rainSplitter] at hs
  obtain ⟨hw, hsp⟩ := hsp
  have h2 := c57_splitter_outputs (fromBase_distinct hbb hbs hun) h hu hk
  rw [hsp] at h2
  simp only [Spec.snowSplitter, List.forall₂_map_right_iff] at h2
  have h3 : List.Forall₂ (fun (f : Flux K) (c : Cover) => c ∈ g.covers ∧
      Spec.WiredSplit inp u un { target := c.name ++ "_snowpack", content := .snow } f)
      (m.net.outputs (.unitSplit u k) 0) g.covers := by
    rw [List.forall₂_iff_get] at h2 ⊢
    exact ⟨h2.1, fun i h1 h2' => ⟨List.get_mem _ _, h2.2 i h1 h2'⟩⟩
  refine h3.imp ?_
  rintro f c ⟨hc, hf⟩
  have hm : Spec.snowBrick g c ∈ un.str.unitBricks := by rw [hstr]; exact snow_mem hg.1 hg.2.1 hw hc
  obtain ⟨i, hi, hd⟩ := denotes_base hbb hbs hun hg hf.dest hm rfl
  exact ⟨i, _, hi, rfl, rfl, rfl, hd, hf.content, hf.weighted, hf.staying (by rw [hd]; exact id), hf.share⟩

/-- A process of a generated brick with one output towards another brick of the unit covering a fraction of it. -/
theorem one_output {m : Wire.Model K} (h : build inp = .ok m) {u : ℕ} {un : UnitIn K} (hu : inp.units[u]? = some un)
    {g : BaseArgs} (hg : FromBase inp un g) {i : ℕ} {b : Brick} (hb : un.str.unitBricks[i]? = some b) {k : ℕ} {p : Proc}
    (hp : b.procs[k]? = some p) (hat : p.type ∉ Spec.atmosphereNames) {o : Out} (ho : p.outs = [o]) {b' : Brick}
    (hb' : b' ∈ un.str.unitBricks) (hn : o.target = b'.name) (ht : b'.type ∈ Spec.fractionTypes) :
    ∃ f j, m.net.outputs (.unitBrick u i) k = [f] ∧ f.dst = .comp (.unitBrick u j) ∧ un.str.unitBricks[j]? = some b' ∧
      f.content = o.content ∧ f.weighted = false ∧ f.unitFrac = 1 := by
  have hk : b'.name ≠ "lateral" := by
    intro he
    rw [fromBase_str hg] at hb'
    exact base_names hg.1 hg.2.1 hb' (by rw [he]; decide)
  have h2 := c57_unit_outputs (fromBase_distinct hbb hbs hun) h hu hb hp hat (by rw [ho]; simp [hn, hk])
  rw [ho] at h2
  generalize m.net.outputs (.unitBrick u i) k = fs at h2
  cases h2 with
  | cons h1 h3 =>
    cases h3
    obtain ⟨j, hj, hd⟩ := denotes_base hbb hbs hun hg h1.dest hb' hn.symm
    refine ⟨_, j, rfl, hd, hj, h1.content, ?_, h1.staying (by rw [hd]; exact id)⟩
    have hw : ¬ (_ : Prop) := fun he => (h1.weighted.1 he).2 _ _ hd (.own hj hn.symm) ht
    simpa using hw

/-- **C58 (release).**  The water leaving a snowpack or a canopy reaches the cover it lies on: the melt without retention and the
outflow with retention go to the cover, the throughfall of the canopy to what lies below. -/
theorem c58_release {m : Wire.Model K} (h : build inp = .ok m) {u : ℕ} {un : UnitIn K} (hu : inp.units[u]? = some un)
    {g : BaseArgs} (hg : FromBase inp un g) {i : ℕ} {c : Cover} (hc : c ∈ g.covers) :
    (un.str.unitBricks[i]? = some (Spec.snowBrick g c) → (g.retention.getD g.melt) ∉ Spec.atmosphereNames → ∃ f j,
      m.net.outputs (.unitBrick u i) (if g.retention.isSome then 1 else 0) = [f] ∧ f.dst = .comp (.unitBrick u j) ∧
      un.str.unitBricks[j]? = some (Spec.coverBrick c) ∧ f.content = .water ∧ f.weighted = false ∧ f.unitFrac = 1) ∧
    (un.str.unitBricks[i]? = some (Spec.canopyBrick g c) → ∃ f j b', m.net.outputs (.unitBrick u i) 0 = [f] ∧
      f.dst = .comp (.unitBrick u j) ∧ un.str.unitBricks[j]? = some b' ∧ b'.name = Spec.belowCanopy g c ∧
      f.content = .water ∧ f.weighted = false ∧ f.unitFrac = 1) := by
  have hstr := fromBase_str hg
  have hct : c.type ∈ Spec.fractionTypes := by
    have key : ∀ t ∈ Spec.coverTypes, t ∈ Spec.fractionTypes := by decide
    exact key _ (hg.2.1.types c hc)
  have hcm : Spec.coverBrick c ∈ un.str.unitBricks := by rw [hstr]; exact cover_mem hg.1 hg.2.1 hc
  constructor
  · intro hb hat
    cases hr : g.retention with
    | none =>
      rw [hr] at hat
      exact one_output hbb hbs hun h hu hg hb (k := 0) (p := Spec.pr "melt" g.melt [{ target := c.name }])
        (by simp [Spec.snowBrick, Spec.snowProcs, hr]) hat (o := { target := c.name }) rfl hcm rfl hct
    | some r =>
      rw [hr] at hat
      exact one_output hbb hbs hun h hu hg hb (k := 1) (p := Spec.pr "meltwater" r [{ target := c.name }])
        (by simp [Spec.snowBrick, Spec.snowProcs, hr]) hat (o := { target := c.name }) rfl hcm rfl hct
  · intro hb
    have hb' : ∃ b' ∈ un.str.unitBricks, b'.name = Spec.belowCanopy g c ∧ b'.type ∈ Spec.fractionTypes := by
      unfold Spec.belowCanopy
      split
      · rename_i hv
        simp only [Spec.viaSnowpack, Bool.and_eq_true] at hv
        exact ⟨Spec.snowBrick g c, by rw [hstr]; exact snow_mem hg.1 hg.2.1 hv.1 hc, rfl, by simp [Spec.snowBrick, Spec.fractionTypes]⟩
      · exact ⟨_, hcm, rfl, hct⟩
    obtain ⟨b', h1, h2, h3⟩ := hb'
    obtain ⟨f, j, h4, h5, h6, h7, h8, h9⟩ := one_output hbb hbs hun h hu hg hb (k := 0)
      (p := Spec.pr "throughfall" "outflow:threshold" [{ target := Spec.belowCanopy g c }])
      (by simp [Spec.canopyBrick]) (by simp [Spec.pr, Spec.atmosphereNames]) (o := { target := Spec.belowCanopy g c }) rfl h1 h2.symm h3
    exact ⟨f, j, b', h4, h5, h6, h2, h7, h8, h9⟩

end

/-! ### Witnesses and findings -/

namespace BaseDemo

/-- Forest with a canopy, meadow and glacier; rain to the snowpacks, every snow option. -/
def args : BaseArgs :=
  { covers := [⟨"forest", "generic_land_cover", true⟩, ⟨"meadow", "ground", false⟩, ⟨"ice", "glacier", false⟩],
    retention := some "outflow:snow_holding", rainToSnowpack := true, refreezing := some "refreeze:degree_day",
    snowIce := some "transform:snow_ice_constant", redistribution := some "transport:snow_slide",
    sublimation := some "sublimation:pet" }

theorem good : Spec.GoodNames args := ⟨by decide +kernel, by decide +kernel⟩

theorem self {p : String} (pc : ProcClass) (h : p ∈ Spec.processNames pc) (h1 : p ∉ Spec.infiltrationNames) (h2 : p ≠ "capillary:hbv") :
    Spec.SelfContained p := ⟨⟨pc, h⟩, h1, h2⟩

theorem buildable : Spec.Buildable args where
  names := by decide +kernel
  types := by decide +kernel
  splitter := fun _ => ⟨.snowRainLinear, by decide⟩
  retention := fun _ h => by cases h
  melt := self .meltDegreeDay (by decide) (by decide) (by decide)
  outflow := fun p h => by cases h; exact self .outflowSnowHolding (by decide) (by decide) (by decide)
  refreezing := fun p h => by cases h; exact self .refreezeDegreeDay (by decide) (by decide) (by decide)
  snowIce := fun p h => by cases h; exact self .snowToIceConstant (by decide) (by decide) (by decide)
  redistribution := fun p h => by cases h; decide
  sublimation := fun p h => by cases h; exact self .sublimationPET (by decide) (by decide) (by decide)

/-- What the rain splitter of a generated structure feeds. -/
def rainTargets (r : Except Err Auth) : Option (List String) :=
  r.toOption.map fun a => (a.str.unitSplits.filter (·.name = "rain_splitter")).flatMap fun s => s.outs.map (·.target)

/-- The example: the canopy intercepts the forest's rain, the other covers get theirs through the snowpacks. -/
theorem entries : rainTargets (generateBase args) = some ["forest_canopy", "meadow_snowpack", "ice_snowpack"] := by decide +kernel

/-- A land cover added before the precipitation splitters gets no rain, without any error. -/
theorem c58_cover_before_splitters : rainTargets (do
    let a ← addLandCover "meadow" "ground" {}
    let a ← genPrecipitation true "snow_rain:linear" a
    addLandCover "forest" "ground" a) = some ["forest"] := by decide +kernel

/-- A land cover added after the snowpacks gets rain but no snowpack: its snow is lost. -/
theorem c58_cover_after_snowpacks : ((do
    let a ← genPrecipitation true "snow_rain:linear" {}
    let a ← addLandCover "meadow" "ground" a
    let a ← genSnowpacks "melt:degree_day" a
    addLandCover "forest" "ground" a : Except Err Auth).toOption.map fun a =>
      (a.str.unitSplits.filter (·.name = "snow_splitter")).flatMap fun s => s.outs.map (·.target)) = some ["meadow_snowpack"] := by
  decide +kernel

/-- One unit with a cover called like a keyword. -/
def outletCover : Input ℚ :=
  ⟨{}, [⟨match generateBase { covers := [⟨"outlet", "ground", false⟩] } with | .ok a => a.str | .error _ => {}, 1, []⟩]⟩

/-- A land cover called "outlet" is accepted, but rain and melt go to the outlet instead of the cover. -/
theorem c58_cover_called_outlet :
    ((build outletCover).toOption.map fun m => (m.net.inputs (.unitBrick 0 0)).length) = some 0 ∧
    ((build outletCover).toOption.map fun m => (m.net.outputs (.unitSplit 0 2) 0).map (·.dst)) = some [.outlet] :=
  ⟨by decide +kernel, by decide +kernel⟩

/-- A colon in the name of a cover: the melt goes to another brick name, and the model does not build. -/
theorem c58_colon_in_name : ((build (K := ℚ) ⟨{}, [⟨match generateBase { covers := [⟨"a:b", "ground", false⟩] } with
    | .ok a => a.str | .error _ => {}, 1, []⟩]⟩).toOption.isSome) = false := by decide +kernel

/-- The hypotheses of the theorems above are met: two units of the example, the first draining its snow to the second. -/
def demo : Input ℚ :=
  ⟨{}, [⟨Spec.base args, 2, [(1, 1)]⟩, ⟨Spec.base args, 1, []⟩]⟩

theorem demo_fromBase : ∀ un ∈ demo.units, ∃ g, FromBase demo un g := by
  intro un hun
  obtain ⟨a, h1, h2⟩ := c58_generated good ((c58_accepts_iff good).1 (WireDemo.isOk (by decide +kernel)))
  refine ⟨args, good, buildable, ⟨a, h1, ?_⟩, ?_⟩
  · rw [h2]
    rcases List.mem_cons.mp hun with rfl | hun
    · rfl
    · rw [List.mem_singleton] at hun; subst hun; rfl
  · intro _ cn hcn
    rcases List.mem_cons.mp hun with rfl | hun
    · rw [List.mem_singleton] at hcn; subst hcn; decide
    · rw [List.mem_singleton] at hun; subst hun; cases hcn

example : ∃ m, build demo = .ok m := c58_builds rfl rfl demo_fromBase

end BaseDemo

end HB.Wire
