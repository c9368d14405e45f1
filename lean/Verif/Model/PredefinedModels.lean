import Verif.Model.PredefinedFwd

/-! # The predefined models are good descriptions. -/

set_option linter.unusedSectionVars false
set_option linter.unusedSimpArgs false

namespace HB.Wire

open HB.Names

/-! ## Names -/

section
variable {cs : List PyCover} (h : Spec.GoodCovers cs)
include h

theorem names_ne {c c' : PyCover} (hc : c ∈ cs) (hc' : c' ∈ cs) {s s' : String} (hs : s ∈ Spec.suffixes) (hs' : s' ∈ Spec.suffixes)
    (hne : s ≠ s') : c.name ++ s ≠ c'.name ++ s' := by
  have h1 := (List.nodup_append.1 h.distinct).1
  rw [List.nodup_flatMap] at h1
  have h2 := h1.2
  haveI : Std.Symm (Function.onFun List.Disjoint fun s => cs.map fun c : PyCover => c.name ++ s) := ⟨fun _ _ h => List.Disjoint.symm h⟩
  have h3 := (List.Pairwise.forall h2) hs hs' hne
  intro he
  exact h3 (List.mem_map.2 ⟨c, hc, rfl⟩) (List.mem_map.2 ⟨c', hc', he.symm⟩)

theorem names_reserved {c : PyCover} (hc : c ∈ cs) {s : String} (hs : s ∈ Spec.suffixes) : c.name ++ s ∉ Spec.reserved := by
  intro hr
  exact (List.nodup_append.1 h.distinct).2.2 _ (List.mem_flatMap.2 ⟨s, hs, List.mem_map.2 ⟨c, hc, rfl⟩⟩) _ hr rfl

theorem name_reserved {c : PyCover} (hc : c ∈ cs) : c.name ∉ Spec.reserved := by
  have := names_reserved h hc (s := "") (by decide)
  simpa using this

theorem names_nodup (s : String) (hs : s ∈ Spec.suffixes) : (cs.map fun c => c.name ++ s).Nodup := by
  have h1 := (List.nodup_append.1 h.distinct).1
  rw [List.nodup_flatMap] at h1
  exact h1.1 s hs

theorem name_nodup : (cs.map (·.name)).Nodup := by
  have := names_nodup h "" (by decide)
  simpa using this

theorem name_inj {c c' : PyCover} (hc : c ∈ cs) (hc' : c' ∈ cs) (he : c.name = c'.name) : c = c' :=
  List.inj_on_of_nodup_map (name_nodup h) hc hc' he

theorem name_inj' {c c' : PyCover} (hc : c ∈ cs) (hc' : c' ∈ cs) {s : String} (he : c.name ++ s = c'.name ++ s) : c = c' := by
  refine name_inj h hc hc' ?_
  have : (c.name ++ s).toList = (c'.name ++ s).toList := by rw [he]
  simp only [String.toList_append] at this
  exact String.toList_inj.1 (List.append_cancel_right this)

end

/-! ## Base structures -/

/-- The covers of the arguments are these, as written. -/
def CoversAre (g : BaseArgs) (cs : List PyCover) : Prop := ∃ b, g.covers = cs.map (PyCover.toCover b)

section
variable {cs cs' : List PyCover} (h : Spec.GoodCovers cs) (hsub : cs'.Sublist cs) {g : BaseArgs} (hg : CoversAre g cs')
include hg

theorem covers_mem {c : Cover} (hc : c ∈ g.covers) : ∃ p ∈ cs', c.name = p.name ∧
    c.type = (if p.kind ∈ ["ground", "generic_land_cover", "open", "forest", "lake"] then "generic_land_cover" else p.kind) := by
  obtain ⟨b, hg⟩ := hg
  rw [hg] at hc
  obtain ⟨p, hp, rfl⟩ := List.mem_map.1 hc
  exact ⟨p, hp, rfl, rfl⟩

theorem mem_covers {p : PyCover} (hp : p ∈ cs') : ∃ c ∈ g.covers, c.name = p.name := by
  obtain ⟨b, hg⟩ := hg
  exact ⟨p.toCover b, by rw [hg]; exact List.mem_map.2 ⟨p, hp, rfl⟩, rfl⟩

theorem base_name {n : String} (hn : n ∈ (Spec.base g).unitBricks.map (·.name)) : ∃ p ∈ cs', ∃ s ∈ ["", "_canopy", "_snowpack"], n = p.name ++ s := by
  obtain ⟨b, hb, rfl⟩ := List.mem_map.1 hn
  unfold Spec.base at hb
  rcases List.mem_append.1 hb with hb | hb
  · rcases List.mem_append.1 hb with hb | hb
    · obtain ⟨c, hc, rfl⟩ := List.mem_map.1 hb
      obtain ⟨p, hp, he, -⟩ := covers_mem hg hc
      exact ⟨p, hp, "", by decide, by simp [Spec.coverBrick, he]⟩
    · obtain ⟨c, hc, rfl⟩ := List.mem_map.1 hb
      obtain ⟨p, hp, he, -⟩ := covers_mem hg (List.mem_of_mem_filter hc)
      exact ⟨p, hp, "_canopy", by decide, by simp [Spec.canopyBrick, he]⟩
  · split at hb
    · obtain ⟨c, hc, rfl⟩ := List.mem_map.1 hb
      obtain ⟨p, hp, he, -⟩ := covers_mem hg hc
      exact ⟨p, hp, "_snowpack", by decide, by simp [Spec.snowBrick, he]⟩
    · cases hb

include h hsub

theorem base_reserved {n : String} (hn : n ∈ Spec.reserved) : n ∉ (Spec.base g).unitBricks.map (·.name) := by
  intro hm
  obtain ⟨p, hp, s, hs, rfl⟩ := base_name hg hm
  have key : ∀ s ∈ ["", "_canopy", "_snowpack"], s ∈ Spec.suffixes := by decide
  exact names_reserved h (hsub.subset hp) (key s hs) hn

theorem base_suffix {p : PyCover} (hp : p ∈ cs) {s : String} (hs : s ∈ ["_soil_moisture", "_storage", "_soil"]) :
    p.name ++ s ∉ (Spec.base g).unitBricks.map (·.name) := by
  intro hm
  obtain ⟨p', hp', s', hs', he⟩ := base_name hg hm
  have key : ∀ s ∈ ["_soil_moisture", "_storage", "_soil"], ∀ s' ∈ ["", "_canopy", "_snowpack"], s ∈ Spec.suffixes ∧ s' ∈ Spec.suffixes ∧ s ≠ s' := by decide
  obtain ⟨k1, k2, k3⟩ := key s hs s' hs'
  exact names_ne h hp (hsub.subset hp') k1 k2 k3 he

theorem goodNames_of : Spec.GoodNames g := by
  have hcov : ∃ b, g.covers = cs'.map (PyCover.toCover b) := hg
  obtain ⟨b, hb⟩ := hcov
  have hmem : ∀ c ∈ g.covers, ∃ p ∈ cs, c.name = p.name := by
    intro c hc
    obtain ⟨p, hp, he, -⟩ := covers_mem hg hc
    exact ⟨p, hsub.subset hp, he⟩
  have hn : ∀ s ∈ Spec.suffixes, (g.covers.map fun c => c.name ++ s).Nodup := by
    intro s hs
    have : (cs'.map fun c => c.name ++ s).Nodup := (hsub.map _).nodup (names_nodup h s hs)
    rw [hb, List.map_map]
    exact this
  have hdis : ∀ s ∈ Spec.suffixes, ∀ s' ∈ Spec.suffixes, s ≠ s' → ∀ c ∈ g.covers, ∀ c' ∈ g.covers, c.name ++ s ≠ c'.name ++ s' := by
    intro s hs s' hs' hne c hc c' hc'
    obtain ⟨p, hp, he⟩ := hmem c hc
    obtain ⟨p', hp', he'⟩ := hmem c' hc'
    rw [he, he']
    exact names_ne h hp hp' hs hs' hne
  refine ⟨?_, ?_⟩
  · unfold Spec.base
    simp only [List.map_append, List.map_map]
    have e1 : (g.covers.map ((fun x : Brick => x.name) ∘ Spec.coverBrick)) = g.covers.map fun c => c.name ++ "" := by
      apply List.map_congr_left; intro c _; simp [Spec.coverBrick]
    have e2 : ((Spec.canopies g).map ((fun x : Brick => x.name) ∘ Spec.canopyBrick g)) = (Spec.canopies g).map fun c => c.name ++ "_canopy" := rfl
    have e3 : List.map (fun x : Brick => x.name) (if g.withSnow then g.covers.map (Spec.snowBrick g) else []) =
        if g.withSnow then g.covers.map fun c => c.name ++ "_snowpack" else [] := by
      split
      · rw [List.map_map]; rfl
      · rfl
    rw [e1, e2, e3]
    have hcan : ∀ c ∈ Spec.canopies g, c ∈ g.covers := fun c hc => List.mem_of_mem_filter hc
    refine List.nodup_append.2 ⟨List.nodup_append.2 ⟨hn _ (by decide), ?_, ?_⟩, ?_, ?_⟩
    · exact (List.Sublist.map _ List.filter_sublist).nodup (hn "_canopy" (by decide))
    · intro x hx y hy he
      obtain ⟨c, hc, rfl⟩ := List.mem_map.1 hx
      obtain ⟨c', hc', rfl⟩ := List.mem_map.1 hy
      exact hdis "" (by decide) "_canopy" (by decide) (by decide) c hc c' (hcan c' hc') he
    · split
      · exact hn _ (by decide)
      · exact List.nodup_nil
    · intro x hx y hy he
      split at hy
      · obtain ⟨c', hc', rfl⟩ := List.mem_map.1 hy
        rcases List.mem_append.1 hx with hx | hx
        · obtain ⟨c, hc, rfl⟩ := List.mem_map.1 hx
          exact hdis "" (by decide) "_snowpack" (by decide) (by decide) c hc c' hc' he
        · obtain ⟨c, hc, rfl⟩ := List.mem_map.1 hx
          exact hdis "_canopy" (by decide) "_snowpack" (by decide) (by decide) c (hcan c hc) c' hc' he
      · cases hy
  · intro c hc
    obtain ⟨p, hp, he⟩ := hmem c hc
    rw [he]
    exact h.plain p hp

theorem coverTypes_of : ∀ c ∈ g.covers, c.type ∈ Spec.coverTypes := by
  intro c hc
  obtain ⟨p, hp, -, he⟩ := covers_mem hg hc
  have key : ∀ k ∈ ["open", "ground", "generic", "generic_land_cover", "forest", "lake", "glacier"],
      (if k ∈ ["ground", "generic_land_cover", "open", "forest", "lake"] then "generic_land_cover" else k) ∈ Spec.coverTypes := by decide
  rw [he]
  exact key _ (h.kinds p (hsub.subset hp))

theorem coverNames_of : ∀ c ∈ g.covers, c.name ∉ Spec.keywords := by
  intro c hc hk
  obtain ⟨p, hp, he, -⟩ := covers_mem hg hc
  rw [he] at hk
  exact name_reserved h (hsub.subset hp) (List.mem_append_left _ hk)

/-- A cover found by its name is the cover. -/
theorem cover_type {p : PyCover} (hp : p ∈ cs') {c : Cover} (hc : c ∈ g.covers) (he : c.name = p.name) :
    c.type = if p.kind ∈ ["ground", "generic_land_cover", "open", "forest", "lake"] then "generic_land_cover" else p.kind := by
  obtain ⟨p', hp', he', ht⟩ := covers_mem hg hc
  have := name_inj h (hsub.subset hp) (hsub.subset hp') (by rw [← he, he'])
  subst this
  exact ht

end

/-! ## Processes of the documented options -/

theorem selfContained_of {k : String} {pc : ProcClass} (h : k ∈ Spec.processNames pc) (h1 : k ∉ Spec.infiltrationNames) (h2 : k ≠ "capillary:hbv") :
    Spec.SelfContained k := ⟨⟨pc, h⟩, h1, h2⟩

theorem melt_self {k : String} (h : k ∈ Spec.meltKinds) : Spec.SelfContained k := by
  simp only [Spec.meltKinds, List.mem_cons, List.not_mem_nil, or_false] at h
  rcases h with rfl | rfl | rfl | rfl
  · exact selfContained_of (pc := .meltDegreeDay) (by decide) (by decide) (by decide)
  · exact selfContained_of (pc := .meltDegreeDayAspect) (by decide) (by decide) (by decide)
  · exact selfContained_of (pc := .meltTemperatureIndex) (by decide) (by decide) (by decide)
  · exact selfContained_of (pc := .meltCemaNeige) (by decide) (by decide) (by decide)

theorem retention_self {o : Option String} (h : o ∈ [none, some "outflow:snow_holding"]) : ∀ p ∈ o, Spec.SelfContained p := by
  simp only [List.mem_cons, List.not_mem_nil, or_false] at h
  rcases h with rfl | rfl <;> intro p hp <;> cases hp
  exact selfContained_of (pc := .outflowSnowHolding) (by decide) (by decide) (by decide)

theorem refreezing_self {o : Option String} (h : o ∈ [none, some "refreeze:degree_day"]) : ∀ p ∈ o, Spec.SelfContained p := by
  simp only [List.mem_cons, List.not_mem_nil, or_false] at h
  rcases h with rfl | rfl <;> intro p hp <;> cases hp
  exact selfContained_of (pc := .refreezeDegreeDay) (by decide) (by decide) (by decide)

theorem snowIce_self {o : Option String} (h : o ∈ [none, some "transformation:snow_ice_constant", some "transformation:snow_ice_swat"]) :
    ∀ p ∈ o, Spec.SelfContained p := by
  simp only [List.mem_cons, List.not_mem_nil, or_false] at h
  rcases h with rfl | rfl | rfl <;> intro p hp <;> cases hp
  · exact selfContained_of (pc := .snowToIceConstant) (by decide) (by decide) (by decide)
  · exact selfContained_of (pc := .snowToIceSwat) (by decide) (by decide) (by decide)

theorem sublimation_self {o : Option String} (h : o ∈ [none, some "sublimation:constant", some "sublimation:pet"]) :
    ∀ p ∈ o, Spec.SelfContained p := by
  simp only [List.mem_cons, List.not_mem_nil, or_false] at h
  rcases h with rfl | rfl | rfl <;> intro p hp <;> cases hp
  · exact selfContained_of (pc := .sublimationConstant) (by decide) (by decide) (by decide)
  · exact selfContained_of (pc := .sublimationPET) (by decide) (by decide) (by decide)

theorem splitter_known (melt : String) : ∃ k, defaultSplitter melt ∈ Spec.splitterNames k := by
  unfold defaultSplitter
  split
  · exact ⟨.snowRainCemaNeige, by decide⟩
  · exact ⟨.snowRainLinear, by decide⟩

theorem snowArgs_covers (o : SnowOpts) (cs : List PyCover) : CoversAre (snowArgs o cs) cs := ⟨_, rfl⟩

theorem snowArgs_buildable {cs cs' : List PyCover} (h : Spec.GoodCovers cs) (hsub : cs'.Sublist cs) {o : SnowOpts} (ho : Spec.GoodSnow o) :
    Spec.Buildable (snowArgs o cs') where
  names := coverNames_of h hsub (snowArgs_covers o cs')
  types := coverTypes_of h hsub (snowArgs_covers o cs')
  splitter _ := splitter_known o.melt
  retention _ hr := ho.needs hr
  melt := melt_self ho.melt
  outflow := retention_self ho.retention
  refreezing := refreezing_self ho.refreezing
  snowIce := snowIce_self ho.snowIce
  redistribution := ho.redistribution
  sublimation := sublimation_self ho.sublimation

/-! ## Entries -/

/-- The process does what it has to on a brick of this type, given the names it may feed. -/
structure ProcOK (v : Variant) (bas : List String) (ty : String) (p : PItem) : Prop where
  works : Spec.CanWork p.kind ty
  empty : p.targets = [] → mayLackTarget p.kind = true
  plain : ∀ t ∈ p.targets, t ≠ "" ∧ ':' ∉ t.toList ∧ t ≠ "lateral"
  linked : p.kind ∈ Spec.infiltrationNames → ∃ t, p.targets = [t] ∧ Spec.Reaches v bas t
  fanned : p.kind = "capillary:hbv" → ∀ t ∈ p.targets, Spec.Reaches v bas t

/-- A good entry. -/
inductive ItemOK (v : Variant) (bas : List String) (it : Item) : Prop
  | cover : it.place = .cover → it.direct = false → (∃ c ∈ v.base.covers, c.name = it.key) →
      (∀ c ∈ v.base.covers, c.name = it.key → ∀ p ∈ it.procs, ProcOK v bas c.type p) →
      (∀ p ∈ it.procs, p.kind ∉ Spec.atmosphereNames → ∀ t ∈ p.targets, Spec.Reaches v bas t) → ItemOK v bas it
  | unit : it.place = .unit → it.kind = "storage" → it.key ∉ Spec.keywords → it.key ∉ (Spec.base v.base).unitBricks.map (·.name) →
      it.key ∉ bas → (∀ p ∈ it.procs, ProcOK v bas "storage" p ∧ p.inst = false) → ItemOK v bas it
  | basin : it.place = .basin → it.kind = "storage" → it.key ∉ Spec.keywords →
      (∀ p ∈ it.procs, ProcOK v bas "storage" p ∧ p.inst = false ∧ p.targets = ["outlet"] ∧ p.kind ∉ Spec.infiltrationNames ∧ p.kind ≠ "capillary:hbv") →
      ItemOK v bas it

theorem plan_of {v : Variant} {bas : List String} (hk : (v.items.map (·.key)).Nodup) (hi : ∀ it ∈ v.items, ItemOK v bas it)
    (hb : ∀ n ∈ bas, n ∉ (Spec.base v.base).unitBricks.map (·.name) ∧ n ∉ Spec.keywords) (hf : Spec.FeedsLater (Spec.itemsAt .unit v.items)) :
    Spec.Plan v bas where
  keys := hk
  covers it hit hp := by
    cases hi it hit with
    | cover _ h1 h2 => exact ⟨h1, h2⟩
    | unit h => rw [h] at hp; cases hp
    | basin h => rw [h] at hp; cases hp
  storages it hit hp := by
    cases hi it hit with
    | cover h => exact absurd h hp
    | unit _ h1 h2 => exact ⟨h1, h2⟩
    | basin _ h1 h2 => exact ⟨h1, h2⟩
  fresh it hit hp := by
    cases hi it hit with
    | cover h => rw [h] at hp; cases hp
    | unit _ _ _ h => exact h
    | basin h => rw [h] at hp; cases hp
  apart n hn := ⟨(hb n hn).1, (hb n hn).2, fun it hit hp => by
    cases hi it hit with
    | cover h => rw [h] at hp; cases hp
    | unit _ _ _ _ h => rintro rfl; exact h hn
    | basin h => rw [h] at hp; cases hp⟩
  written it hit p hp := by
    cases hi it hit with
    | cover _ _ h1 h2 => obtain ⟨c, hc, he⟩ := h1; exact ⟨(h2 c hc he p hp).empty, (h2 c hc he p hp).plain⟩
    | unit _ _ _ _ _ h => exact ⟨(h p hp).1.empty, (h p hp).1.plain⟩
    | basin _ _ _ h => exact ⟨(h p hp).1.empty, (h p hp).1.plain⟩
  onCover it hit hpl p hp c hc he := by
    cases hi it hit with
    | cover _ _ _ h => exact (h c hc he p hp).works
    | unit h => rw [h] at hpl; cases hpl
    | basin h => rw [h] at hpl; cases hpl
  onStorage it hit hpl p hp := by
    cases hi it hit with
    | cover h => exact absurd h hpl
    | unit _ _ _ _ _ h => exact (h p hp).1.works
    | basin _ _ _ h => exact (h p hp).1.works
  fromCover it hit hpl p hp := by
    cases hi it hit with
    | cover _ _ _ _ h => exact h p hp
    | unit h => rw [h] at hpl; cases hpl
    | basin h => rw [h] at hpl; cases hpl
  forward := hf
  timed it hit hpl p hp := by
    cases hi it hit with
    | cover h => exact absurd h hpl
    | unit _ _ _ _ _ h => exact (h p hp).2
    | basin _ _ _ h => exact (h p hp).2.1
  fromBasin it hit hpl p hp := by
    cases hi it hit with
    | cover h => rw [h] at hpl; cases hpl
    | unit h => rw [h] at hpl; cases hpl
    | basin _ _ _ h => exact (h p hp).2.2
  linked it hit p hp := by
    cases hi it hit with
    | cover _ _ h1 h2 => obtain ⟨c, hc, he⟩ := h1; exact (h2 c hc he p hp).linked
    | unit _ _ _ _ _ h => exact (h p hp).1.linked
    | basin _ _ _ h => exact (h p hp).1.linked
  fanned it hit p hp := by
    cases hi it hit with
    | cover _ _ h1 h2 => obtain ⟨c, hc, he⟩ := h1; exact (h2 c hc he p hp).fanned
    | unit _ _ _ _ _ h => exact (h p hp).1.fanned
    | basin _ _ _ h => exact (h p hp).1.fanned

/-- Entries that feed later entries, followed by such. -/
theorem feedsLater_append {l l' : List Item} (h1 : ∀ it ∈ l, ∀ p ∈ it.procs, p.kind ∉ Spec.atmosphereNames → ∀ t ∈ p.targets,
      t = "outlet" ∨ ∃ it' ∈ l', it'.key = t ∧ (it.direct = false → it'.direct = false)) (h2 : Spec.FeedsLater l') : Spec.FeedsLater (l ++ l') := by
  induction l with
  | nil => exact h2
  | cons x l ih =>
    refine ⟨fun p hp ha t ht => ?_, ih fun it hit => h1 it (List.mem_cons_of_mem _ hit)⟩
    rcases h1 x (List.mem_cons_self ..) p hp ha t ht with h | ⟨it', h, h'⟩
    · exact .inl h
    · exact .inr ⟨it', List.mem_append_right _ h, h'⟩

/-! ## Processes that work anywhere -/

/-- Kinds of processes working on the water of any brick. -/
def waterKinds : List (String × ProcClass) :=
  [("outflow:linear", .outflowLinear), ("percolation:constant", .percolationConstant), ("percolation:gr4j", .percolationGR4J),
   ("outflow:direct", .outflowDirect), ("outflow:rest", .outflowRest), ("overflow", .outflowOverflow), ("runoff:socont", .runoffSocont),
   ("infiltration:socont", .infiltrationSocont), ("infiltration:gr4j", .infiltrationGR4J), ("infiltration:hbv", .infiltrationHBV),
   ("runoff:hbv", .runoffHBV), ("capillary:hbv", .capillaryHBV), ("routing:hbv", .routingHBV), ("production:gr4j", .productionGR4J),
   ("et:socont", .etSocont), ("et:gr4j", .etGR4J), ("et:hbv", .etHBV), ("et:open_water", .etOpenWater), ("interception:gr4j", .interceptionGR4J),
   ("routing:gr4j", .routingGR4J), ("routing:gr6j", .routingGR6J)]

theorem works_water {k : String} (hk : k ∈ waterKinds.map (·.1)) (ty : String) : Spec.CanWork k ty := by
  obtain ⟨⟨k', pc⟩, hm, rfl⟩ := List.mem_map.1 hk
  have key : ∀ x ∈ waterKinds, x.1 ∈ Spec.processNames x.2 := by decide
  have key2 : ∀ x ∈ waterKinds, ∀ c ∈ [Category.snowpack, .glacier, .other], Spec.storeFor x.2 c = some .water := by decide
  refine ⟨pc, .water, key _ hm, key2 _ hm _ ?_⟩
  unfold Spec.kindOf
  split
  · decide
  · split <;> decide

/-- A process that feeds nothing. -/
theorem procOK_none (v : Variant) (bas : List String) (ty : String) {p : PItem} (hk : p.kind ∈ waterKinds.map (·.1)) (ht : p.targets = [])
    (hm : mayLackTarget p.kind = true) (hi : p.kind ∉ Spec.infiltrationNames) : ProcOK v bas ty p :=
  ⟨works_water hk ty, fun _ => hm, by simp [ht], fun h => absurd h hi, by simp [ht]⟩

/-- A process with one target. -/
theorem procOK_one (v : Variant) (bas : List String) (ty : String) {p : PItem} {t : String} (hk : Spec.CanWork p.kind ty)
    (ht : p.targets = [t]) (hp : t ≠ "" ∧ ':' ∉ t.toList ∧ t ≠ "lateral") (hr : p.kind ∈ Spec.infiltrationNames ∨ p.kind = "capillary:hbv" → Spec.Reaches v bas t) :
    ProcOK v bas ty p := by
  refine ⟨hk, by simp [ht], ?_, fun h => ⟨t, ht, hr (.inl h)⟩, fun h => ?_⟩
  · intro t' h
    rw [ht, List.mem_singleton] at h
    subst h; exact hp
  · intro t' h'
    rw [ht, List.mem_singleton] at h'
    subst h'; exact hr (.inr h)

theorem reserved_plain {t : String} (h : t ∈ Spec.reserved) (hl : t ≠ "lateral") : t ≠ "" ∧ ':' ∉ t.toList ∧ t ≠ "lateral" := by
  have key : ∀ t ∈ Spec.reserved, t ≠ "" ∧ ':' ∉ t.toList := by decide
  exact ⟨(key t h).1, (key t h).2, hl⟩

theorem suffixed_plain {cs : List PyCover} (h : Spec.GoodCovers cs) {c : PyCover} (hc : c ∈ cs) {s : String} (hs : s ∈ Spec.suffixes) :
    c.name ++ s ≠ "" ∧ ':' ∉ (c.name ++ s).toList ∧ c.name ++ s ≠ "lateral" := by
  obtain ⟨h1, h2⟩ := h.plain c hc
  refine ⟨?_, ?_, ?_⟩
  · intro he
    have := congrArg String.toList he
    simp only [String.toList_append] at this
    have h3 := (List.append_eq_nil_iff.1 this).1
    exact h1 (String.toList_inj.1 h3)
  · rw [String.toList_append, List.mem_append]
    rintro (hh | hh)
    · exact h2 hh
    · have key : ∀ s ∈ Spec.suffixes, ':' ∉ s.toList := by decide
      exact key s hs hh
  · intro he
    exact names_reserved h hc hs (by rw [he]; decide)

end HB.Wire
