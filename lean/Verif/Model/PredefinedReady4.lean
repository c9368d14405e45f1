import Verif.Model.PredefinedReady3

/-! # Socont, HBV-96, GR4J and GR6J have nothing missing. -/

set_option linter.unusedSectionVars false
set_option linter.unusedSimpArgs false

namespace HB.Wire

open HB.Names

/-- A cover that is no glacier is written as a land cover on water. -/
theorem land_type {k : String} (hk : k ∈ ["open", "ground", "generic", "generic_land_cover", "forest", "lake", "glacier"]) :
    (if k ∈ ["ground", "generic_land_cover", "open", "forest", "lake"] then "generic_land_cover" else k) ∈ Spec.coverTypes ∧
    (k ≠ "glacier" → Spec.ownStore (if k ∈ ["ground", "generic_land_cover", "open", "forest", "lake"] then "generic_land_cover" else k) = .water) ∧
    (k = "glacier" → (if k ∈ ["ground", "generic_land_cover", "open", "forest", "lake"] then "generic_land_cover" else k) = "glacier") := by
  have key : ∀ k ∈ ["open", "ground", "generic", "generic_land_cover", "forest", "lake", "glacier"],
      (if k ∈ ["ground", "generic_land_cover", "open", "forest", "lake"] then "generic_land_cover" else k) ∈ Spec.coverTypes ∧
      (k ≠ "glacier" → Spec.ownStore (if k ∈ ["ground", "generic_land_cover", "open", "forest", "lake"] then "generic_land_cover" else k) = .water) ∧
      (k = "glacier" → (if k ∈ ["ground", "generic_land_cover", "open", "forest", "lake"] then "generic_land_cover" else k) = "glacier") := by decide
  exact key k hk

/-- Every cover is found among the entries. -/
theorem covered_of {cs cs' : List PyCover} (h : Spec.GoodCovers cs) (hsub : cs'.Sublist cs) {g : BaseArgs} (hg : CoversAre g cs') {items : List Item}
    {melt : String} (hm : melt ∈ Spec.meltKinds)
    (hland : ∀ p ∈ cs', p.kind ≠ "glacier" → ∃ it ∈ items, it.place = .cover ∧ it.key = p.name ∧ ∃ q ∈ it.procs, q.kind ∈ waterNames)
    (hice : ∀ p ∈ cs', p.kind = "glacier" → melt ≠ "melt:cemaneige" ∧ gsmCover melt p.name ∈ items) :
    ∀ c ∈ g.covers, ∃ it ∈ items, it.place = .cover ∧ it.key = c.name ∧ ∃ p ∈ it.procs, Spec.WorksOn p.kind c.type (Spec.ownStore c.type) := by
  intro c hc
  obtain ⟨p, hp, hn, ht⟩ := covers_mem hg hc
  obtain ⟨k1, k2, k3⟩ := land_type (h.kinds p (hsub.subset hp))
  by_cases hk : p.kind = "glacier"
  · obtain ⟨h1, h2⟩ := hice p hp hk
    refine ⟨_, h2, rfl, hn.symm, ⟨"melt", melt, [gsmIce], true⟩, by simp [gsmCover], ?_⟩
    rw [ht, k3 hk]
    exact melts_ice hm h1
  · obtain ⟨it, hit, hpl, hkey, q, hq, hw⟩ := hland p hp hk
    refine ⟨it, hit, hpl, by rw [hkey, hn], q, hq, ?_⟩
    rw [ht, k2 hk]
    exact works_on_water hw _

/-! ## Socont -/

theorem socontSoil_fine (o : SocontOpts) (soil : String) : ∀ it ∈ socontSoil o soil, ItemFine o.snow.melt it := by
  intro it hit
  unfold socontSoil at hit
  simp only [List.mem_append, List.mem_cons, List.not_mem_nil, or_false] at hit
  rcases hit with ((rfl | rfl) | hit) | rfl
  · refine ⟨fun p hp => .inl ?_, fun p hp _ _ => ?_, fun h => absurd rfl h, fun h => by cases h⟩ <;>
      (simp only [List.mem_cons, List.not_mem_nil, or_false] at hp; rcases hp with rfl | rfl)
    all_goals first | rfl | decide
  · have hp' : ∀ p ∈ [⟨"et", "et:socont", [], false⟩, ⟨"outflow", "outflow:linear", ["outlet"], false⟩, ⟨"overflow", "overflow", ["outlet"], false⟩] ++
        (if o.secondLayer then [⟨"percolation", "percolation:constant", ["slow_reservoir_2"], false⟩] else []),
        p ∈ [(⟨"et", "et:socont", [], false⟩ : PItem), ⟨"outflow", "outflow:linear", ["outlet"], false⟩, ⟨"overflow", "overflow", ["outlet"], false⟩,
          ⟨"percolation", "percolation:constant", ["slow_reservoir_2"], false⟩] := by
      intro p hp
      rcases List.mem_append.1 hp with hp | hp
      · simp only [List.mem_cons, List.not_mem_nil, or_false] at hp ⊢
        rcases hp with rfl | rfl | rfl <;> simp
      · split at hp
        · rw [List.mem_singleton] at hp; subst hp; simp
        · cases hp
    have key : ∀ p ∈ [(⟨"et", "et:socont", [], false⟩ : PItem), ⟨"outflow", "outflow:linear", ["outlet"], false⟩, ⟨"overflow", "overflow", ["outlet"], false⟩,
          ⟨"percolation", "percolation:constant", ["slow_reservoir_2"], false⟩], p.kind ∈ waterNames ∧
          (p.kind ∉ Spec.atmosphereNames → p.kind ≠ "capillary:hbv" → p.targets.length = 1) ∧ p.kind ≠ "outflow:direct" := by decide
    exact ⟨fun p hp => .inl (key p (hp' p hp)).1, fun p hp => (key p (hp' p hp)).2.1,
      fun _ => ⟨by simp, fun p hp => (key p (hp' p hp)).2.2⟩, fun h => by cases h⟩
  · split at hit
    · rw [List.mem_singleton] at hit
      subst hit
      refine ⟨fun p hp => .inl ?_, fun p hp _ _ => ?_, fun _ => ⟨by simp, fun p hp => ?_⟩, fun h => by cases h⟩ <;>
        (rw [List.mem_singleton] at hp; subst hp)
      · decide
      · rfl
      · dsimp only; decide
    · cases hit
  · refine ⟨fun p hp => .inl ?_, fun p hp _ _ => ?_, fun _ => ⟨by simp, fun p hp => ?_⟩, fun h => by cases h⟩ <;>
      (rw [List.mem_singleton] at hp; subst hp)
    · dsimp only; cases o.linearRunoff <;> decide
    · rfl
    · dsimp only; cases o.linearRunoff <;> decide

theorem socontSoil_cap {o : SocontOpts} {soil : String} {it : Item} (hit : it ∈ socontSoil o soil) {p : PItem} (hp : p ∈ it.procs) :
    p.kind ≠ "capillary:hbv" ∧ p.kind ≠ "outflow:direct" ∧ (p.kind = "runoff:socont" → o.linearRunoff = false) := by
  unfold socontSoil at hit
  simp only [List.mem_append, List.mem_cons, List.not_mem_nil, or_false] at hit
  rcases hit with ((rfl | rfl) | hit) | rfl
  · simp only [List.mem_cons, List.not_mem_nil, or_false] at hp
    rcases hp with rfl | rfl <;> exact ⟨by dsimp only; decide, by dsimp only; decide, fun h => absurd h (by dsimp only; decide)⟩
  · rcases List.mem_append.1 hp with hp | hp
    · simp only [List.mem_cons, List.not_mem_nil, or_false] at hp
      rcases hp with rfl | rfl | rfl <;> exact ⟨by dsimp only; decide, by dsimp only; decide, fun h => absurd h (by dsimp only; decide)⟩
    · split at hp
      · rw [List.mem_singleton] at hp; subst hp
        exact ⟨by dsimp only; decide, by dsimp only; decide, fun h => absurd h (by dsimp only; decide)⟩
      · cases hp
  · split at hit
    · rw [List.mem_singleton] at hit
      subst hit
      rw [List.mem_singleton] at hp; subst hp
      exact ⟨by dsimp only; decide, by dsimp only; decide, fun h => absurd h (by dsimp only; decide)⟩
    · cases hit
  · rw [List.mem_singleton] at hp; subst hp
    dsimp only
    cases o.linearRunoff
    · exact ⟨by decide, by decide, fun _ => rfl⟩
    · exact ⟨by decide, by decide, fun h => absurd h (by decide)⟩

section
variable {cs cs' : List PyCover} (h : Spec.GoodCovers cs) (hsub : cs'.Sublist cs) {o : SocontOpts} (ho : Spec.GoodSnow o.snow)
  (hr : o.snow.refreezing ≠ none → o.snow.melt = "melt:degree_day")
  {gl : List PyCover} (hgl : ∀ c ∈ cs', c.kind = "glacier" → c ∈ gl) {S : Bool}
  {soil : PyCover} (hsoil : soil ∈ cs') (honly : ∀ c ∈ cs', c.kind ≠ "glacier" → c = soil) (hice : gl ≠ [] → o.snow.melt ≠ "melt:cemaneige")
include h hsub ho hr hgl hsoil honly hice

theorem socontVariant_ready : Whole (socontVariant o cs' gl S soil.name) ∧ Fits (Spec.socontChoices o) (socontVariant o cs' gl S soil.name) := by
  have hcases : ∀ it ∈ (socontVariant o cs' gl S soil.name).items, (∃ n, it = gsmCover o.snow.melt n) ∨ (∃ n, it = gsmStore n) ∨ it ∈ socontSoil o soil.name := by
    intro it hit
    unfold socontVariant at hit
    rcases List.mem_append.1 hit with hit | hit
    · rcases List.mem_append.1 hit with hit | hit
      · obtain ⟨n, -, rfl⟩ := List.mem_map.1 hit
        exact .inl ⟨n, rfl⟩
      · split at hit
        · simp only [gsmStores, List.mem_cons, List.not_mem_nil, or_false] at hit
          rcases hit with rfl | rfl <;> exact .inr (.inl ⟨_, rfl⟩)
        · cases hit
    · exact .inr (.inr hit)
  have hfine : ∀ it ∈ (socontVariant o cs' gl S soil.name).items, ItemFine o.snow.melt it := by
    intro it hit
    rcases hcases it hit with ⟨n, rfl⟩ | ⟨n, rfl⟩ | hit
    · exact gsmCover_fine n
    · exact gsmStore_fine _ n
    · exact socontSoil_fine o soil.name it hit
  have hg : CoversAre (socontVariant o cs' gl S soil.name).base cs' := snowArgs_covers _ _
  constructor
  · refine whole_of ho.melt (docSnow_of ho hr _) (fun _ => defaultSplitter_known _) ?_ hfine ?_ ?_ ?_
    · obtain ⟨c, hc, -⟩ := mem_covers hg hsoil
      exact List.ne_nil_of_mem hc
    · intro it hit p hp hc
      exfalso
      rcases hcases it hit with ⟨n, rfl⟩ | ⟨n, rfl⟩ | hit
      · simp only [gsmCover, List.mem_cons, List.not_mem_nil, or_false] at hp
        rcases hp with rfl | rfl
        · exact absurd hc (by decide)
        · have := ho.melt
          change o.snow.melt = _ at hc
          rw [hc] at this
          exact absurd this (by decide)
      · simp only [gsmStore, List.mem_singleton] at hp
        subst hp
        exact absurd hc (by decide)
      · exact (socontSoil_cap hit hp).1 hc
    · refine covered_of h hsub hg ho.melt ?_ ?_
      · intro p hp hk
        rw [honly p hp hk]
        refine ⟨_, List.mem_append_right _ (List.mem_append_left _ (List.mem_append_left _ (List.mem_cons_self ..))), rfl, rfl, _, List.mem_cons_self .., ?_⟩
        decide
      · intro p hp hk
        have hm := hgl p hp hk
        refine ⟨hice (List.ne_nil_of_mem hm), List.mem_append_left _ (List.mem_append_left _ (List.mem_map.2 ⟨_, List.mem_map.2 ⟨p, hm, rfl⟩, rfl⟩))⟩
    · intro it hit hpl j k p p' hj hk hd hne
      rcases hcases it hit with ⟨n, rfl⟩ | ⟨n, rfl⟩ | hit
      · exact gsm_alone ho.melt hj hk hd hne
      · cases hpl
      · exact absurd hd (socontSoil_cap hit (List.mem_of_getElem? hj)).2.1
  · refine fits_of hfine (fun _ => ⟨rfl, rfl, rfl⟩) (fun _ => ⟨rfl, rfl⟩) ?_ (fun _ hne => .inr hne)
    rintro ⟨it, hit, p, hp, hk⟩
    rcases hcases it hit with ⟨n, rfl⟩ | ⟨n, rfl⟩ | hit
    · simp only [gsmCover, List.mem_cons, List.not_mem_nil, or_false] at hp
      rcases hp with rfl | rfl
      · exact absurd hk (by decide)
      · have := ho.melt
        change o.snow.melt = _ at hk
        rw [hk] at this
        exact absurd this (by decide)
    · simp only [gsmStore, List.mem_singleton] at hp
      subst hp
      exact absurd hk (by decide)
    · exact .inl ((socontSoil_cap hit hp).2.2 hk)

end

theorem socont_ready {cs : List PyCover} (h : Spec.GoodCovers cs) {o : SocontOpts} (ho : Spec.GoodSnow o.snow)
    (hr : o.snow.refreezing ≠ none → o.snow.melt = "melt:degree_day") {soil : PyCover} (hone : cs.filter (fun c => c.kind != "glacier") = [soil])
    (hice : Spec.IceMelts o.snow.melt cs) : ∀ v ∈ socont o cs, Whole v ∧ Fits (Spec.socontChoices o) v := by
  have hm : soil ∈ cs.filter (fun c => c.kind != "glacier") := by rw [hone]; exact List.mem_cons_self ..
  obtain ⟨hs, hsk⟩ := List.mem_filter.1 hm
  have hsk' : soil.kind ≠ "glacier" := by simpa using hsk
  have he : soilCover cs = soil.name := by unfold soilCover; rw [hone]; rfl
  have honly : ∀ c ∈ cs, c.kind ≠ "glacier" → c = soil := by
    intro c hc hk
    have : c ∈ cs.filter (fun c => c.kind != "glacier") := List.mem_filter.2 ⟨hc, by simpa using hk⟩
    rwa [hone, List.mem_singleton] at this
  rw [socont_variants h o hs hsk' he]
  intro v hv
  split at hv
  · rename_i hg
    rw [List.mem_singleton] at hv
    subst hv
    refine socontVariant_ready h (List.Sublist.refl _) ho hr ?_ hs honly (fun hne => absurd rfl hne)
    intro c hc hk
    have := glacier_mem.2 ⟨hc, hk⟩
    rw [hg] at this
    exact this
  · simp only [List.mem_cons, List.not_mem_nil, or_false] at hv
    rcases hv with rfl | rfl
    · refine socontVariant_ready h List.filter_sublist ho hr ?_ hm (fun c hc => honly c (List.mem_of_mem_filter hc)) (fun hne => absurd rfl hne)
      intro c hc hk
      have := (List.mem_filter.1 hc).2
      exact absurd hk (by simpa using this)
    · refine socontVariant_ready h (List.Sublist.refl _) ho hr (fun c hc hk => glacier_mem.2 ⟨hc, hk⟩) hs honly fun hne => ?_
      obtain ⟨c, hc⟩ := List.exists_mem_of_ne_nil _ hne
      exact hice ⟨c, glacier_mem.1 hc⟩

/-! ## HBV-96 -/

theorem hbvCore_cases {o : HbvOpts} {cs : List PyCover} {it : Item} (hit : it ∈ hbvCore o cs) : (∃ n ∈ hbvSoilCovers cs, it = hbvCover o cs n) ∨
    it ∈ hbvResponse o cs ∨ (∃ s ∈ hbvSoils o cs, it = hbvSoilStore s) ∨ it = hbvRouting := by
  unfold hbvCore at hit
  simp only [List.mem_append, List.mem_singleton, List.mem_map] at hit
  rcases hit with ⟨n, hn, rfl⟩ | hit | ⟨s, hs, rfl⟩ | rfl
  · exact .inl ⟨n, hn, rfl⟩
  · exact .inr (.inl hit)
  · exact .inr (.inr (.inl ⟨s, hs, rfl⟩))
  · exact .inr (.inr (.inr rfl))

theorem hbvCore_fine {o : HbvOpts} {cs : List PyCover} {it : Item} (hit : it ∈ hbvCore o cs) : ItemFine o.snow.melt it ∧
    ∀ p ∈ it.procs, p.kind ≠ "outflow:direct" ∧ p.kind ≠ "runoff:socont" ∧ (p.kind = "capillary:hbv" → p.targets = hbvSoils o cs) := by
  rcases hbvCore_cases hit with ⟨n, -, rfl⟩ | hit | ⟨s, -, rfl⟩ | rfl
  · refine ⟨⟨fun p hp => .inl ?_, fun p hp _ _ => ?_, fun h => absurd rfl h, fun h => by cases h⟩, fun p hp => ?_⟩ <;>
      (simp only [hbvCover, List.mem_cons, List.not_mem_nil, or_false] at hp; rcases hp with rfl | rfl)
    · dsimp only; decide
    · decide
    · rfl
    · rfl
    all_goals exact ⟨by dsimp only; decide, by dsimp only; decide, fun h => absurd h (by dsimp only; decide)⟩
  · simp only [hbvResponse, List.mem_cons, List.not_mem_nil, or_false] at hit
    rcases hit with rfl | rfl
    · refine ⟨⟨fun p hp => .inl ?_, fun p hp _ hc => ?_, fun _ => ⟨by simp, fun p hp => ?_⟩, fun h => by cases h⟩, fun p hp => ?_⟩ <;>
        (simp only [List.mem_cons, List.not_mem_nil, or_false] at hp; rcases hp with rfl | rfl | rfl)
      · dsimp only; decide
      · decide
      · decide
      · exact absurd rfl hc
      · rfl
      · rfl
      · dsimp only; decide
      · dsimp only; decide
      · dsimp only; decide
      · exact ⟨by dsimp only; decide, by dsimp only; decide, fun _ => rfl⟩
      all_goals exact ⟨by dsimp only; decide, by dsimp only; decide, fun h => absurd h (by dsimp only; decide)⟩
    · refine ⟨⟨fun p hp => .inl ?_, fun p hp _ hc => ?_, fun _ => ⟨by simp, fun p hp => ?_⟩, fun h => by cases h⟩, fun p hp => ?_⟩ <;>
        (rw [List.mem_singleton] at hp; subst hp)
      · decide
      · rfl
      · dsimp only; decide
      · exact ⟨by dsimp only; decide, by dsimp only; decide, fun h => absurd h (by dsimp only; decide)⟩
  · refine ⟨⟨fun p hp => .inl ?_, fun p hp ha _ => ?_, fun _ => ⟨List.cons_ne_nil _ _, fun p hp => ?_⟩, fun h => by cases h⟩, fun p hp => ?_⟩ <;>
      (simp only [hbvSoilStore, List.mem_cons, List.not_mem_nil, or_false] at hp; rcases hp with rfl | rfl)
    · decide
    · decide
    · exact absurd ha (by dsimp only; decide)
    · rfl
    · dsimp only; decide
    · dsimp only; decide
    all_goals exact ⟨by dsimp only; decide, by dsimp only; decide, fun h => absurd h (by dsimp only; decide)⟩
  · refine ⟨⟨fun p hp => .inl ?_, fun p hp _ _ => ?_, fun _ => ⟨List.cons_ne_nil _ _, fun p hp => ?_⟩, fun h => by cases h⟩, fun p hp => ?_⟩ <;>
      (simp only [hbvRouting, List.mem_singleton] at hp; subst hp)
    · decide
    · rfl
    · dsimp only; decide
    · exact ⟨by dsimp only; decide, by dsimp only; decide, fun h => absurd h (by dsimp only; decide)⟩

/-- Each soil store is fed by a cover. -/
theorem hbvSoils_fed {o : HbvOpts} {cs : List PyCover} {s : String} (hs : s ∈ hbvSoils o cs) : ∃ n ∈ hbvSoilCovers cs, hbvSoil o cs n = s := by
  unfold hbvSoils at hs
  unfold hbvSoil
  split at hs
  · rename_i hsh
    split at hs
    · cases hs
    · rename_i hne
      rw [List.mem_singleton] at hs
      obtain ⟨n, hn⟩ := List.exists_mem_of_ne_nil _ hne
      exact ⟨n, hn, by rw [if_pos hsh, hs]⟩
  · rename_i hsh
    obtain ⟨n, hn, rfl⟩ := List.mem_map.1 hs
    exact ⟨n, hn, by rw [if_neg hsh]⟩

section
variable {cs cs' : List PyCover} (h : Spec.GoodCovers cs) (hsub : cs'.Sublist cs) {o : HbvOpts} (ho : Spec.GoodSnow o.snow)
  (hr : o.snow.refreezing ≠ none → o.snow.melt = "melt:degree_day") {gl : List PyCover} (hgl : ∀ c ∈ cs', c.kind = "glacier" → c ∈ gl) {S : Bool}
  (hdry : ∀ c ∈ cs', c.kind ≠ "lake") (hsne : soilsOf cs ≠ []) (hsoil : ∀ c ∈ soilsOf cs, c ∈ cs')
  (hice : gl ≠ [] → o.snow.melt ≠ "melt:cemaneige")
include h hsub ho hr hgl hdry hsne hsoil hice

theorem hbvVariant_ready : Whole (hbvVariant o cs cs' gl S) ∧ Fits (Spec.hbvChoices o) (hbvVariant o cs cs' gl S) := by
  have hcases : ∀ it ∈ (hbvVariant o cs cs' gl S).items, it ∈ hbvCore o cs ∨ (∃ n, it = gsmCover o.snow.melt n) ∨ (∃ n, it = gsmStore n) := by
    intro it hit
    unfold hbvVariant at hit
    rcases List.mem_append.1 hit with hit | hit
    · exact .inl hit
    · rcases List.mem_append.1 hit with hit | hit
      · obtain ⟨n, -, rfl⟩ := List.mem_map.1 hit
        exact .inr (.inl ⟨n, rfl⟩)
      · split at hit
        · simp only [gsmStores, List.mem_cons, List.not_mem_nil, or_false] at hit
          rcases hit with rfl | rfl <;> exact .inr (.inr ⟨_, rfl⟩)
        · cases hit
  have hfine : ∀ it ∈ (hbvVariant o cs cs' gl S).items, ItemFine o.snow.melt it := by
    intro it hit
    rcases hcases it hit with hit | ⟨n, rfl⟩ | ⟨n, rfl⟩
    · exact (hbvCore_fine hit).1
    · exact gsmCover_fine n
    · exact gsmStore_fine _ n
  have hmelt : ∀ k, k ∉ Spec.meltKinds → ∀ n, ∀ p ∈ (gsmCover o.snow.melt n).procs, p.kind = k → k = "outflow:direct" := by
    intro k hk n p hp he
    simp only [gsmCover, List.mem_cons, List.not_mem_nil, or_false] at hp
    rcases hp with rfl | rfl
    · exact he.symm
    · change o.snow.melt = k at he
      exact absurd (he ▸ ho.melt) hk
  have hstore : ∀ n, ∀ p ∈ (gsmStore n).procs, p.kind = "outflow:linear" := by
    intro n p hp
    simp only [gsmStore, List.mem_singleton] at hp
    subst hp; rfl
  have hg : CoversAre (hbvVariant o cs cs' gl S).base cs' := snowArgs_covers _ _
  constructor
  · refine whole_of ho.melt (docSnow_of ho hr _) (fun _ => defaultSplitter_known _) ?_ hfine ?_ ?_ ?_
    · obtain ⟨c, hc⟩ := List.exists_mem_of_ne_nil _ hsne
      obtain ⟨c', hc', -⟩ := mem_covers hg (hsoil c hc)
      exact List.ne_nil_of_mem hc'
    · intro it hit p hp hc
      rcases hcases it hit with hit | ⟨n, rfl⟩ | ⟨n, rfl⟩
      · have ht := ((hbvCore_fine hit).2 p hp).2.2 hc
        rw [ht]
        constructor
        · obtain ⟨c, hc⟩ := List.exists_mem_of_ne_nil _ hsne
          have : c.name ∈ hbvSoilCovers cs := by rw [hbvSoilCovers_eq]; exact List.mem_map.2 ⟨c, hc, rfl⟩
          exact List.ne_nil_of_mem (hbvSoil_mem (o := o) this)
        · intro t ht
          obtain ⟨n, hn, rfl⟩ := hbvSoils_fed ht
          refine ⟨hbvCover o cs n, List.mem_append_left _ ?_, rfl, _, List.mem_cons_self .., List.mem_singleton.2 rfl⟩
          unfold hbvCore
          exact List.mem_append_left _ (List.mem_map.2 ⟨n, hn, rfl⟩)
      · exact absurd (hmelt _ (by decide) n p hp hc) (by decide)
      · rw [hstore n p hp] at hc
        exact absurd hc (by decide)
    · refine covered_of h hsub hg ho.melt ?_ ?_
      · intro p hp hk
        have hn : p.name ∈ hbvSoilCovers cs := by
          rw [hbvSoilCovers_eq]
          exact List.mem_map.2 ⟨p, soil_mem.2 ⟨hsub.subset hp, hdry p hp, hk⟩, rfl⟩
        refine ⟨hbvCover o cs p.name, List.mem_append_left _ ?_, rfl, rfl, _, List.mem_cons_self .., by dsimp only; decide⟩
        unfold hbvCore
        exact List.mem_append_left _ (List.mem_map.2 ⟨_, hn, rfl⟩)
      · intro p hp hk
        have hm := hgl p hp hk
        refine ⟨hice (List.ne_nil_of_mem hm), List.mem_append_right _ (List.mem_append_left _ (List.mem_map.2 ⟨_, List.mem_map.2 ⟨p, hm, rfl⟩, rfl⟩))⟩
    · intro it hit hpl j k p p' hj hk hd hne
      rcases hcases it hit with hit | ⟨n, rfl⟩ | ⟨n, rfl⟩
      · exact absurd hd ((hbvCore_fine hit).2 p (List.mem_of_getElem? hj)).1
      · exact gsm_alone ho.melt hj hk hd hne
      · cases hpl
  · refine fits_of hfine (fun _ => ⟨rfl, rfl, rfl⟩) (fun _ => ⟨rfl, rfl⟩) ?_ (fun _ hne => hne)
    rintro ⟨it, hit, p, hp, hk⟩
    rcases hcases it hit with hit | ⟨n, rfl⟩ | ⟨n, rfl⟩
    · exact absurd hk ((hbvCore_fine hit).2 p hp).2.1
    · exact absurd (hmelt _ (by decide) n p hp hk) (by decide)
    · rw [hstore n p hp] at hk
      exact absurd hk (by decide)

end

theorem hbvLakes_ready {cs lk : List PyCover} (h : Spec.GoodCovers cs) (hsub : lk.Sublist cs) (hlk : ∀ c ∈ lk, c.kind = "lake") (hne : lk ≠ [])
    {o : HbvOpts} (ho : Spec.GoodSnow o.snow) : Whole (hbvLakes o lk) ∧ Fits (Spec.hbvChoices o) (hbvLakes o lk) := by
  have hfine : ∀ it ∈ (hbvLakes o lk).items, ItemFine "melt:degree_day" it ∧ (it.place = .cover → it.procs.length = 1) ∧
      ∀ p ∈ it.procs, p.kind ∈ ["outflow:direct", "et:open_water", "outflow:linear"] := by
    intro it hit
    obtain ⟨c, -, rfl | rfl⟩ := lake_item hit
    · refine ⟨⟨fun p hp => .inl ?_, fun p hp _ _ => ?_, fun h => absurd rfl h, fun h => by cases h⟩, fun _ => rfl, fun p hp => ?_⟩ <;>
        (rw [List.mem_singleton] at hp; subst hp)
      · dsimp only; decide
      · rfl
      · dsimp only; decide
    · refine ⟨⟨fun p hp => .inl ?_, fun p hp ha _ => ?_, fun _ => ⟨List.cons_ne_nil _ _, fun p hp => ?_⟩, fun h => by cases h⟩, (fun h => by cases h), fun p hp => ?_⟩ <;>
        (simp only [lakeStore, List.mem_cons, List.not_mem_nil, or_false] at hp; rcases hp with rfl | rfl)
      · decide
      · decide
      · exact absurd ha (by dsimp only; decide)
      · rfl
      all_goals (dsimp only; decide)
  have hg : CoversAre (hbvLakes o lk).base lk := ⟨_, rfl⟩
  have key : ∀ k ∈ ["outflow:direct", "et:open_water", "outflow:linear"], k ≠ "capillary:hbv" ∧ k ≠ "melt:degree_day" ∧ k ≠ "runoff:socont" := by decide
  constructor
  · refine whole_of (melt := "melt:degree_day") (by decide) ⟨?_, ?_, ?_, ?_, ho.snowIce, ho.redistribution, ?_⟩ (fun hc => by cases hc) ?_ (fun it hit => (hfine it hit).1)
      ?_ ?_ ?_
    · change "melt:degree_day" ∈ _; decide
    · exact List.mem_cons_self ..
    · exact List.mem_cons_self ..
    · intro hc; exact absurd rfl hc
    · exact List.mem_cons_self ..
    · change lk.map _ ≠ []
      simpa using hne
    · intro it hit p hp hc
      exact absurd hc (key _ ((hfine it hit).2.2 p hp)).1
    · refine covered_of h hsub hg (melt := "melt:degree_day") (by decide) ?_ ?_
      · intro p hp _
        refine ⟨_, List.mem_flatMap.2 ⟨p.name, List.mem_map.2 ⟨p, hp, rfl⟩, List.mem_cons_self ..⟩, rfl, rfl, _, List.mem_cons_self .., by dsimp only; decide⟩
      · intro p hp hk
        rw [hlk p hp] at hk
        exact absurd hk (by decide)
    · intro it hit hpl j k p p' hj hk _ hjk
      have hl := (hfine it hit).2.1 hpl
      have h1 := (List.getElem?_eq_some_iff.1 hj).1
      have h2 := (List.getElem?_eq_some_iff.1 hk).1
      omega
  · refine fits_of (fun it hit => (hfine it hit).1) (fun hc => by cases hc) ?_ ?_ (fun hc => by cases hc)
    · rintro ⟨it, hit, p, hp, hk⟩
      exact absurd hk (key _ ((hfine it hit).2.2 p hp)).2.1
    · rintro ⟨it, hit, p, hp, hk⟩
      exact absurd hk (key _ ((hfine it hit).2.2 p hp)).2.2

theorem hbv_ready {cs : List PyCover} (h : Spec.GoodCovers cs) {o : HbvOpts} (ho : Spec.GoodSnow o.snow)
    (hr : o.snow.refreezing ≠ none → o.snow.melt = "melt:degree_day") (hsoil : ∃ c ∈ cs, c.kind ≠ "lake" ∧ c.kind ≠ "glacier")
    (hice : Spec.IceMelts o.snow.melt cs) : ∀ v ∈ hbv96 o cs, Whole v ∧ Fits (Spec.hbvChoices o) v := by
  obtain ⟨c0, hc0, hk0⟩ := hsoil
  have hsne : soilsOf cs ≠ [] := List.ne_nil_of_mem (soil_mem.2 ⟨hc0, hk0⟩)
  rw [hbv_variants h o hsne]
  have hdry : (dryOf cs).Sublist cs := List.filter_sublist
  have hsd : ∀ c ∈ soilsOf cs, c ∈ dryOf cs := fun c hc => dry_mem.2 ⟨(soil_mem.1 hc).1, (soil_mem.1 hc).2.1⟩
  intro v hv
  rcases List.mem_append.1 hv with hv | hv
  · split at hv
    · rename_i hg
      rw [List.mem_singleton] at hv
      subst hv
      refine hbvVariant_ready h hdry ho hr ?_ (fun c hc => (dry_mem.1 hc).2) hsne hsd (fun hne => absurd rfl hne)
      intro c hc hk
      have := glacier_mem.2 ⟨(dry_mem.1 hc).1, hk⟩
      rw [hg] at this
      exact this
    · simp only [List.mem_cons, List.not_mem_nil, or_false] at hv
      rcases hv with rfl | rfl
      · refine hbvVariant_ready h (List.filter_sublist.trans hdry) ho hr ?_ (fun c hc => (dry_mem.1 (List.mem_of_mem_filter hc)).2) hsne ?_ (fun hne => absurd rfl hne)
        · intro c hc hk
          have := (List.mem_filter.1 hc).2
          exact absurd hk (by simpa using this)
        · intro c hc
          exact List.mem_filter.2 ⟨hsd c hc, by simpa using (soil_mem.1 hc).2.2⟩
      · refine hbvVariant_ready h hdry ho hr (fun c hc hk => glacier_mem.2 ⟨(dry_mem.1 hc).1, hk⟩) (fun c hc => (dry_mem.1 hc).2) hsne hsd fun hne => ?_
        obtain ⟨c, hc⟩ := List.exists_mem_of_ne_nil _ hne
        exact hice ⟨c, glacier_mem.1 hc⟩
  · split at hv
    · cases hv
    · rename_i hl
      rw [List.mem_singleton] at hv
      subst hv
      exact hbvLakes_ready h List.filter_sublist (fun c hc => (lake_mem.1 hc).2) hl ho

/-! ## GR4J and GR6J -/

theorem gr_ready {c : PyCover} (h : Spec.GoodCovers [c]) (hk : c.kind ≠ "glacier") {o : GrOpts} (ho : Spec.GoodGr o)
    (hsr : ∀ s ∈ o.snowRain, s ∈ ["snow_rain:threshold", "snow_rain:linear", "snow_rain:cemaneige"]) :
    ∀ v ∈ gr o [c], Whole v ∧ Fits (Spec.grChoices o) v := by
  intro v hv
  change v ∈ [_] at hv
  rw [List.mem_singleton] at hv
  subst hv
  have hnames : ∀ k ∈ ["interception:gr4j", "outflow:rest", "infiltration:gr4j", "production:gr4j", "percolation:gr4j", "et:gr4j", "routing:gr4j", "routing:gr6j"],
      k ∈ waterNames ∧ k ≠ "capillary:hbv" ∧ k ≠ "outflow:direct" ∧ k ≠ "melt:degree_day" ∧ k ≠ "runoff:socont" := by decide
  have hitems : ∀ it ∈ grItems o c.name, it.place ≠ .basin ∧ it.procs ≠ [] ∧ ∀ p ∈ it.procs,
      p.kind ∈ ["interception:gr4j", "outflow:rest", "infiltration:gr4j", "production:gr4j", "percolation:gr4j", "et:gr4j", "routing:gr4j", "routing:gr6j"] ∧
      (p.kind ∉ Spec.atmosphereNames → p.targets.length = 1) := by
    intro it hit
    rcases gr_items hit with rfl | ⟨-, rfl⟩ | rfl | rfl
    · refine ⟨by dsimp only; decide, by simp, fun p hp => ?_⟩
      simp only [List.mem_cons, List.not_mem_nil, or_false] at hp
      rcases hp with rfl | rfl
      · exact ⟨by dsimp only; decide, fun h => absurd h (by dsimp only; decide)⟩
      · exact ⟨by dsimp only; decide, fun _ => rfl⟩
    · refine ⟨by change Place.unit ≠ _; decide, by simp [grSoil], fun p hp => ?_⟩
      simp only [grSoil, List.mem_cons, List.not_mem_nil, or_false] at hp
      rcases hp with rfl | rfl <;> exact ⟨by dsimp only; decide, fun _ => rfl⟩
    · cases o.discrete
      · refine ⟨by change Place.unit ≠ _; decide, by simp [grStore], fun p hp => ?_⟩
        simp only [grStore, Bool.false_eq_true, if_false, List.mem_cons, List.not_mem_nil, or_false] at hp
        rcases hp with rfl | rfl
        · exact ⟨by dsimp only; decide, fun _ => rfl⟩
        · exact ⟨by dsimp only; decide, fun h => absurd h (by dsimp only; decide)⟩
      · refine ⟨by change Place.unit ≠ _; decide, by simp [grStore], fun p hp => ?_⟩
        simp only [grStore, if_true, List.mem_cons, List.not_mem_nil, or_false] at hp
        rcases hp with rfl | rfl
        · exact ⟨by dsimp only; decide, fun _ => rfl⟩
        · exact ⟨by dsimp only; decide, fun h => absurd h (by dsimp only; decide)⟩
    · refine ⟨by change Place.unit ≠ _; decide, by simp [grRouting], fun p hp => ?_⟩
      simp only [grRouting, List.mem_singleton] at hp
      subst hp
      refine ⟨?_, fun _ => rfl⟩
      dsimp only
      cases o.six <;> decide
  have hfine : ∀ it ∈ grItems o c.name, ItemFine "melt:degree_day" it := fun it hit =>
    ⟨fun p hp => .inl (hnames _ ((hitems it hit).2.2 p hp).1).1, fun p hp ha _ => ((hitems it hit).2.2 p hp).2 ha,
      fun _ => ⟨(hitems it hit).2.1, fun p hp => (hnames _ ((hitems it hit).2.2 p hp).1).2.2.1⟩, fun hb => absurd hb (hitems it hit).1⟩
  have hg : CoversAre (grArgs o [c]) [c] := ⟨_, rfl⟩
  have hsplit : (grArgs o [c]).splitter = o.snowRain.getD (defaultSplitter (o.melt.getD "melt:degree_day")) := by
    unfold grArgs
    cases o.snowRain <;> rfl
  constructor
  · refine whole_of (melt := "melt:degree_day") (by decide) ⟨?_, ?_, ?_, ?_, ?_, ho.redistribution, ho.sublimation⟩ ?_ ?_ hfine ?_ ?_ ?_
    · change o.melt.getD "melt:degree_day" ∈ _
      cases hm : o.melt with
      | none => rw [Option.getD_none]; decide
      | some m => exact ho.melt m (by rw [hm]; rfl)
    · exact List.mem_cons_self ..
    · exact List.mem_cons_self ..
    · intro hc; exact absurd rfl hc
    · exact List.mem_cons_self ..
    · intro _
      change (grArgs o [c]).splitter ∈ _
      rw [hsplit]
      cases hs : o.snowRain with
      | none => exact defaultSplitter_known _
      | some s => exact hsr s (by rw [hs]; rfl)
    · exact List.cons_ne_nil _ _
    · intro it hit p hp hc
      exact absurd hc (hnames _ ((hitems it hit).2.2 p hp).1).2.1
    · refine covered_of h (List.Sublist.refl _) hg (melt := "melt:degree_day") (by decide) ?_ ?_
      · intro p hp _
        rw [List.mem_singleton] at hp
        subst hp
        exact ⟨_, List.mem_cons_self .., rfl, rfl, _, List.mem_cons_self .., by dsimp only; decide⟩
      · intro p hp hk'
        rw [List.mem_singleton] at hp
        subst hp
        exact absurd hk' hk
    · intro it hit _ j k p p' hj _ hd
      exact absurd hd (hnames _ ((hitems it hit).2.2 p (List.mem_of_getElem? hj)).1).2.2.1
  · refine fits_of hfine (fun hs => ⟨hs, rfl, hsplit⟩) ?_ ?_ (fun _ hne => hne)
    · rintro ⟨it, hit, p, hp, hk'⟩
      exact absurd hk' (hnames _ ((hitems it hit).2.2 p hp).1).2.2.2.1
    · rintro ⟨it, hit, p, hp, hk'⟩
      exact absurd hk' (hnames _ ((hitems it hit).2.2 p hp).1).2.2.2.2

end HB.Wire
