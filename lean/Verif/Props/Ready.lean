import Verif.Model.PredefinedReady4
import Verif.Props.PredefinedExamples

/-!
# C65: the predefined models initialise, and no step follows a null pointer, when the documented data are given
-/

set_option linter.unusedSectionVars false

namespace HB

open HB.Names HB.Wire

variable {K : Type} [Field K] [LinearOrder K]

/-- **C65 (Socont).**  With one land cover besides glaciers, documented options, the area and properties asked for given for each
unit and the series asked for loaded, the model initialises and no component follows a null pointer in a step. -/
theorem c65_socont_ready {cs : List PyCover} (h : Spec.GoodCovers cs) {o : SocontOpts} (ho : Spec.GoodSnow o.snow)
    (hr : o.snow.refreezing ≠ none → o.snow.melt = "melt:degree_day") (hone : (cs.filter fun c => c.kind != "glacier").length = 1)
    (hice : Spec.IceMelts o.snow.melt cs) {xi : InputX K} (hm : Spec.SetUp (socont o cs) xi)
    (hl : o.snow.redistribution ≠ none → Spec.LateralGiven xi.base)
    (hx : ∀ u un, xi.base.units[u]? = some un → Spec.Surveyed (Spec.socontChoices o) un (xi.ext u)) {loaded : List Var}
    (hs : Spec.SeriesGiven (Spec.socontChoices o) xi loaded) : Spec.Ready xi loaded := by
  obtain ⟨soil, hsoil⟩ := List.length_eq_one_iff.1 hone
  have hmem : soil ∈ cs.filter fun c => c.kind != "glacier" := by rw [hsoil]; exact List.mem_cons_self ..
  obtain ⟨h1, h2⟩ := List.mem_filter.1 hmem
  obtain ⟨hg, hx'⟩ := socont_good h ho ⟨soil, h1, by simpa using h2⟩ hice
  have hR := socont_ready h ho hr hsoil hice
  exact model_ready hg (fun v hv => (hR v hv).1) (fun v hv => (hR v hv).2) hm (fun ⟨v, hv, hne⟩ => hl (by rw [← (hx' v hv).2]; exact hne)) hx hs

/-- **C65 (HBV-96).**  With at least one soil-bearing cover, and any number of further ones, lakes and glaciers. -/
theorem c65_hbv_ready {cs : List PyCover} (h : Spec.GoodCovers cs) {o : HbvOpts} (ho : Spec.GoodSnow o.snow)
    (hr : o.snow.refreezing ≠ none → o.snow.melt = "melt:degree_day") (hsoil : ∃ c ∈ cs, c.kind ≠ "lake" ∧ c.kind ≠ "glacier")
    (hice : Spec.IceMelts o.snow.melt cs) {xi : InputX K} (hm : Spec.SetUp (hbv96 o cs) xi)
    (hl : o.snow.redistribution ≠ none → Spec.LateralGiven xi.base)
    (hx : ∀ u un, xi.base.units[u]? = some un → Spec.Surveyed (Spec.hbvChoices o) un (xi.ext u)) {loaded : List Var}
    (hs : Spec.SeriesGiven (Spec.hbvChoices o) xi loaded) : Spec.Ready xi loaded := by
  obtain ⟨hg, hx'⟩ := hbv_good h ho hsoil hice
  have hR := hbv_ready h ho hr hsoil hice
  exact model_ready hg (fun v hv => (hR v hv).1) (fun v hv => (hR v hv).2) hm (fun ⟨v, hv, hne⟩ => hl (by rw [← (hx' v hv).2]; exact hne)) hx hs

/-- **C65 (GR4J and GR6J).**  With one land cover that is no glacier. -/
theorem c65_gr_ready {c : PyCover} (h : Spec.GoodCovers [c]) (hk : c.kind ≠ "glacier") {o : GrOpts} (ho : Spec.GoodGr o)
    (hsr : ∀ s ∈ o.snowRain, s ∈ ["snow_rain:threshold", "snow_rain:linear", "snow_rain:cemaneige"]) {xi : InputX K}
    (hm : Spec.SetUp (gr o [c]) xi) (hl : o.redistribution ≠ none → Spec.LateralGiven xi.base)
    (hx : ∀ u un, xi.base.units[u]? = some un → Spec.Surveyed (Spec.grChoices o) un (xi.ext u)) {loaded : List Var}
    (hs : Spec.SeriesGiven (Spec.grChoices o) xi loaded) : Spec.Ready xi loaded := by
  obtain ⟨hg, hx'⟩ := gr_good h ho
  have hR := gr_ready h hk ho hsr
  exact model_ready hg (fun v hv => (hR v hv).1) (fun v hv => (hR v hv).2) hm (fun ⟨v, hv, hne⟩ => hl (by rw [← (hx' v hv).1]; exact hne)) hx hs

/-! ## What is refused -/

/-- A cover without an entry has no process: the model is refused. -/
theorem Wire.unlisted_refused {vs : List Variant} {bas : List String} (h : GoodModel vs bas) {xi : InputX K} (hm : Spec.SetUp vs xi)
    (hl : (∃ v ∈ vs, v.base.redistribution ≠ none) → Spec.LateralGiven xi.base)
    (hbad : ∀ v ∈ vs, ∃ c ∈ v.base.covers, ∀ it ∈ v.items, it.place = .cover → it.key ≠ c.name) : ¬ ∃ r, prepare xi = .ok r := by
  intro hok
  have hd := described h hm.from hl
  have hC := ((c62_accepts_iff (described_distinct hd)).1 hok).2
  obtain ⟨un, hun⟩ := List.exists_mem_of_ne_nil _ hm.exists_unit
  obtain ⟨u, hu⟩ := List.mem_iff_getElem?.1 hun
  obtain ⟨v, hv, a, h1, h2, -⟩ := hm.units u un hu
  have hg := h.good v hv
  obtain ⟨c, hc, hno⟩ := hbad v hv
  obtain ⟨i, hi⟩ := List.mem_iff_getElem?.1 hc
  have hb := cover_get (v := v) hi
  have hs : un.str = Spec.complete v := by rw [h2, generated hg h1]
  obtain ⟨p, hp, -⟩ := ((hC.units u un hu).bricks _ (by rw [hs]; exact List.mem_of_getElem? hb)).used
  have hp' : p ∈ Spec.listedFor v.items c.name := by simpa [Spec.fill, Spec.coverBrick] using hp
  obtain ⟨it, hit, hpl, hkey, -⟩ := listed_cover hg hp'
  exact hno it hit hpl hkey

/-- **Finding (documented limit, not checked).**  Socont with two land covers besides glaciers is never accepted: the second one
gets no process, and initialisation fails with "has no process attached". -/
theorem c65_socont_second_cover {cs : List PyCover} (h : Spec.GoodCovers cs) {o : SocontOpts} (ho : Spec.GoodSnow o.snow)
    (hice : Spec.IceMelts o.snow.melt cs) {c c' : PyCover} (hc : c ∈ cs) (hk : c.kind ≠ "glacier") (hc' : c' ∈ cs) (hk' : c'.kind ≠ "glacier")
    (hne : c ≠ c') {xi : InputX K} (hm : Spec.SetUp (socont o cs) xi) (hl : o.snow.redistribution ≠ none → Spec.LateralGiven xi.base) :
    ¬ ∃ r, prepare xi = .ok r := by
  obtain ⟨hg, hx'⟩ := socont_good h ho ⟨c, hc, hk⟩ hice
  refine unlisted_refused hg hm (fun ⟨v, hv, hne⟩ => hl (by rw [← (hx' v hv).2]; exact hne)) ?_
  obtain ⟨soil, hs, hsk, he⟩ := soilCover_of ⟨c, hc, hk⟩
  obtain ⟨d, hd, hdk, hds⟩ : ∃ d ∈ cs, d.kind ≠ "glacier" ∧ d ≠ soil := by
    by_cases hcs : c = soil
    · exact ⟨c', hc', hk', fun he => hne (by rw [hcs, he])⟩
    · exact ⟨c, hc, hk, hcs⟩
  have main : ∀ cs' gl : List PyCover, ∀ S, d ∈ cs' → (∀ g ∈ gl, g ∈ cs ∧ g.kind = "glacier") →
      ∃ c ∈ (socontVariant o cs' gl S soil.name).base.covers, ∀ it ∈ (socontVariant o cs' gl S soil.name).items, it.place = .cover → it.key ≠ c.name := by
    intro cs' gl S hd' hgl
    obtain ⟨x, hx, hxn⟩ := mem_covers (snowArgs_covers o.snow cs') hd'
    refine ⟨x, hx, fun it hit hpl hkey => ?_⟩
    rw [hxn] at hkey
    unfold socontVariant at hit
    rcases List.mem_append.1 hit with hit | hit
    · rcases List.mem_append.1 hit with hit | hit
      · obtain ⟨n, hn, rfl⟩ := List.mem_map.1 hit
        obtain ⟨g, hg', rfl⟩ := List.mem_map.1 hn
        have := name_inj h (hgl g hg').1 hd hkey
        exact hdk (this ▸ (hgl g hg').2)
      · split at hit
        · simp only [gsmStores, List.mem_cons, List.not_mem_nil, or_false] at hit
          rcases hit with rfl | rfl <;> cases hpl
        · cases hit
    · have : it.key = soil.name := by
        unfold socontSoil at hit
        simp only [List.mem_append, List.mem_cons, List.not_mem_nil, or_false] at hit
        rcases hit with ((rfl | rfl) | hit) | rfl
        · rfl
        · cases hpl
        · split at hit
          · rw [List.mem_singleton] at hit; subst hit; cases hpl
          · cases hit
        · cases hpl
      exact hds (name_inj h hd hs (by rw [← hkey, this]))
  rw [socont_variants h o hs hsk he]
  intro v hv
  split at hv
  · rw [List.mem_singleton] at hv
    subst hv
    exact main cs [] false hd (by simp)
  · simp only [List.mem_cons, List.not_mem_nil, or_false] at hv
    rcases hv with rfl | rfl
    · exact main _ [] true (List.mem_filter.2 ⟨hd, by simpa using hdk⟩) (by simp)
    · exact main cs _ true hd (fun g hg' => glacier_mem.1 hg')

/-- **Finding (documented limit, not checked).**  GR4J and GR6J with two land covers are never accepted. -/
theorem c65_gr_second_cover {c c' : PyCover} {cs : List PyCover} (h : Spec.GoodCovers (c :: c' :: cs)) {o : GrOpts} (ho : Spec.GoodGr o)
    {xi : InputX K} (hm : Spec.SetUp (gr o (c :: c' :: cs)) xi) (hl : o.redistribution ≠ none → Spec.LateralGiven xi.base) :
    ¬ ∃ r, prepare xi = .ok r := by
  obtain ⟨hg, hx'⟩ := gr_good h ho
  refine unlisted_refused hg hm (fun ⟨v, hv, hne⟩ => hl (by rw [← (hx' v hv).1]; exact hne)) ?_
  intro v hv
  change v ∈ [_] at hv
  rw [List.mem_singleton] at hv
  subst hv
  refine ⟨c'.toCover false, List.mem_cons_of_mem _ (List.mem_cons_self ..), fun it hit hpl hkey => ?_⟩
  have hne : c.name ≠ c'.name := by
    have := name_nodup h
    rw [List.map_cons, List.nodup_cons] at this
    intro he
    exact this.1 (by rw [he]; exact List.mem_cons_self ..)
  rcases gr_items hit with rfl | ⟨-, rfl⟩ | rfl | rfl
  · exact hne hkey
  · cases hpl
  · unfold grStore at hpl
    split at hpl <;> cases hpl
  · cases hpl

/-- **C65 (what refreezing needs).**  With refreezing but another melt than the degree-day one, Socont is refused. -/
theorem c65_socont_refreeze_refused {cs : List PyCover} (h : Spec.GoodCovers cs) {o : SocontOpts} (ho : Spec.GoodSnow o.snow)
    (hsoil : ∃ c ∈ cs, c.kind ≠ "glacier") (hice : Spec.IceMelts o.snow.melt cs) (hr : o.snow.refreezing ≠ none)
    (hmelt : o.snow.melt ≠ "melt:degree_day") {xi : InputX K} (hm : Spec.SetUp (socont o cs) xi)
    (hl : o.snow.redistribution ≠ none → Spec.LateralGiven xi.base) : ¬ ∃ r, prepare xi = .ok r := by
  intro hok
  obtain ⟨hg, hx'⟩ := socont_good h ho hsoil hice
  have hd := described hg hm.from (fun ⟨v, hv, hne⟩ => hl (by rw [← (hx' v hv).2]; exact hne))
  have hC := ((c62_accepts_iff (described_distinct hd)).1 hok).2
  obtain ⟨un, hun⟩ := List.exists_mem_of_ne_nil _ hm.exists_unit
  obtain ⟨u, hu⟩ := List.mem_iff_getElem?.1 hun
  obtain ⟨v, hv, a, h1, h2, -⟩ := hm.units u un hu
  have hgv := hg.good v hv
  have hs : un.str = Spec.complete v := by rw [h2, generated hgv h1]
  obtain ⟨cs', c, hbase, hc⟩ : ∃ cs' : List PyCover, ∃ c ∈ v.base.covers, v.base = snowArgs o.snow cs' := by
    obtain ⟨soil, hss, hsk, he⟩ := soilCover_of hsoil
    rw [socont_variants h o hss hsk he] at hv
    split at hv
    · rw [List.mem_singleton] at hv
      subst hv
      obtain ⟨x, hx, -⟩ := mem_covers (snowArgs_covers o.snow cs) hss
      exact ⟨cs, x, hx, rfl⟩
    · simp only [List.mem_cons, List.not_mem_nil, or_false] at hv
      rcases hv with rfl | rfl
      · obtain ⟨x, hx, -⟩ := mem_covers (snowArgs_covers o.snow (cs.filter fun c => c.kind != "glacier"))
          (List.mem_filter.2 ⟨hss, by simpa using hsk⟩)
        exact ⟨_, x, hx, rfl⟩
      · obtain ⟨x, hx, -⟩ := mem_covers (snowArgs_covers o.snow cs) hss
        exact ⟨cs, x, hx, rfl⟩
  have hsnow : v.base.withSnow = true := by rw [hc]; rfl
  obtain ⟨i, -, -, hi⟩ := snow_at hgv hsnow hbase
  have hB := (hC.units u un hu).bricks _ (by rw [hs]; exact List.mem_of_getElem? hi)
  obtain ⟨r, hr'⟩ := Option.ne_none_iff_exists'.1 hr
  have hrr : r = "refreeze:degree_day" := by
    have := ho.refreezing
    rw [hr'] at this
    simpa using this
  have href : ∃ p ∈ Spec.snowProcs v.base c, p.type = "refreeze:degree_day" := by
    rw [hc]
    unfold Spec.snowProcs snowArgs
    cases hret : o.snow.retention with
    | none => exact absurd (ho.needs hret).1 hr
    | some q =>
      simp only [hr', hrr, Spec.opt, Option.map_some, Option.toList_some]
      exact ⟨_, List.mem_append_left _ (List.mem_append_left _ (List.mem_append_left _ (List.mem_append_right _ (List.mem_cons_self ..)))), rfl⟩
  obtain ⟨p, hp, hty⟩ := href
  obtain ⟨j, hj⟩ := List.mem_iff_getElem?.1 hp
  obtain ⟨p', hp', hty'⟩ := (hB.procs j p hj).refreeze hty
  have key : ∀ k, (k = o.snow.melt ∨ o.snow.retention = some k ∨ o.snow.refreezing = some k ∨ o.snow.snowIce = some k ∨
      o.snow.redistribution = some k ∨ o.snow.sublimation = some k) → k = "melt:degree_day" → k = o.snow.melt := by
    intro k hk he
    rcases hk with hk | hk | hk | hk | hk | hk
    · exact hk
    · have := ho.retention; rw [hk, he] at this; exact absurd this (by decide)
    · have := ho.refreezing; rw [hk, he] at this; exact absurd this (by decide)
    · have := ho.snowIce; rw [hk, he] at this; exact absurd this (by decide)
    · have := ho.redistribution k hk; rw [he] at this; exact absurd this (by decide)
    · have := ho.sublimation; rw [hk, he] at this; exact absurd this (by decide)
  have hk := snow_cases hp'
  rw [hc] at hk
  refine hmelt ((key p'.type ?_ hty').symm.trans hty')
  rcases hk with ⟨hk | hk | hk | hk, -⟩ | hk | hk
  · exact .inl hk
  · exact .inr (.inl hk)
  · exact .inr (.inr (.inl hk))
  · exact .inr (.inr (.inr (.inl hk)))
  · exact .inr (.inr (.inr (.inr (.inl hk))))
  · exact .inr (.inr (.inr (.inr (.inr hk))))

end HB

/-! ## Examples -/

namespace HB.ReadyDemo

open HB.Names HB.Wire HB.PreDemo

/-- Units set up from the variants given by their numbers, with all properties surveyed. -/
def readyOf (vs : List Variant) (units : List (ℕ × ℚ)) : InputX ℚ where
  base := inputOf vs units
  ext u := { brickF := fun _ => [], procF := fun _ _ => [], slope := true, aspect := some "N", elevation := some 1200,
             splitF := (units[u]?.bind fun x => vs[x.1]?).elim (fun _ => []) fun v => genForcings v.base.withSnow v.base.splitter }

theorem setUp_of {vs : List Variant} {units : List (ℕ × ℚ)} (hne : vs ≠ []) (hu : units ≠ [])
    (h : ∀ v ∈ vs, (match generateOne v with | .ok _ => true | .error _ => false) = true) (hi : ∀ x ∈ units, x.1 < vs.length) :
    Spec.SetUp vs (readyOf vs units) where
  basin := (from_of hne h hi).basin
  exists_unit := by
    change units.map _ ≠ []
    simpa using hu
  units u un hun := by
    change (units.map _)[u]? = some un at hun
    rw [List.getElem?_map] at hun
    cases hx : units[u]? with
    | none => rw [hx] at hun; cases hun
    | some x =>
      rw [hx] at hun
      cases hun
      have hlt := hi x (List.mem_of_getElem? hx)
      have hv := List.getElem?_eq_getElem hlt
      obtain ⟨a, ha, hstr⟩ := generate_of (h _ (List.getElem_mem hlt))
      refine ⟨vs[x.1], List.getElem_mem hlt, a, ha, ?_, ?_⟩
      · simp [hv, hstr]
      · simp [readyOf, hx, hv]
  plain u := ⟨fun _ => rfl, fun _ _ => rfl⟩

theorem surveyed (o : Spec.Choices) {vs : List Variant} {units : List (ℕ × ℚ)} (h : ∀ un ∈ (inputOf vs units).units, 0 < un.area) (u : ℕ)
    (un : UnitIn ℚ) (hu : (readyOf vs units).base.units[u]? = some un) : Spec.Surveyed o un ((readyOf vs units).ext u) :=
  ⟨h un (List.mem_of_getElem? hu), fun _ => rfl, fun _ _ => ⟨"N", rfl, by decide⟩, fun _ _ h => by cases h⟩

/-- All series. -/
def loaded : List Var := [.precipitation, .pet, .temperature, .radiation, .temperatureMin, .temperatureMax]

theorem given (o : Spec.Choices) (xi : InputX ℚ) : Spec.SeriesGiven o xi loaded :=
  ⟨by decide, by decide, fun _ => by decide, fun _ _ => by decide, fun _ _ _ _ _ _ _ => by decide⟩

/-- Socont on open land and a glacier. -/
theorem socont_ready : Spec.Ready (readyOf (socont {} alpine) [(0, 3), (1, 1)]) loaded :=
  c65_socont_ready alpine_good default_snow (by decide) (by decide) (fun _ => by decide)
    (setUp_of (by decide) (by decide) (by decide +kernel) (by decide)) (fun h => absurd rfl h) (surveyed _ (by decide +kernel)) (given _ _)

/-- HBV-96 with open land, forest, a lake and a glacier. -/
theorem hbv_ready : Spec.Ready (readyOf (hbv96 {} mixed) [(0, 3), (1, 1), (2, 2)]) loaded :=
  c65_hbv_ready mixed_good hbv_snow (fun _ => rfl) ⟨⟨"open", "open"⟩, by decide, by decide⟩ (fun _ => by decide)
    (setUp_of (by decide) (by decide) (by decide +kernel) (by decide +kernel)) (fun h => absurd rfl h) (surveyed _ (by decide +kernel)) (given _ _)

/-- GR4J with CemaNeige below 1500 m. -/
theorem gr_ready : Spec.Ready (readyOf (gr snowy plainLand) [(0, 2)]) loaded :=
  c65_gr_ready plain_good (by decide) snowy_good (by decide) (setUp_of (by decide) (by decide) (by decide +kernel) (by decide))
    (fun h => absurd rfl h) (surveyed _ (by decide +kernel)) (given _ _)

/-- Two covers for Socont. -/
def twoLands : List PyCover := [⟨"open", "open"⟩, ⟨"woods", "forest"⟩]

theorem twoLands_refused : ¬ ∃ r, prepare (readyOf (socont {} twoLands) [(0, 3)]) = .ok r :=
  c65_socont_second_cover (good_of (by decide +kernel)) default_snow (fun _ => by decide) (c := ⟨"open", "open"⟩) (c' := ⟨"woods", "forest"⟩)
    (by decide) (by decide) (by decide) (by decide) (by decide) (setUp_of (by decide) (by decide) (by decide +kernel) (by decide)) (fun h => absurd rfl h)

theorem twoLands_gr_refused : ¬ ∃ r, prepare (readyOf (gr {} twoLands) [(0, 3)]) = .ok r :=
  c65_gr_second_cover (good_of (by decide +kernel)) ⟨by simp, by simp, by simp, by decide⟩
    (setUp_of (by decide) (by decide) (by decide +kernel) (by decide)) (fun h => absurd rfl h)

/-- Refreezing with another melt. -/
def refreezing : SocontOpts :=
  { snow := { melt := "melt:temperature_index", retention := some "outflow:snow_holding", refreezing := some "refreeze:degree_day" } }

theorem refreezing_refused : ¬ ∃ r, prepare (readyOf (socont refreezing plainLand) [(0, 3)]) = .ok r :=
  c65_socont_refreeze_refused plain_good ⟨by decide, by decide, by decide, by decide, by decide, (by intro p hp; cases hp), by decide⟩
    ⟨⟨"open", "open"⟩, by decide, by decide⟩ (fun _ => by decide) (by decide) (by decide)
    (setUp_of (by decide) (by decide) (by decide +kernel) (by decide)) (fun h => absurd rfl h)

end HB.ReadyDemo
