import Verif.Model.SchemeModels

/-!
# C68: the predefined models have the flow diagrams of their documentation
-/

set_option linter.unusedSectionVars false

namespace HB

open HB.Names HB.Wire

variable {K : Type} [Field K]

namespace Wire

theorem coversOf_complete {un : UnitIn K} {v : Variant} (hs : un.str = Spec.complete v) {cs : List PyCover} {f : Bool}
    (hc : v.base.covers = cs.map (PyCover.toCover f)) : Spec.CoversOf un cs := by
  unfold Spec.CoversOf
  rw [hs, complete_covers]
  have hn : nc v = cs.length := by unfold nc; rw [hc, List.length_map]
  refine List.ext_getElem? fun i => ?_
  rw [List.getElem?_map, List.getElem?_map, hn]
  by_cases hi : i < cs.length
  · rw [List.getElem?_range hi, List.getElem?_eq_getElem hi, Option.map_some, Option.map_some,
      cover_get (c := cs[i].toCover f) (by rw [hc, List.getElem?_map, List.getElem?_eq_getElem hi]; rfl)]
    rfl
  · rw [List.getElem?_eq_none (by simpa using hi), List.getElem?_eq_none (by simpa using hi)]
    rfl

/-- The flows of a unit with a snow routine. -/
theorem flows_of {inp : Input K} (hd : Spec.Described inp) {m : Wire.Model K} (hb : build inp = .ok m) {u : ℕ} {un : UnitIn K}
    (hu : inp.units[u]? = some un) {v : Variant} (hg : Good v (basNames inp)) (hs : un.str = Spec.complete v) (hk : ProperKinds v.base)
    {cs : List PyCover} {f : Bool} (hc : v.base.covers = cs.map (PyCover.toCover f)) {arrows : String → String → Spec.End → Prop}
    {falls : Content → String → Prop} (ha : ∀ x k e, (ItemArrow v v.items x k e ∨ SurfaceArrow v.base x k e) ↔ arrows x k e)
    (hf : ∀ ct y, (∃ c ∈ v.base.covers, (ct = .water ∧ y = Spec.rainEntry v.base c) ∨ (v.base.withSnow = true ∧ ct = .snow ∧ y = c.name ++ "_snowpack")) ↔
      falls ct y) : Spec.Flows inp m u un cs arrows falls where
  covers := coversOf_complete hs hc
  arrows x k e hl := (arrow_described hd hb hu hg hs hk hl).trans (ha x k e)
  falls ct y := (falls_described hd hb hu hg hs).trans (hf ct y)

/-- Where rain falls without a snow routine and without canopies. -/
theorem rain_iff {g : BaseArgs} {cs : List PyCover} {f : Bool} (hc : g.covers = cs.map (PyCover.toCover f)) (hw : g.withSnow = false)
    (hn : ∀ c ∈ cs, ¬ (f = true ∧ c.kind = "forest")) {ct : Content} {y : String} :
    (∃ c ∈ g.covers, (ct = .water ∧ y = Spec.rainEntry g c) ∨ (g.withSnow = true ∧ ct = .snow ∧ y = c.name ++ "_snowpack")) ↔
      Spec.RainScheme cs ct y := by
  have hent : ∀ c ∈ cs, Spec.rainEntry g (c.toCover f) = c.name := by
    intro c hcm
    unfold Spec.rainEntry Spec.belowCanopy Spec.viaSnowpack
    rw [hw, if_neg (fun h => hn c hcm (toCover_canopy.1 h)), Bool.false_and]
    rfl
  constructor
  · rintro ⟨c', hc', h⟩
    rw [hc] at hc'
    obtain ⟨c, hcm, rfl⟩ := List.mem_map.1 hc'
    rcases h with ⟨rfl, rfl⟩ | ⟨h, -⟩
    · rw [hent c hcm]; exact .rain hcm
    · rw [hw] at h; cases h
  · rintro ⟨hcm⟩
    exact ⟨_, by rw [hc]; exact List.mem_map.2 ⟨_, hcm, rfl⟩, .inl ⟨rfl, (hent _ hcm).symm⟩⟩

/-- The arrows of the sub-basin. -/
theorem basin_scheme {inp : Input K} (hd : Spec.Described inp) {m : Wire.Model K} (hb : build inp = .ok m) {v : Variant}
    (hg : Good v (basNames inp)) (hs : inp.basin = Spec.complete v) {cs : List PyCover}
    (hi : Spec.itemsAt .basin v.items = if glaciersOf cs = [] then [] else gsmStores) (x k : String) (d : Dest) :
    Spec.BasinArrow inp m x k d ↔ Spec.GlacierBasin cs x k d := by
  have hitems : ∀ it ∈ v.items, it.place = .basin → glaciersOf cs ≠ [] ∧ (it = gsmStore gsmRain ∨ it = gsmStore gsmIce) := by
    intro it hit hp
    have := mem_itemsAt.2 ⟨hit, hp⟩
    rw [hi] at this
    split at this
    · cases this
    · rename_i h
      refine ⟨h, ?_⟩
      simpa only [gsmStores, List.mem_cons, List.not_mem_nil, or_false] using this
  have hgl : glaciersOf cs ≠ [] → ∃ c ∈ cs, c.kind = "glacier" := by
    intro h
    obtain ⟨c, hc⟩ := List.exists_mem_of_ne_nil _ h
    exact ⟨c, glacier_mem.1 hc⟩
  by_cases hk : k ∈ Spec.atmosphereNames
  · constructor
    · rintro ⟨i, b, j, p, f, h1, -, h2, rfl, -⟩
      have hbm := List.mem_of_getElem? h1
      rw [hs] at hbm
      obtain ⟨it, hit, rfl⟩ := List.mem_map.1 hbm
      obtain ⟨q, hq, rfl⟩ := List.mem_map.1 (List.mem_of_getElem? h2)
      obtain ⟨-, he⟩ := hitems it (mem_itemsAt.1 hit).1 (mem_itemsAt.1 hit).2
      have hqk : q.kind = "outflow:linear" := by
        rcases he with rfl | rfl <;>
        · simp only [gsmStore, List.mem_singleton] at hq
          rw [hq]
      change q.kind ∈ _ at hk
      rw [hqk] at hk
      exact absurd hk (by decide)
    · intro h
      cases h <;> exact absurd hk (by decide)
  · rw [basin_arrow hd hb hg hs hk]
    constructor
    · rintro ⟨rfl, it, hit, hp, rfl, q, hq, rfl⟩
      obtain ⟨h1, he⟩ := hitems it hit hp
      obtain ⟨c, hc, hck⟩ := hgl h1
      rcases he with rfl | rfl
      · simp only [gsmStore, List.mem_singleton] at hq
        subst hq
        exact .rain hc hck
      · simp only [gsmStore, List.mem_singleton] at hq
        subst hq
        exact .ice hc hck
    · intro h
      have mk : ∀ c ∈ cs, c.kind = "glacier" → ∀ it ∈ gsmStores, it ∈ v.items ∧ it.place = .basin := by
        intro c hc hck it hit
        have : it ∈ Spec.itemsAt .basin v.items := by
          rw [hi, if_neg (List.ne_nil_of_mem (glacier_mem.2 ⟨hc, hck⟩))]
          exact hit
        exact mem_itemsAt.1 this
      cases h with
      | rain hc hck =>
        have := mk _ hc hck (gsmStore gsmRain) (List.mem_cons_self ..)
        exact ⟨rfl, _, this.1, this.2, rfl, _, List.mem_singleton.2 rfl, rfl⟩
      | ice hc hck =>
        have := mk _ hc hck (gsmStore gsmIce) (List.mem_cons_of_mem _ (List.mem_cons_self ..))
        exact ⟨rfl, _, this.1, this.2, rfl, _, List.mem_singleton.2 rfl, rfl⟩

/-- The sub-basin was generated from the first variant. -/
theorem basin_from {vs : List Variant} {bas : List String} (h : GoodModel vs bas) {inp : Input K} (hm : Spec.FromModel vs inp) :
    ∃ v, vs.head? = some v ∧ Good v (basNames inp) ∧ inp.basin = Spec.complete v := by
  obtain ⟨v, a, h1, h2, h3⟩ := hm.basin
  have hg := h.good v (List.mem_of_mem_head? (by rw [h1]; rfl))
  exact ⟨v, h1, by rw [bas_eq h hm]; exact hg, by rw [h3, generated hg h2]⟩

end Wire

/-! ## Socont -/

/-- **C68 (Socont).**  In every model built from Socont, for every list of usable land covers and every documented option, each unit
has either all covers or all but the glaciers, and water moves exactly along the arrows of the documented scheme. -/
theorem c68_socont_flows {cs : List PyCover} (h : Spec.GoodCovers cs) {o : SocontOpts} (ho : Spec.GoodSnow o.snow)
    (hsoil : ∃ c ∈ cs, c.kind ≠ "glacier") (hice : Spec.IceMelts o.snow.melt cs) {inp : Input K} (hm : Spec.FromModel (socont o cs) inp)
    (hl : o.snow.redistribution ≠ none → Spec.LateralGiven inp) {m : Wire.Model K} (hb : build inp = .ok m) {u : ℕ} {un : UnitIn K}
    (hu : inp.units[u]? = some un) : ∃ present, (present = cs ∨ present = cs.filter fun c => c.kind != "glacier") ∧
      Spec.Flows inp m u un present (Spec.SocontScheme o cs present) (Spec.FallScheme o.snow present) := by
  obtain ⟨hg, hx⟩ := socont_good h ho hsoil hice
  have hd := described hg hm fun ⟨v, hv, hr⟩ => hl (by rw [← (hx v hv).2]; exact hr)
  obtain ⟨v, hv, hgv, hs⟩ := unit_from hg hm hu
  obtain ⟨soil, hsm, hsk, he⟩ := soilCover_of hsoil
  rw [socont_variants h o hsm hsk he] at hv
  have hfirst : ∀ s, Spec.FirstSoil cs s ↔ s = soil.name := fun s => by rw [firstSoil_iff hsoil, he]
  have key : ∀ (cs' gl : List PyCover) (S : Bool), (∀ c, c ∈ gl ↔ c ∈ cs' ∧ c.kind = "glacier") → v = socontVariant o cs' gl S soil.name →
      Spec.Flows inp m u un cs' (Spec.SocontScheme o cs cs') (Spec.FallScheme o.snow cs') := by
    rintro cs' gl S hgl rfl
    exact flows_of hd hb hu hgv hs (proper_snow ho cs') (f := o.snow.forest) rfl (fun x k e => socont_scheme ho hgl hfirst)
      (fun ct y => fall_iff rfl rfl rfl)
  by_cases hgl : glaciersOf cs = []
  · rw [if_pos hgl, List.mem_singleton] at hv
    refine ⟨cs, .inl rfl, key cs [] false (fun c => ?_) hv⟩
    rw [← glacier_mem, hgl]
  · rw [if_neg hgl, List.mem_cons, List.mem_singleton] at hv
    rcases hv with hv | hv
    · refine ⟨_, .inr rfl, key _ [] true (fun c => ?_) hv⟩
      simp
    · exact ⟨cs, .inl rfl, key cs _ true (fun c => glacier_mem) hv⟩

/-- **C68 (Socont, sub-basin).**  The storages of the sub-basin are those of the glaciers, and drain to the outlet. -/
theorem c68_socont_basin {cs : List PyCover} (h : Spec.GoodCovers cs) {o : SocontOpts} (ho : Spec.GoodSnow o.snow)
    (hsoil : ∃ c ∈ cs, c.kind ≠ "glacier") (hice : Spec.IceMelts o.snow.melt cs) {inp : Input K} (hm : Spec.FromModel (socont o cs) inp)
    (hl : o.snow.redistribution ≠ none → Spec.LateralGiven inp) {m : Wire.Model K} (hb : build inp = .ok m) (x k : String) (d : Dest) :
    Spec.BasinArrow inp m x k d ↔ Spec.GlacierBasin cs x k d := by
  obtain ⟨hg, hx⟩ := socont_good h ho hsoil hice
  have hd := described hg hm fun ⟨v, hv, hr⟩ => hl (by rw [← (hx v hv).2]; exact hr)
  obtain ⟨v, hv, hgv, hs⟩ := basin_from hg hm
  obtain ⟨soil, hsm, hsk, he⟩ := soilCover_of hsoil
  rw [socont_variants h o hsm hsk he] at hv
  refine basin_scheme hd hb hgv hs ?_ x k d
  have hsi : Spec.itemsAt .basin (socontSoil o soil.name) = [] := by
    unfold socontSoil Spec.itemsAt
    cases o.secondLayer <;> simp
  by_cases hgl : glaciersOf cs = []
  · rw [if_pos hgl] at hv ⊢
    cases hv
    unfold socontVariant
    dsimp only
    rw [itemsAt_append, hsi, List.append_nil]
    rfl
  · rw [if_neg hgl] at hv ⊢
    cases hv
    unfold socontVariant
    dsimp only
    rw [itemsAt_append, hsi, List.append_nil]
    rfl

/-! ## HBV-96 -/

/-- **C68 (HBV-96).**  In every model built from HBV-96, each unit has either all covers but the lakes, or all but lakes and glaciers,
and the arrows of the documented scheme; or it has the lakes, and their arrows. -/
theorem c68_hbv_flows {cs : List PyCover} (h : Spec.GoodCovers cs) {o : HbvOpts} (ho : Spec.GoodSnow o.snow)
    (hsoil : ∃ c ∈ cs, c.kind ≠ "lake" ∧ c.kind ≠ "glacier") (hice : Spec.IceMelts o.snow.melt cs) {inp : Input K}
    (hm : Spec.FromModel (hbv96 o cs) inp) (hl : o.snow.redistribution ≠ none → Spec.LateralGiven inp) {m : Wire.Model K}
    (hb : build inp = .ok m) {u : ℕ} {un : UnitIn K} (hu : inp.units[u]? = some un) :
    (∃ present, (present = (cs.filter fun c => c.kind != "lake") ∨ present = (cs.filter fun c => c.kind != "lake").filter fun c => c.kind != "glacier") ∧
      Spec.Flows inp m u un present (Spec.HbvScheme o cs present) (Spec.FallScheme o.snow present)) ∨
    ((∃ c ∈ cs, c.kind = "lake") ∧
      Spec.Flows inp m u un (cs.filter fun c => c.kind == "lake") (Spec.LakeScheme (cs.filter fun c => c.kind == "lake"))
        (Spec.RainScheme (cs.filter fun c => c.kind == "lake"))) := by
  obtain ⟨hg, hx⟩ := hbv_good h ho hsoil hice
  have hd := described hg hm fun ⟨v, hv, hr⟩ => hl (by rw [← (hx v hv).2]; exact hr)
  obtain ⟨v, hv, hgv, hs⟩ := unit_from hg hm hu
  have hsne : soilsOf cs ≠ [] := by
    obtain ⟨c, hc, hk⟩ := hsoil
    exact List.ne_nil_of_mem (soil_mem.2 ⟨hc, hk⟩)
  rw [hbv_variants h o hsne, List.mem_append] at hv
  rcases hv with hv | hv
  · left
    have key : ∀ (cs' gl : List PyCover) (S : Bool), (∀ c, c ∈ gl ↔ c ∈ cs' ∧ c.kind = "glacier") → v = hbvVariant o cs cs' gl S →
        Spec.Flows inp m u un cs' (Spec.HbvScheme o cs cs') (Spec.FallScheme o.snow cs') := by
      rintro cs' gl S hgl rfl
      exact flows_of hd hb hu hgv hs (proper_snow ho cs') (f := o.snow.forest) rfl (fun x k e => hbv_scheme ho h hgl)
        (fun ct y => fall_iff rfl rfl rfl)
    by_cases hgl : glaciersOf cs = []
    · rw [if_pos hgl, List.mem_singleton] at hv
      refine ⟨_, .inl rfl, key (dryOf cs) [] false (fun c => ?_) hv⟩
      rw [← glacier_mem, glaciers_dry, hgl]
    · rw [if_neg hgl, List.mem_cons, List.mem_singleton] at hv
      rcases hv with hv | hv
      · refine ⟨_, .inr rfl, key _ [] true (fun c => ?_) hv⟩
        rw [List.mem_filter]
        simp
      · exact ⟨_, .inl rfl, key (dryOf cs) _ true (fun c => by rw [← glaciers_dry cs]; exact glacier_mem) hv⟩
  · right
    by_cases hlk : lakesOf cs = []
    · rw [if_pos hlk] at hv
      cases hv
    · rw [if_neg hlk, List.mem_singleton] at hv
      subst hv
      obtain ⟨c, hc⟩ := List.exists_mem_of_ne_nil _ hlk
      have hkind : ∀ c ∈ lakesOf cs, c.kind = "lake" := fun c hc => (lake_mem.1 hc).2
      refine ⟨⟨c, lake_mem.1 hc⟩, ?_⟩
      refine flows_of hd hb hu hgv hs ?_ (f := o.snow.forest) rfl (fun x k e => lake_scheme h (fun c hc => (lake_mem.1 hc).1) hkind) (fun ct y => ?_)
      · exact ⟨melt_plain (by change "melt:degree_day" ∈ _; decide), (by intro r hr; cases hr), (by intro r hr; cases hr), (proper_snow ho cs).snowIce,
          (by intro r hr; cases hr)⟩
      · refine rain_iff (f := o.snow.forest) rfl rfl ?_
        rintro c hc ⟨-, hf⟩
        rw [hkind c hc] at hf
        exact absurd hf (by decide)

/-- **C68 (HBV-96, sub-basin).** -/
theorem c68_hbv_basin {cs : List PyCover} (h : Spec.GoodCovers cs) {o : HbvOpts} (ho : Spec.GoodSnow o.snow)
    (hsoil : ∃ c ∈ cs, c.kind ≠ "lake" ∧ c.kind ≠ "glacier") (hice : Spec.IceMelts o.snow.melt cs) {inp : Input K}
    (hm : Spec.FromModel (hbv96 o cs) inp) (hl : o.snow.redistribution ≠ none → Spec.LateralGiven inp) {m : Wire.Model K}
    (hb : build inp = .ok m) (x k : String) (d : Dest) : Spec.BasinArrow inp m x k d ↔ Spec.GlacierBasin cs x k d := by
  obtain ⟨hg, hx⟩ := hbv_good h ho hsoil hice
  have hd := described hg hm fun ⟨v, hv, hr⟩ => hl (by rw [← (hx v hv).2]; exact hr)
  obtain ⟨v, hv, hgv, hs⟩ := basin_from hg hm
  have hsne : soilsOf cs ≠ [] := by
    obtain ⟨c, hc, hk⟩ := hsoil
    exact List.ne_nil_of_mem (soil_mem.2 ⟨hc, hk⟩)
  rw [hbv_variants h o hsne] at hv
  refine basin_scheme hd hb hgv hs ?_ x k d
  have hsi : Spec.itemsAt .basin (hbvCore o cs) = [] := itemsAt_nil_of fun it hit => hbvCore_place hit
  have hgc : ∀ gl : List PyCover, Spec.itemsAt .basin ((gl.map (·.name)).map (gsmCover o.snow.melt)) = [] := by
    intro gl
    refine itemsAt_nil_of fun it hit => ?_
    obtain ⟨n, -, rfl⟩ := List.mem_map.1 hit
    change Place.cover ≠ _; decide
  by_cases hgl : glaciersOf cs = []
  · rw [if_pos hgl] at hv ⊢
    cases hv
    unfold hbvVariant
    dsimp only
    rw [itemsAt_append, itemsAt_append, hsi, hgc]
    rfl
  · rw [if_neg hgl] at hv ⊢
    cases hv
    unfold hbvVariant
    dsimp only
    rw [itemsAt_append, itemsAt_append, hsi, hgc]
    rfl

/-! ## GR4J and GR6J -/

/-- **C68 (GR4J and GR6J).**  In every model built from them, each unit has all covers and the arrows of the documented scheme. -/
theorem c68_gr_flows {cs : List PyCover} (h : Spec.GoodCovers cs) {o : GrOpts} (ho : Spec.GoodGr o) {inp : Input K}
    (hm : Spec.FromModel (gr o cs) inp) (hl : o.redistribution ≠ none → Spec.LateralGiven inp) {m : Wire.Model K} (hb : build inp = .ok m)
    {u : ℕ} {un : UnitIn K} (hu : inp.units[u]? = some un) :
    (∀ melt, o.melt = some melt → Spec.Flows inp m u un cs (Spec.GrScheme o cs) (Spec.FallScheme (Spec.grSnow o melt) cs)) ∧
    (o.melt = none → Spec.Flows inp m u un cs (Spec.GrScheme o cs) (Spec.RainScheme cs)) := by
  obtain ⟨hg, hx⟩ := gr_good h ho
  have hd := described hg hm fun ⟨v, hv, hr⟩ => hl (by rw [← (hx v hv).1]; exact hr)
  obtain ⟨v, hv, hgv, hs⟩ := unit_from hg hm hu
  cases hcs : cs with
  | nil => rw [hcs] at hv; cases hv
  | cons c r =>
    rw [← hcs]
    have hv' : v = ⟨grArgs o cs, grItems o c.name⟩ := by
      rw [hcs] at hv ⊢
      exact List.mem_singleton.1 hv
    subst hv'
    refine ⟨fun melt hmelt => ?_, fun hmelt => ?_⟩
    · exact flows_of hd hb hu hgv hs (proper_gr ho cs) (f := false) rfl (fun x k e => gr_scheme h hcs)
        (fun ct y => fall_iff (o := Spec.grSnow o melt) rfl (by change o.melt.isSome = true; rw [hmelt]; rfl) rfl)
    · exact flows_of hd hb hu hgv hs (proper_gr ho cs) (f := false) rfl (fun x k e => gr_scheme h hcs)
        (fun ct y => rain_iff (f := false) rfl (by change o.melt.isSome = false; rw [hmelt]; rfl) (by simp))

/-- **C68 (GR4J and GR6J, sub-basin).**  The sub-basin has no storages. -/
theorem c68_gr_basin {cs : List PyCover} (h : Spec.GoodCovers cs) {o : GrOpts} (ho : Spec.GoodGr o) {inp : Input K}
    (hm : Spec.FromModel (gr o cs) inp) {m : Wire.Model K} (x k : String) (d : Dest) : ¬ Spec.BasinArrow inp m x k d := by
  obtain ⟨hg, hx⟩ := gr_good h ho
  have := bas_eq hg hm
  rintro ⟨i, b, j, p, f, h1, -⟩
  have h2 : inp.basin.basinBricks = [] := List.map_eq_nil_iff.1 this
  rw [h2] at h1
  cases h1

end HB
