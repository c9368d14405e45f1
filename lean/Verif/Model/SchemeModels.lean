import Verif.Model.SchemeLemmas
import Verif.Model.PredefinedHbv2
import Verif.Model.PredefinedGr

/-! # The flow diagrams of the predefined models. -/

set_option linter.unusedSectionVars false
set_option linter.unusedSimpArgs false

namespace HB.Wire

open HB.Names

variable {K : Type} [Field K]

/-! ## Ends of described processes -/

theorem itemEnd_air {v : Variant} {q : PItem} (h : q.kind ∈ Spec.atmosphereNames) {e : Spec.End} : ItemEnd v q e ↔ e = .air := by
  unfold ItemEnd
  simp [h]

theorem itemEnd_outlet {v : Variant} {q : PItem} (h : q.kind ∉ Spec.atmosphereNames) (ht : q.targets = ["outlet"]) {e : Spec.End} :
    ItemEnd v q e ↔ e = .outlet := by
  unfold ItemEnd
  simp [h, ht]

theorem itemEnd_own {v : Variant} {q : PItem} (h : q.kind ∉ Spec.atmosphereNames)
    (ht : ∀ t ∈ q.targets, t ≠ "outlet" ∧ ∃ it ∈ v.items, it.place = .unit ∧ it.key = t) {e : Spec.End} :
    ItemEnd v q e ↔ ∃ t ∈ q.targets, e = .own t .water := by
  unfold ItemEnd
  constructor
  · rintro (⟨h', -⟩ | ⟨-, t, htm, ⟨h1, -⟩ | ⟨-, -, he⟩ | ⟨-, h1, -⟩⟩)
    · exact absurd h' h
    · exact absurd h1 (ht t htm).1
    · exact ⟨t, htm, he⟩
    · exact absurd (ht t htm).2 h1
  · rintro ⟨t, htm, he⟩
    exact .inr ⟨h, t, htm, .inr (.inl ⟨(ht t htm).1, (ht t htm).2, he⟩)⟩

theorem itemEnd_shared {v : Variant} {q : PItem} (h : q.kind ∉ Spec.atmosphereNames) {t : String} (hq : q.targets = [t])
    (ht : t ≠ "outlet" ∧ ¬ ∃ it ∈ v.items, it.place = .unit ∧ it.key = t) {e : Spec.End} : ItemEnd v q e ↔ e = .shared t .water := by
  unfold ItemEnd
  rw [hq]
  simp only [List.mem_singleton, exists_eq_left]
  constructor
  · rintro (⟨h', -⟩ | ⟨-, ⟨h1, -⟩ | ⟨-, h1, -⟩ | ⟨-, -, he⟩⟩)
    · exact absurd h' h
    · exact absurd h1 ht.1
    · exact absurd h1 ht.2
    · exact he
  · intro he
    exact .inr ⟨h, .inr (.inr ⟨ht.1, ht.2, he⟩)⟩

/-- The process leads to the single brick of the unit. -/
theorem itemEnd_one {v : Variant} {q : PItem} (h : q.kind ∉ Spec.atmosphereNames) {t : String} (hq : q.targets = [t]) (ho : t ≠ "outlet")
    (hi : ∃ it ∈ v.items, it.place = .unit ∧ it.key = t) {e : Spec.End} : ItemEnd v q e ↔ e = .own t .water := by
  rw [itemEnd_own h (by rw [hq]; intro t' ht'; rw [List.mem_singleton] at ht'; subst ht'; exact ⟨ho, hi⟩), hq]
  simp

/-! ## Snow and canopies -/

theorem melt_plain {k : String} (h : k ∈ Spec.meltKinds) : k ∉ Spec.atmosphereNames ∧ k ∉ Spec.lateralNames := by
  have : ∀ k ∈ Spec.meltKinds, k ∉ Spec.atmosphereNames ∧ k ∉ Spec.lateralNames := by decide
  exact this k h

theorem proper_snow {o : SnowOpts} (ho : Spec.GoodSnow o) (cs : List PyCover) : ProperKinds (snowArgs o cs) where
  melt := melt_plain ho.melt
  retention := by
    intro r hr
    have := ho.retention
    change o.retention = some r at hr
    rw [hr] at this
    have h2 : ∀ x ∈ [none, some "outflow:snow_holding"], ∀ r ∈ x, r ∉ Spec.atmosphereNames ∧ r ∉ Spec.lateralNames := by decide
    exact h2 _ this r rfl
  refreezing := by
    intro r hr
    have := ho.refreezing
    change o.refreezing = some r at hr
    rw [hr] at this
    have h2 : ∀ x ∈ [none, some "refreeze:degree_day"], ∀ r ∈ x, r ∉ Spec.atmosphereNames ∧ r ∉ Spec.lateralNames := by decide
    exact h2 _ this r rfl
  snowIce := by
    intro r hr
    have := ho.snowIce
    change o.snowIce = some r at hr
    rw [hr] at this
    have h2 : ∀ x ∈ [none, some "transformation:snow_ice_constant", some "transformation:snow_ice_swat"], ∀ r ∈ x,
      r ∉ Spec.atmosphereNames ∧ r ∉ Spec.lateralNames := by decide
    exact h2 _ this r rfl
  sublimation := by
    intro r hr
    have := ho.sublimation
    change o.sublimation = some r at hr
    rw [hr] at this
    have h2 : ∀ x ∈ [none, some "sublimation:constant", some "sublimation:pet"], ∀ r ∈ x, r ∈ Spec.atmosphereNames := by decide
    exact h2 _ this r rfl

theorem toCover_glacier {f : Bool} {c : PyCover} : (c.toCover f).type = "glacier" ↔ c.kind = "glacier" := by
  unfold PyCover.toCover
  dsimp only
  split
  · rename_i h
    constructor
    · intro h'
      exact absurd h' (by decide)
    · intro h'
      rw [h'] at h
      exact absurd h (by decide)
  · exact Iff.rfl

theorem toCover_canopy {f : Bool} {c : PyCover} : (c.toCover f).canopy = true ↔ f = true ∧ c.kind = "forest" := by
  simp [PyCover.toCover]

/-- Snowpacks and canopies of a base structure with these options. -/
theorem surface_iff {g : BaseArgs} {o : SnowOpts} {cs : List PyCover} (hc : g.covers = cs.map (PyCover.toCover o.forest)) (hw : g.withSnow = true)
    (hm : g.melt = o.melt) (hr : g.retention = o.retention) (hf : g.refreezing = o.refreezing) (hi : g.snowIce = o.snowIce)
    (hs : g.sublimation = o.sublimation) (ht : g.rainToSnowpack = o.rainToSnowpack) {x k : String} {e : Spec.End} :
    SurfaceArrow g x k e ↔ ∃ c ∈ cs, Spec.SnowScheme o c x k e ∨ Spec.CanopyScheme o c x k e := by
  have hbel : ∀ c : PyCover, Spec.belowCanopy g (c.toCover o.forest) = if o.rainToSnowpack then c.name ++ "_snowpack" else c.name := by
    intro c
    unfold Spec.belowCanopy Spec.viaSnowpack
    rw [hw, ht, Bool.true_and]
    rfl
  constructor
  · rintro ⟨c', hc', h⟩
    rw [hc] at hc'
    obtain ⟨c, hcm, rfl⟩ := List.mem_map.1 hc'
    refine ⟨c, hcm, ?_⟩
    rcases h with ⟨h1, rfl, h⟩ | ⟨-, rfl, h⟩
    · obtain ⟨h1, h2⟩ := toCover_canopy.1 h1
      right
      rcases h with ⟨rfl, rfl⟩ | ⟨rfl, rfl⟩
      · rw [hbel]
        by_cases h3 : o.rainToSnowpack = true
        · rw [if_pos h3]; exact .dripOnSnow h1 h2 h3
        · rw [if_neg h3]; exact .drip h1 h2 (by simpa using h3)
      · exact .et h1 h2
    · left
      rcases h with ⟨rfl, rfl⟩ | ⟨r, h1, rfl, rfl⟩ | ⟨r, h1, h2, rfl, rfl⟩ | ⟨r, h1, h2, rfl, rfl⟩ | ⟨r, h1, rfl, rfl⟩
      · rw [hm, hr]
        by_cases h1 : o.retention = none
        · rw [if_pos h1]; exact .melt h1
        · rw [if_neg h1]
          obtain ⟨r, h1⟩ := Option.ne_none_iff_exists'.1 h1
          exact .retained h1
      · exact .released (by rw [← hr]; exact h1)
      · obtain ⟨r', h1⟩ := Option.ne_none_iff_exists'.1 h1
        exact .refrozen (by rw [← hr]; exact h1) (by rw [← hf]; exact h2)
      · exact .ice (toCover_glacier.1 h1) (by rw [← hi]; exact h2)
      · exact .sublimated (by rw [← hs]; exact h1)
  · rintro ⟨c, hcm, h⟩
    refine ⟨c.toCover o.forest, by rw [hc]; exact List.mem_map.2 ⟨c, hcm, rfl⟩, ?_⟩
    rcases h with h | h
    · refine .inr ⟨hw, ?_⟩
      cases h with
      | melt h1 => exact ⟨rfl, .inl ⟨hm.symm, by rw [hr, if_pos h1]; rfl⟩⟩
      | retained h1 => exact ⟨rfl, .inl ⟨hm.symm, by rw [hr, if_neg (by rw [h1]; simp)]; rfl⟩⟩
      | released h1 => exact ⟨rfl, .inr (.inl ⟨_, by rw [hr]; exact h1, rfl, rfl⟩)⟩
      | refrozen h1 h2 => exact ⟨rfl, .inr (.inr (.inl ⟨_, by rw [hr, h1]; simp, by rw [hf]; exact h2, rfl, rfl⟩))⟩
      | ice h1 h2 => exact ⟨rfl, .inr (.inr (.inr (.inl ⟨_, toCover_glacier.2 h1, by rw [hi]; exact h2, rfl, rfl⟩)))⟩
      | sublimated h1 => exact ⟨rfl, .inr (.inr (.inr (.inr ⟨_, by rw [hs]; exact h1, rfl, rfl⟩)))⟩
    · left
      cases h with
      | drip h1 h2 h3 => exact ⟨toCover_canopy.2 ⟨h1, h2⟩, rfl, .inl ⟨rfl, by rw [hbel, h3]; rfl⟩⟩
      | dripOnSnow h1 h2 h3 => exact ⟨toCover_canopy.2 ⟨h1, h2⟩, rfl, .inl ⟨rfl, by rw [hbel, h3]; rfl⟩⟩
      | et h1 h2 => exact ⟨toCover_canopy.2 ⟨h1, h2⟩, rfl, .inr ⟨rfl, rfl⟩⟩

/-- Where precipitation falls with these options. -/
theorem fall_iff {g : BaseArgs} {o : SnowOpts} {cs : List PyCover} (hc : g.covers = cs.map (PyCover.toCover o.forest)) (hw : g.withSnow = true)
    (ht : g.rainToSnowpack = o.rainToSnowpack) {ct : Content} {y : String} :
    (∃ c ∈ g.covers, (ct = .water ∧ y = Spec.rainEntry g c) ∨ (g.withSnow = true ∧ ct = .snow ∧ y = c.name ++ "_snowpack")) ↔
      Spec.FallScheme o cs ct y := by
  have hent : ∀ c : PyCover, Spec.rainEntry g (c.toCover o.forest) = if o.forest = true ∧ c.kind = "forest" then c.name ++ "_canopy" else
      if o.rainToSnowpack then c.name ++ "_snowpack" else c.name := by
    intro c
    unfold Spec.rainEntry Spec.belowCanopy Spec.viaSnowpack
    rw [hw, ht, Bool.true_and]
    by_cases h : o.forest = true ∧ c.kind = "forest"
    · rw [if_pos h, if_pos (toCover_canopy.2 h)]; rfl
    · rw [if_neg h, if_neg (fun h' => h (toCover_canopy.1 h'))]; rfl
  constructor
  · rintro ⟨c', hc', h⟩
    rw [hc] at hc'
    obtain ⟨c, hcm, rfl⟩ := List.mem_map.1 hc'
    rcases h with ⟨rfl, rfl⟩ | ⟨-, rfl, rfl⟩
    · rw [hent]
      split
      · rename_i h; exact .canopy hcm h.1 h.2
      · rename_i h
        split
        · rename_i h1; exact .snowpack hcm h h1
        · rename_i h1; exact .cover hcm h (by simpa using h1)
    · exact .snow hcm
  · intro h
    have mk : ∀ c ∈ cs, c.toCover o.forest ∈ g.covers := fun c hcm => by rw [hc]; exact List.mem_map.2 ⟨c, hcm, rfl⟩
    cases h with
    | snow hcm => exact ⟨_, mk _ hcm, .inr ⟨hw, rfl, rfl⟩⟩
    | canopy hcm h1 h2 => exact ⟨_, mk _ hcm, .inl ⟨rfl, by rw [hent, if_pos ⟨h1, h2⟩]⟩⟩
    | snowpack hcm h1 h2 => exact ⟨_, mk _ hcm, .inl ⟨rfl, by rw [hent, if_neg h1, if_pos h2]⟩⟩
    | cover hcm h1 h2 => exact ⟨_, mk _ hcm, .inl ⟨rfl, by rw [hent, if_neg h1, if_neg (by rw [h2]; decide)]⟩⟩

/-! ## Socont -/

theorem firstSoil_iff {cs : List PyCover} (h : ∃ c ∈ cs, c.kind ≠ "glacier") {s : String} : Spec.FirstSoil cs s ↔ s = soilCover cs := by
  induction cs with
  | nil => obtain ⟨c, hc, -⟩ := h; cases hc
  | cons a l ih =>
    by_cases ha : a.kind = "glacier"
    · have h' : ∃ c ∈ l, c.kind ≠ "glacier" := by
        obtain ⟨c, hc, hk⟩ := h
        rcases List.mem_cons.1 hc with rfl | hc
        · exact absurd ha hk
        · exact ⟨c, hc, hk⟩
      have he : soilCover (a :: l) = soilCover l := by
        unfold soilCover
        rw [List.filter_cons_of_neg (by simp [ha])]
      rw [he, ← ih h']
      constructor
      · rintro ⟨pre, c, post, h1, h2, h3, h4⟩
        cases pre with
        | nil =>
          cases h1
          exact absurd ha h2
        | cons p pre =>
          cases h1
          exact ⟨pre, c, post, rfl, h2, h3, fun q hq => h4 q (List.mem_cons_of_mem _ hq)⟩
      · rintro ⟨pre, c, post, h1, h2, h3, h4⟩
        refine ⟨a :: pre, c, post, by rw [h1]; rfl, h2, h3, fun q hq => ?_⟩
        rcases List.mem_cons.1 hq with rfl | hq
        · exact ha
        · exact h4 q hq
    · have he : soilCover (a :: l) = a.name := by
        unfold soilCover
        rw [List.filter_cons_of_pos (by simpa using ha)]
        rfl
      rw [he]
      constructor
      · rintro ⟨pre, c, post, h1, h2, h3, h4⟩
        cases pre with
        | nil => cases h1; exact h3.symm
        | cons p pre =>
          cases h1
          exact absurd (h4 _ (List.mem_cons_self ..)) ha
      · rintro rfl
        exact ⟨[], a, l, rfl, ha, rfl, fun q hq => by cases hq⟩

/-! ## Arrows of lists of entries -/

/-- An arrow of one of the processes. -/
def ProcArrow (v : Variant) (ps : List PItem) (k : String) (e : Spec.End) : Prop := ∃ q ∈ ps, q.kind = k ∧ ItemEnd v q e

/-- An arrow of one of the entries. -/
def ItemArrow (v : Variant) (l : List Item) (x k : String) (e : Spec.End) : Prop :=
  ∃ it ∈ l, it.place ≠ .basin ∧ it.key = x ∧ ProcArrow v it.procs k e

section
variable {v : Variant} {x k : String} {e : Spec.End}

theorem procArrow_nil : ProcArrow v [] k e ↔ False := by simp [ProcArrow]

theorem procArrow_cons {q : PItem} {ps : List PItem} : ProcArrow v (q :: ps) k e ↔ (q.kind = k ∧ ItemEnd v q e) ∨ ProcArrow v ps k e := by
  simp [ProcArrow]

theorem procArrow_append {ps ps' : List PItem} : ProcArrow v (ps ++ ps') k e ↔ ProcArrow v ps k e ∨ ProcArrow v ps' k e := by
  simp [ProcArrow, or_and_right, exists_or]

theorem itemArrow_nil : ItemArrow v [] x k e ↔ False := by simp [ItemArrow]

theorem itemArrow_cons {it : Item} {l : List Item} : ItemArrow v (it :: l) x k e ↔
    (it.place ≠ .basin ∧ it.key = x ∧ ProcArrow v it.procs k e) ∨ ItemArrow v l x k e := by
  simp [ItemArrow]

theorem itemArrow_append {l l' : List Item} : ItemArrow v (l ++ l') x k e ↔ ItemArrow v l x k e ∨ ItemArrow v l' x k e := by
  simp [ItemArrow, or_and_right, exists_or]

theorem itemArrow_stores {S : Bool} : ItemArrow v (if S then gsmStores else []) x k e ↔ False := by
  cases S
  · simp [ItemArrow]
  · simp [ItemArrow, gsmStores, gsmStore]

/-- The arrows of glaciers. -/
theorem itemArrow_glaciers {melt : String} (hm : melt ∈ Spec.meltKinds) {gl : List PyCover}
    (hn : ∀ n ∈ gsmNames, ¬ ∃ it ∈ v.items, it.place = .unit ∧ it.key = n) :
    ItemArrow v ((gl.map (·.name)).map (gsmCover melt)) x k e ↔ ∃ c ∈ gl, Spec.GlacierScheme melt c x k e := by
  have h1 : ItemEnd v ⟨"outflow_rain_snowmelt", "outflow:direct", [gsmRain], true⟩ e ↔ e = .shared gsmRain .water :=
    itemEnd_shared (by decide) rfl ⟨by decide, hn gsmRain (by decide)⟩
  have h2 : ItemEnd v ⟨"melt", melt, [gsmIce], true⟩ e ↔ e = .shared gsmIce .water :=
    itemEnd_shared (melt_plain hm).1 rfl ⟨by decide, hn gsmIce (by decide)⟩
  constructor
  · rintro ⟨it, hit, -, rfl, hp⟩
    obtain ⟨n, hn, rfl⟩ := List.mem_map.1 hit
    obtain ⟨c, hc, rfl⟩ := List.mem_map.1 hn
    refine ⟨c, hc, ?_⟩
    simp only [gsmCover, procArrow_cons, procArrow_nil, or_false] at hp
    rcases hp with ⟨rfl, he⟩ | ⟨rfl, he⟩
    · rw [h1.1 he]; exact .runoff
    · rw [h2.1 he]; exact .melt
  · rintro ⟨c, hc, h⟩
    refine ⟨gsmCover melt c.name, List.mem_map.2 ⟨_, List.mem_map.2 ⟨c, hc, rfl⟩, rfl⟩, by change Place.cover ≠ _; decide, ?_⟩
    simp only [gsmCover, procArrow_cons, procArrow_nil, or_false]
    cases h with
    | runoff => exact ⟨rfl, .inl ⟨rfl, h1.2 rfl⟩⟩
    | melt => exact ⟨rfl, .inr ⟨rfl, h2.2 rfl⟩⟩

end

/-! ## Socont -/

theorem socont_unit_items (o : SocontOpts) (cs gl : List PyCover) (S : Bool) (soil : String) (t : String) :
    (∃ it ∈ (socontVariant o cs gl S soil).items, it.place = .unit ∧ it.key = t) ↔
      t = "slow_reservoir" ∨ (o.secondLayer = true ∧ t = "slow_reservoir_2") ∨ t = "surface_runoff" := by
  have h : (∃ it ∈ (socontVariant o cs gl S soil).items, it.place = .unit ∧ it.key = t) ↔
      ∃ it ∈ Spec.itemsAt .unit (socontVariant o cs gl S soil).items, it.key = t := by
    simp only [mem_itemsAt, and_assoc]
  rw [h]
  unfold socontVariant
  dsimp only
  rw [itemsAt_append, gsm_units, List.nil_append, socontSoil_units, ← List.mem_map (f := Item.key), List.map_tail, socontSoil_keys, List.tail_cons]
  cases o.secondLayer <;> simp

theorem socont_items_iff {o : SocontOpts} (hm : o.snow.melt ∈ Spec.meltKinds) {cs' gl : List PyCover} {S : Bool} {soil : String}
    {x k : String} {e : Spec.End} : ItemArrow (socontVariant o cs' gl S soil) (socontVariant o cs' gl S soil).items x k e ↔
      (∃ c ∈ gl, Spec.GlacierScheme o.snow.melt c x k e) ∨ ItemArrow (socontVariant o cs' gl S soil) (socontSoil o soil) x k e := by
  have hn : ∀ n ∈ gsmNames, ¬ ∃ it ∈ (socontVariant o cs' gl S soil).items, it.place = .unit ∧ it.key = n := by
    intro n hn
    rw [socont_unit_items]
    have : ∀ n ∈ gsmNames, ¬ (n = "slow_reservoir" ∨ n = "slow_reservoir_2" ∨ n = "surface_runoff") := by decide
    rintro (h | ⟨-, h⟩ | h)
    · exact this n hn (.inl h)
    · exact this n hn (.inr (.inl h))
    · exact this n hn (.inr (.inr h))
  rw [← itemArrow_glaciers (v := socontVariant o cs' gl S soil) hm hn]
  conv_lhs => rw [show (socontVariant o cs' gl S soil).items = (gl.map (·.name)).map (gsmCover o.snow.melt) ++ (if S then gsmStores else []) ++
    socontSoil o soil from rfl]
  rw [itemArrow_append, itemArrow_append, itemArrow_stores, or_false]

/-- The arrows of a unit of Socont. -/
theorem socont_scheme {o : SocontOpts} (ho : Spec.GoodSnow o.snow) {cs cs' gl : List PyCover} (hgl : ∀ c, c ∈ gl ↔ c ∈ cs' ∧ c.kind = "glacier")
    {S : Bool} {soil : String} (hsoil : ∀ s, Spec.FirstSoil cs s ↔ s = soil) {x k : String} {e : Spec.End} :
    (ItemArrow (socontVariant o cs' gl S soil) (socontVariant o cs' gl S soil).items x k e ∨ SurfaceArrow (snowArgs o.snow cs') x k e) ↔
      Spec.SocontScheme o cs cs' x k e := by
  rw [socont_items_iff ho.melt, surface_iff (cs := cs') (o := o.snow) rfl rfl rfl rfl rfl rfl rfl rfl]
  set v := socontVariant o cs' gl S soil with hv
  have own : ∀ q : PItem, ∀ t, q.kind ∉ Spec.atmosphereNames → q.targets = [t] → t ≠ "outlet" →
      (t = "slow_reservoir" ∨ (o.secondLayer = true ∧ t = "slow_reservoir_2") ∨ t = "surface_runoff") → (ItemEnd v q e ↔ e = .own t .water) :=
    fun q t h1 h2 h3 h4 => itemEnd_one h1 h2 h3 ((socont_unit_items o cs' gl S soil t).2 h4)
  have h1 : ItemEnd v ⟨"infiltration", "infiltration:socont", ["slow_reservoir"], false⟩ e ↔ e = .own "slow_reservoir" .water :=
    own _ _ (by decide) rfl (by decide) (.inl rfl)
  have h2 : ItemEnd v ⟨"runoff", "outflow:rest", ["surface_runoff"], false⟩ e ↔ e = .own "surface_runoff" .water :=
    own _ _ (by decide) rfl (by decide) (.inr (.inr rfl))
  have h3 : ItemEnd v ⟨"et", "et:socont", [], false⟩ e ↔ e = .air := itemEnd_air (by decide)
  have h4 : ItemEnd v ⟨"outflow", "outflow:linear", ["outlet"], false⟩ e ↔ e = .outlet := itemEnd_outlet (by decide) rfl
  have h5 : ItemEnd v ⟨"overflow", "overflow", ["outlet"], false⟩ e ↔ e = .outlet := itemEnd_outlet (by decide) rfl
  have h6 : o.secondLayer = true → (ItemEnd v ⟨"percolation", "percolation:constant", ["slow_reservoir_2"], false⟩ e ↔ e = .own "slow_reservoir_2" .water) :=
    fun h => own _ _ (by decide) rfl (by decide) (.inr (.inl ⟨h, rfl⟩))
  have h7 : ItemEnd v ⟨"runoff", "outflow:linear", ["outlet"], false⟩ e ↔ e = .outlet := itemEnd_outlet (by decide) rfl
  have h8 : ItemEnd v ⟨"runoff", "runoff:socont", ["outlet"], false⟩ e ↔ e = .outlet := itemEnd_outlet (by decide) rfl
  have hsoilItems : ItemArrow v (socontSoil o soil) x k e ↔
      (soil = x ∧ (("infiltration:socont" = k ∧ e = .own "slow_reservoir" .water) ∨ ("outflow:rest" = k ∧ e = .own "surface_runoff" .water))) ∨
      ("slow_reservoir" = x ∧ (("et:socont" = k ∧ e = .air) ∨ ("outflow:linear" = k ∧ e = .outlet) ∨ ("overflow" = k ∧ e = .outlet) ∨
        (o.secondLayer = true ∧ "percolation:constant" = k ∧ e = .own "slow_reservoir_2" .water))) ∨
      (o.secondLayer = true ∧ "slow_reservoir_2" = x ∧ "outflow:linear" = k ∧ e = .outlet) ∨
      ("surface_runoff" = x ∧ (if o.linearRunoff then "outflow:linear" else "runoff:socont") = k ∧ e = .outlet) := by
    unfold socontSoil
    have hc : (Place.cover ≠ Place.basin) = True := by simp
    have hu : (Place.unit ≠ Place.basin) = True := by simp
    have h78 : ItemEnd v ⟨"runoff", if o.linearRunoff then "outflow:linear" else "runoff:socont", ["outlet"], false⟩ e ↔ e = .outlet := by
      cases o.linearRunoff
      · exact h8
      · exact h7
    cases hl : o.secondLayer
    · simp only [Bool.false_eq_true, if_false, List.append_nil, List.cons_append, List.nil_append, itemArrow_cons, itemArrow_nil, procArrow_cons,
        procArrow_nil, hc, hu, h1, h2, h3, h4, h5, h78, true_and, false_and, or_false, false_or]
    · simp only [if_true, List.append_nil, List.cons_append, List.nil_append, itemArrow_cons, itemArrow_nil, procArrow_cons,
        procArrow_nil, hc, hu, h1, h2, h3, h4, h5, h6 hl, h78, true_and, or_false]
  rw [hsoilItems]
  constructor
  · rintro ((⟨c, hc, h⟩ | ⟨rfl, ⟨rfl, rfl⟩ | ⟨rfl, rfl⟩⟩ | ⟨rfl, ⟨rfl, rfl⟩ | ⟨rfl, rfl⟩ | ⟨rfl, rfl⟩ | ⟨hl, rfl, rfl⟩⟩ | ⟨hl, rfl, rfl, rfl⟩ | ⟨rfl, rfl, rfl⟩) |
      ⟨c, hc, h | h⟩)
    · exact .glacier ((hgl c).1 hc).1 ((hgl c).1 hc).2 h
    · exact .infiltration ((hsoil _).2 rfl)
    · exact .excess ((hsoil _).2 rfl)
    · exact .et
    · exact .baseflow
    · exact .overflow
    · exact .percolation hl
    · exact .second hl
    · cases hq : o.linearRunoff
      · exact .quick hq
      · exact .quickLinear hq
    · exact .snow hc h
    · exact .canopy hc h
  · intro h
    cases h with
    | snow hc h => exact .inr ⟨_, hc, .inl h⟩
    | canopy hc h => exact .inr ⟨_, hc, .inr h⟩
    | glacier hc hk h => exact .inl (.inl ⟨_, (hgl _).2 ⟨hc, hk⟩, h⟩)
    | infiltration hs => exact .inl (.inr (.inl ⟨((hsoil _).1 hs).symm, .inl ⟨rfl, rfl⟩⟩))
    | excess hs => exact .inl (.inr (.inl ⟨((hsoil _).1 hs).symm, .inr ⟨rfl, rfl⟩⟩))
    | et => exact .inl (.inr (.inr (.inl ⟨rfl, .inl ⟨rfl, rfl⟩⟩)))
    | baseflow => exact .inl (.inr (.inr (.inl ⟨rfl, .inr (.inl ⟨rfl, rfl⟩)⟩)))
    | overflow => exact .inl (.inr (.inr (.inl ⟨rfl, .inr (.inr (.inl ⟨rfl, rfl⟩))⟩)))
    | percolation hl => exact .inl (.inr (.inr (.inl ⟨rfl, .inr (.inr (.inr ⟨hl, rfl, rfl⟩))⟩)))
    | second hl => exact .inl (.inr (.inr (.inr (.inl ⟨hl, rfl, rfl, rfl⟩))))
    | quick hq => exact .inl (.inr (.inr (.inr (.inr ⟨rfl, by rw [hq]; rfl, rfl⟩))))
    | quickLinear hq => exact .inl (.inr (.inr (.inr (.inr ⟨rfl, by rw [hq]; rfl, rfl⟩))))

/-! ## HBV-96 -/

theorem oneSoil_iff {o : HbvOpts} {cs : List PyCover} : Spec.OneSoil o cs ↔ hbvShared o cs = true := by
  unfold Spec.OneSoil hbvShared
  rw [hbvSoilCovers_eq, List.length_map, Bool.or_eq_true, beq_iff_eq, List.countP_eq_length_filter]
  have : (cs.filter fun c => decide (c.kind ≠ "lake" ∧ c.kind ≠ "glacier")) = soilsOf cs := by
    unfold soilsOf
    refine List.filter_congr fun c _ => ?_
    by_cases h1 : c.kind = "lake" <;> by_cases h2 : c.kind = "glacier" <;> simp [h1, h2]
  rw [this]

theorem soilOf_iff {o : HbvOpts} {cs : List PyCover} {c : PyCover} (hc : c ∈ cs) {s : String} :
    Spec.SoilOf o cs c s ↔ c ∈ soilsOf cs ∧ s = hbvSoil o cs c.name := by
  unfold Spec.SoilOf
  rw [oneSoil_iff, soil_mem]
  unfold Spec.SoilBearing hbvSoil
  cases hbvShared o cs <;> simp [hc]

theorem soils_iff {o : HbvOpts} {cs : List PyCover} {s : String} : s ∈ hbvSoils o cs ↔ ∃ c ∈ cs, Spec.SoilOf o cs c s := by
  have h1 : (∃ c ∈ cs, Spec.SoilOf o cs c s) ↔ ∃ c ∈ soilsOf cs, s = hbvSoil o cs c.name := by
    constructor
    · rintro ⟨c, hc, h⟩
      exact ⟨c, (soilOf_iff hc).1 h⟩
    · rintro ⟨c, hc, h⟩
      have := (soil_mem.1 hc).1
      exact ⟨c, this, (soilOf_iff this).2 ⟨hc, h⟩⟩
  rw [h1]
  unfold hbvSoils hbvSoil
  rw [hbvSoilCovers_eq]
  cases hbvShared o cs
  · simp [eq_comm]
  · cases soilsOf cs <;> simp

theorem hbv_unit_items (o : HbvOpts) (cs cs' gl : List PyCover) (S : Bool) (t : String) :
    (∃ it ∈ (hbvVariant o cs cs' gl S).items, it.place = .unit ∧ it.key = t) ↔
      t = "upper_zone" ∨ t = "lower_zone" ∨ t ∈ hbvSoils o cs ∨ t = "routing" := by
  have h : (∃ it ∈ (hbvVariant o cs cs' gl S).items, it.place = .unit ∧ it.key = t) ↔
      ∃ it ∈ Spec.itemsAt .unit (hbvVariant o cs cs' gl S).items, it.key = t := by
    simp only [mem_itemsAt, and_assoc]
  rw [h, hbvVariant_units, ← List.mem_map (f := Item.key), List.map_append, List.map_append, List.map_map]
  have h2 : (hbvSoils o cs).map (Item.key ∘ hbvSoilStore) = hbvSoils o cs := by
    rw [show (Item.key ∘ hbvSoilStore) = id from rfl, List.map_id]
  rw [h2]
  simp only [hbvResponse, hbvRouting, List.map_cons, List.map_nil, List.mem_append, List.mem_cons, List.not_mem_nil, or_false, or_assoc]

/-- The arrows of a unit of HBV-96 that is no lake. -/
theorem hbv_scheme {o : HbvOpts} (ho : Spec.GoodSnow o.snow) {cs cs' gl : List PyCover} (h : Spec.GoodCovers cs)
    (hgl : ∀ c, c ∈ gl ↔ c ∈ cs' ∧ c.kind = "glacier") {S : Bool} {x k : String} {e : Spec.End} :
    (ItemArrow (hbvVariant o cs cs' gl S) (hbvVariant o cs cs' gl S).items x k e ∨ SurfaceArrow (snowArgs o.snow cs') x k e) ↔
      Spec.HbvScheme o cs cs' x k e := by
  set v := hbvVariant o cs cs' gl S with hv
  have hn : ∀ n ∈ gsmNames, ¬ ∃ it ∈ v.items, it.place = .unit ∧ it.key = n := by
    rintro n hn hex
    obtain ⟨it, hit, hp, rfl⟩ := hex
    have hit' : it ∈ Spec.itemsAt .unit v.items := mem_itemsAt.2 ⟨hit, hp⟩
    rw [hv, hbvVariant_units, ← hbvCore_units] at hit'
    exact ((hbvCore_keys h (o := o)).2 it.key (List.mem_map.2 ⟨it, (mem_itemsAt.1 hit').1, rfl⟩)).1 hn
  have hitems : ItemArrow v v.items x k e ↔ ItemArrow v (hbvCore o cs) x k e ∨ ∃ c ∈ gl, Spec.GlacierScheme o.snow.melt c x k e := by
    rw [← itemArrow_glaciers (v := v) ho.melt hn]
    conv_lhs => rw [show v.items = hbvCore o cs ++ ((gl.map (·.name)).map (gsmCover o.snow.melt) ++ if S then gsmStores else []) from rfl]
    rw [itemArrow_append, itemArrow_append, itemArrow_stores, or_false]
  rw [hitems, surface_iff (cs := cs') (o := o.snow) rfl rfl rfl rfl rfl rfl rfl rfl]
  have hso : ∀ s ∈ hbvSoils o cs, s ≠ "outlet" := by
    intro s hs he
    rcases hbvSoils_cases hs with rfl | ⟨c, hc, rfl⟩
    · exact absurd he (by decide)
    · exact names_reserved h hc (s := "_soil_moisture") (by decide) (by rw [he]; decide)
  have own : ∀ q : PItem, ∀ t, q.kind ∉ Spec.atmosphereNames → q.targets = [t] → t ≠ "outlet" →
      (t = "upper_zone" ∨ t = "lower_zone" ∨ t ∈ hbvSoils o cs ∨ t = "routing") → (ItemEnd v q e ↔ e = .own t .water) :=
    fun q t h1 h2 h3 h4 => itemEnd_one h1 h2 h3 ((hbv_unit_items o cs cs' gl S t).2 h4)
  have e1 : ∀ s ∈ hbvSoils o cs, (ItemEnd v ⟨"infiltration", "infiltration:hbv", [s], false⟩ e ↔ e = .own s .water) :=
    fun s hs => own _ _ (by change "infiltration:hbv" ∉ _; decide) rfl (hso s hs) (.inr (.inr (.inl hs)))
  have e2 : ItemEnd v ⟨"recharge", "outflow:rest", ["upper_zone"], false⟩ e ↔ e = .own "upper_zone" .water :=
    own _ _ (by decide) rfl (by decide) (.inl rfl)
  have e3 : ItemEnd v ⟨"capillary", "capillary:hbv", hbvSoils o cs, false⟩ e ↔ ∃ s ∈ hbvSoils o cs, e = .own s .water :=
    itemEnd_own (by change "capillary:hbv" ∉ _; decide) fun s hs => ⟨hso s hs, (hbv_unit_items o cs cs' gl S s).2 (.inr (.inr (.inl hs)))⟩
  have e4 : ItemEnd v ⟨"percolation", "percolation:constant", ["lower_zone"], false⟩ e ↔ e = .own "lower_zone" .water :=
    own _ _ (by decide) rfl (by decide) (.inr (.inl rfl))
  have e5 : ItemEnd v ⟨"runoff", "runoff:hbv", ["routing"], false⟩ e ↔ e = .own "routing" .water :=
    own _ _ (by decide) rfl (by decide) (.inr (.inr (.inr rfl)))
  have e6 : ItemEnd v ⟨"outflow", "outflow:linear", ["routing"], false⟩ e ↔ e = .own "routing" .water :=
    own _ _ (by decide) rfl (by decide) (.inr (.inr (.inr rfl)))
  have e7 : ItemEnd v ⟨"et", "et:hbv", [], false⟩ e ↔ e = .air := itemEnd_air (by decide)
  have e8 : ItemEnd v ⟨"overflow", "overflow", ["routing"], false⟩ e ↔ e = .own "routing" .water :=
    own _ _ (by decide) rfl (by decide) (.inr (.inr (.inr rfl)))
  have e9 : ItemEnd v ⟨"routing", "routing:hbv", ["outlet"], false⟩ e ↔ e = .outlet := itemEnd_outlet (by decide) rfl
  have hcore : ItemArrow v (hbvCore o cs) x k e ↔
      (∃ c ∈ soilsOf cs, c.name = x ∧ (("infiltration:hbv" = k ∧ e = .own (hbvSoil o cs c.name) .water) ∨ ("outflow:rest" = k ∧ e = .own "upper_zone" .water))) ∨
      ("upper_zone" = x ∧ (("capillary:hbv" = k ∧ ∃ s ∈ hbvSoils o cs, e = .own s .water) ∨ ("percolation:constant" = k ∧ e = .own "lower_zone" .water) ∨
        ("runoff:hbv" = k ∧ e = .own "routing" .water))) ∨
      ("lower_zone" = x ∧ "outflow:linear" = k ∧ e = .own "routing" .water) ∨
      (x ∈ hbvSoils o cs ∧ (("et:hbv" = k ∧ e = .air) ∨ ("overflow" = k ∧ e = .own "routing" .water))) ∨
      ("routing" = x ∧ "routing:hbv" = k ∧ e = .outlet) := by
    have hc : (Place.cover ≠ Place.basin) = True := by simp
    have hu : (Place.unit ≠ Place.basin) = True := by simp
    have a1 : ItemArrow v ((hbvSoilCovers cs).map (hbvCover o cs)) x k e ↔ ∃ c ∈ soilsOf cs, c.name = x ∧
        (("infiltration:hbv" = k ∧ e = .own (hbvSoil o cs c.name) .water) ∨ ("outflow:rest" = k ∧ e = .own "upper_zone" .water)) := by
      rw [hbvSoilCovers_eq]
      constructor
      · rintro ⟨it, hit, -, rfl, hp⟩
        obtain ⟨n, hn, rfl⟩ := List.mem_map.1 hit
        obtain ⟨c, hcm, rfl⟩ := List.mem_map.1 hn
        refine ⟨c, hcm, rfl, ?_⟩
        have hsm : hbvSoil o cs c.name ∈ hbvSoils o cs := hbvSoil_mem (by rw [hbvSoilCovers_eq]; exact hn)
        simpa only [hbvCover, procArrow_cons, procArrow_nil, or_false, e1 _ hsm, e2] using hp
      · rintro ⟨c, hcm, rfl, hp⟩
        have hn : c.name ∈ (soilsOf cs).map (·.name) := List.mem_map.2 ⟨c, hcm, rfl⟩
        have hsm : hbvSoil o cs c.name ∈ hbvSoils o cs := hbvSoil_mem (by rw [hbvSoilCovers_eq]; exact hn)
        refine ⟨hbvCover o cs c.name, List.mem_map.2 ⟨_, hn, rfl⟩, by change Place.cover ≠ _; decide, rfl, ?_⟩
        simpa only [hbvCover, procArrow_cons, procArrow_nil, or_false, e1 _ hsm, e2] using hp
    have a2 : ItemArrow v ((hbvSoils o cs).map hbvSoilStore) x k e ↔ x ∈ hbvSoils o cs ∧ (("et:hbv" = k ∧ e = .air) ∨ ("overflow" = k ∧ e = .own "routing" .water)) := by
      constructor
      · rintro ⟨it, hit, -, rfl, hp⟩
        obtain ⟨s, hs, rfl⟩ := List.mem_map.1 hit
        refine ⟨hs, ?_⟩
        simpa only [hbvSoilStore, procArrow_cons, procArrow_nil, or_false, e7, e8] using hp
      · rintro ⟨hs, hp⟩
        refine ⟨hbvSoilStore x, List.mem_map.2 ⟨x, hs, rfl⟩, by change Place.unit ≠ _; decide, rfl, ?_⟩
        simpa only [hbvSoilStore, procArrow_cons, procArrow_nil, or_false, e7, e8] using hp
    unfold hbvCore
    rw [itemArrow_append, itemArrow_append, itemArrow_append, a1, a2]
    simp only [hbvResponse, hbvRouting, itemArrow_cons, itemArrow_nil, procArrow_cons, procArrow_nil, hu, e3, e4, e5, e6, e9, true_and, or_false, or_assoc]
  rw [hcore]
  constructor
  · rintro (((⟨c, hc, rfl, ⟨rfl, rfl⟩ | ⟨rfl, rfl⟩⟩ | ⟨rfl, ⟨rfl, s, hs, rfl⟩ | ⟨rfl, rfl⟩ | ⟨rfl, rfl⟩⟩ | ⟨rfl, rfl, rfl⟩ |
      ⟨hs, ⟨rfl, rfl⟩ | ⟨rfl, rfl⟩⟩ | ⟨rfl, rfl, rfl⟩) | ⟨c, hc, h⟩) | ⟨c, hc, h | h⟩)
    · have := (soil_mem.1 hc).1
      exact .infiltration this ((soilOf_iff this).2 ⟨hc, rfl⟩)
    · exact .recharge (soil_mem.1 hc).1 (soil_mem.1 hc).2
    · obtain ⟨c, hc, hs⟩ := soils_iff.1 hs
      exact .capillary hc hs
    · exact .percolation
    · exact .quick
    · exact .slow
    · obtain ⟨c, hc, hs⟩ := soils_iff.1 hs
      exact .et hc hs
    · obtain ⟨c, hc, hs⟩ := soils_iff.1 hs
      exact .overflow hc hs
    · exact .routing
    · exact .glacier ((hgl c).1 hc).1 ((hgl c).1 hc).2 h
    · exact .snow hc h
    · exact .canopy hc h
  · intro h
    cases h with
    | snow hc h => exact .inr ⟨_, hc, .inl h⟩
    | canopy hc h => exact .inr ⟨_, hc, .inr h⟩
    | glacier hc hk h => exact .inl (.inr ⟨_, (hgl _).2 ⟨hc, hk⟩, h⟩)
    | infiltration hc hs =>
      obtain ⟨h1, rfl⟩ := (soilOf_iff hc).1 hs
      exact .inl (.inl (.inl ⟨_, h1, rfl, .inl ⟨rfl, rfl⟩⟩))
    | recharge hc hs => exact .inl (.inl (.inl ⟨_, soil_mem.2 ⟨hc, hs⟩, rfl, .inr ⟨rfl, rfl⟩⟩))
    | et hc hs => exact .inl (.inl (.inr (.inr (.inr (.inl ⟨soils_iff.2 ⟨_, hc, hs⟩, .inl ⟨rfl, rfl⟩⟩)))))
    | overflow hc hs => exact .inl (.inl (.inr (.inr (.inr (.inl ⟨soils_iff.2 ⟨_, hc, hs⟩, .inr ⟨rfl, rfl⟩⟩)))))
    | capillary hc hs => exact .inl (.inl (.inr (.inl ⟨rfl, .inl ⟨rfl, _, soils_iff.2 ⟨_, hc, hs⟩, rfl⟩⟩)))
    | percolation => exact .inl (.inl (.inr (.inl ⟨rfl, .inr (.inl ⟨rfl, rfl⟩)⟩)))
    | quick => exact .inl (.inl (.inr (.inl ⟨rfl, .inr (.inr ⟨rfl, rfl⟩)⟩)))
    | slow => exact .inl (.inl (.inr (.inr (.inl ⟨rfl, rfl, rfl⟩))))
    | routing => exact .inl (.inl (.inr (.inr (.inr (.inr ⟨rfl, rfl, rfl⟩)))))

/-- The arrows of a unit of lakes. -/
theorem lake_scheme {o : HbvOpts} {cs lk : List PyCover} (h : Spec.GoodCovers cs) (hsub : ∀ c ∈ lk, c ∈ cs) (hlk : ∀ c ∈ lk, c.kind = "lake")
    {x k : String} {e : Spec.End} : (ItemArrow (hbvLakes o lk) (hbvLakes o lk).items x k e ∨ SurfaceArrow (hbvLakeArgs o lk) x k e) ↔
      Spec.LakeScheme lk x k e := by
  have hsurf : ¬ SurfaceArrow (hbvLakeArgs o lk) x k e := by
    rintro ⟨c', hc', ⟨h1, -⟩ | ⟨h1, -⟩⟩
    · obtain ⟨c, hc, rfl⟩ := List.mem_map.1 hc'
      have := (toCover_canopy.1 h1).2
      rw [hlk c hc] at this
      exact absurd this (by decide)
    · cases h1
  rw [or_iff_left hsurf]
  have e1 : ∀ c ∈ lk, (ItemEnd (hbvLakes o lk) ⟨"outflow", "outflow:direct", [c.name ++ "_storage"], true⟩ e ↔ e = .own (c.name ++ "_storage") .water) := by
    intro c hc
    refine itemEnd_one (by change "outflow:direct" ∉ _; decide) rfl ?_ ⟨lakeStore c.name, ?_, rfl, rfl⟩
    · intro he
      exact names_reserved h (hsub c hc) (s := "_storage") (by decide) (by change (lakeStore c.name).key ∈ _; rw [he]; decide)
    · exact List.mem_flatMap.2 ⟨c.name, List.mem_map.2 ⟨c, hc, rfl⟩, List.mem_cons_of_mem _ (List.mem_cons_self ..)⟩
  have e2 : ItemEnd (hbvLakes o lk) ⟨"et", "et:open_water", [], false⟩ e ↔ e = .air := itemEnd_air (by decide)
  have e3 : ItemEnd (hbvLakes o lk) ⟨"outflow", "outflow:linear", ["outlet"], false⟩ e ↔ e = .outlet := itemEnd_outlet (by decide) rfl
  constructor
  · rintro ⟨it, hit, -, rfl, hp⟩
    obtain ⟨c, hc, rfl | rfl⟩ := lake_item hit
    · simp only [procArrow_cons, procArrow_nil, or_false, e1 c hc] at hp
      obtain ⟨rfl, rfl⟩ := hp
      exact .inflow hc
    · simp only [lakeStore, procArrow_cons, procArrow_nil, or_false, e2, e3] at hp
      rcases hp with ⟨rfl, rfl⟩ | ⟨rfl, rfl⟩
      · exact .et hc
      · exact .outflow hc
  · intro hs
    have m1 : ∀ c ∈ lk, ∀ it ∈ hbvLake c.name, it ∈ (hbvLakes o lk).items :=
      fun c hc it hit => List.mem_flatMap.2 ⟨c.name, List.mem_map.2 ⟨c, hc, rfl⟩, hit⟩
    cases hs with
    | inflow hc =>
      refine ⟨_, m1 _ hc _ (List.mem_cons_self ..), by dsimp only; decide, rfl, ?_⟩
      rw [procArrow_cons, e1 _ hc]
      exact .inl ⟨rfl, rfl⟩
    | et hc =>
      refine ⟨_, m1 _ hc _ (List.mem_cons_of_mem _ (List.mem_cons_self ..)), by dsimp only; decide, rfl, ?_⟩
      rw [procArrow_cons, procArrow_cons, e2, e3]
      exact .inl ⟨rfl, rfl⟩
    | outflow hc =>
      refine ⟨_, m1 _ hc _ (List.mem_cons_of_mem _ (List.mem_cons_self ..)), by dsimp only; decide, rfl, ?_⟩
      rw [procArrow_cons, procArrow_cons, e2, e3]
      exact .inr (.inl ⟨rfl, rfl⟩)

/-! ## GR4J and GR6J -/

theorem gr_unit_items (o : GrOpts) (cs : List PyCover) (cover : String) (t : String) :
    (∃ it ∈ (⟨grArgs o cs, grItems o cover⟩ : Variant).items, it.place = .unit ∧ it.key = t) ↔
      (o.discrete = false ∧ t = cover ++ "_soil") ∨ t = "production_store" ∨ t = "uh_input" := by
  have h : (∃ it ∈ (⟨grArgs o cs, grItems o cover⟩ : Variant).items, it.place = .unit ∧ it.key = t) ↔
      ∃ it ∈ Spec.itemsAt .unit (grItems o cover), it.key = t := by
    simp only [mem_itemsAt, and_assoc]
  rw [h, gr_units, ← List.mem_map (f := Item.key)]
  have hk : (grStore o.discrete).key = "production_store" := by unfold grStore; split <;> rfl
  have hk' : (grRouting o).key = "uh_input" := rfl
  rw [List.map_append, List.map_cons, List.map_cons, hk, hk']
  cases o.discrete <;> simp [grSoil]

theorem proper_gr {o : GrOpts} (ho : Spec.GoodGr o) (cs : List PyCover) : ProperKinds (grArgs o cs) where
  melt := by
    refine melt_plain ?_
    change o.melt.getD "melt:degree_day" ∈ _
    cases hm : o.melt with
    | none => decide
    | some p => exact ho.melt p hm
  retention := by intro r hr; cases hr
  refreezing := by intro r hr; cases hr
  snowIce := by intro r hr; cases hr
  sublimation := by
    intro r hr
    have := ho.sublimation
    change o.sublimation = some r at hr
    rw [hr] at this
    have h2 : ∀ x ∈ [none, some "sublimation:constant", some "sublimation:pet"], ∀ r ∈ x, r ∈ Spec.atmosphereNames := by decide
    exact h2 _ this r rfl

/-- The arrows of a unit of GR4J or GR6J. -/
theorem gr_scheme {o : GrOpts} {cs : List PyCover} (h : Spec.GoodCovers cs) {c : PyCover} {r : List PyCover} (hcs : cs = c :: r)
    {x k : String} {e : Spec.End} :
    (ItemArrow ⟨grArgs o cs, grItems o c.name⟩ (grItems o c.name) x k e ∨ SurfaceArrow (grArgs o cs) x k e) ↔ Spec.GrScheme o cs x k e := by
  have hcm : c ∈ cs := by rw [hcs]; exact List.mem_cons_self ..
  set v : Variant := ⟨grArgs o cs, grItems o c.name⟩ with hv
  have hsurf : SurfaceArrow (grArgs o cs) x k e ↔ ∃ melt, o.melt = some melt ∧ ∃ c ∈ cs, Spec.SnowScheme (Spec.grSnow o melt) c x k e := by
    cases hm : o.melt with
    | none =>
      constructor
      · rintro ⟨c', hc', ⟨h1, -⟩ | ⟨h1, -⟩⟩
        · obtain ⟨c, hc, rfl⟩ := List.mem_map.1 hc'
          exact absurd (toCover_canopy.1 h1).1 (by decide)
        · change o.melt.isSome = true at h1
          rw [hm] at h1; cases h1
      · rintro ⟨melt, hm', -⟩
        cases hm'
    | some melt =>
      rw [surface_iff (o := Spec.grSnow o melt) (cs := cs) rfl (by change o.melt.isSome = true; rw [hm]; rfl) (by change o.melt.getD _ = _; rw [hm]; rfl)
        rfl rfl rfl rfl rfl]
      constructor
      · rintro ⟨c, hc, h | h⟩
        · exact ⟨melt, rfl, c, hc, h⟩
        · cases h with
          | drip h1 => cases h1
          | dripOnSnow h1 => cases h1
          | et h1 => cases h1
      · rintro ⟨melt', hm', c, hc, h⟩
        cases hm'
        exact ⟨c, hc, .inl h⟩
  rw [hsurf]
  have hso : c.name ++ "_soil" ≠ "outlet" := by
    intro he
    exact names_reserved h hcm (s := "_soil") (by decide) (by rw [he]; decide)
  have own : ∀ q : PItem, ∀ t, q.kind ∉ Spec.atmosphereNames → q.targets = [t] → t ≠ "outlet" →
      ((o.discrete = false ∧ t = c.name ++ "_soil") ∨ t = "production_store" ∨ t = "uh_input") → (ItemEnd v q e ↔ e = .own t .water) :=
    fun q t h1 h2 h3 h4 => itemEnd_one h1 h2 h3 ((gr_unit_items o cs c.name t).2 h4)
  have e1 : ItemEnd v ⟨"interception", "interception:gr4j", [], false⟩ e ↔ e = .air := itemEnd_air (by decide)
  have e2 : ItemEnd v ⟨"throughfall", "outflow:rest", ["production_store"], true⟩ e ↔ e = .own "production_store" .water :=
    own _ _ (by decide) rfl (by decide) (.inr (.inl rfl))
  have e3 : o.discrete = false → (ItemEnd v ⟨"throughfall", "outflow:rest", [c.name ++ "_soil"], true⟩ e ↔ e = .own (c.name ++ "_soil") .water) :=
    fun hd => own _ _ (by change "outflow:rest" ∉ _; decide) rfl hso (.inl ⟨hd, rfl⟩)
  have e4 : ItemEnd v ⟨"production", "production:gr4j", ["uh_input"], false⟩ e ↔ e = .own "uh_input" .water :=
    own _ _ (by decide) rfl (by decide) (.inr (.inr rfl))
  have e5 : ItemEnd v ⟨"et", "et:gr4j", [], false⟩ e ↔ e = .air := itemEnd_air (by decide)
  have e6 : ItemEnd v ⟨"production", "infiltration:gr4j", ["production_store"], false⟩ e ↔ e = .own "production_store" .water :=
    own _ _ (by decide) rfl (by decide) (.inr (.inl rfl))
  have e7 : ItemEnd v ⟨"runoff", "outflow:rest", ["uh_input"], false⟩ e ↔ e = .own "uh_input" .water :=
    own _ _ (by decide) rfl (by decide) (.inr (.inr rfl))
  have e8 : ItemEnd v ⟨"percolation", "percolation:gr4j", ["uh_input"], false⟩ e ↔ e = .own "uh_input" .water :=
    own _ _ (by decide) rfl (by decide) (.inr (.inr rfl))
  have e9 : ItemEnd v ⟨"routing", if o.six then "routing:gr6j" else "routing:gr4j", ["outlet"], false⟩ e ↔ e = .outlet := by
    cases o.six
    · exact itemEnd_outlet (by decide) rfl
    · exact itemEnd_outlet (by decide) rfl
  have hitems : ItemArrow v (grItems o c.name) x k e ↔
      (c.name = x ∧ (("interception:gr4j" = k ∧ e = .air) ∨ ("outflow:rest" = k ∧ e = .own (if o.discrete then "production_store" else c.name ++ "_soil") .water))) ∨
      (o.discrete = true ∧ "production_store" = x ∧ "production:gr4j" = k ∧ e = .own "uh_input" .water) ∨
      (o.discrete = false ∧ c.name ++ "_soil" = x ∧ (("infiltration:gr4j" = k ∧ e = .own "production_store" .water) ∨ ("outflow:rest" = k ∧ e = .own "uh_input" .water))) ∨
      (o.discrete = false ∧ "production_store" = x ∧ "percolation:gr4j" = k ∧ e = .own "uh_input" .water) ∨
      ("production_store" = x ∧ "et:gr4j" = k ∧ e = .air) ∨
      ("uh_input" = x ∧ (if o.six then "routing:gr6j" else "routing:gr4j") = k ∧ e = .outlet) := by
    have hc : (Place.cover ≠ Place.basin) = True := by simp
    have hu : (Place.unit ≠ Place.basin) = True := by simp
    unfold grItems grRouting
    cases hd : o.discrete
    · simp only [Bool.false_eq_true, if_false, itemArrow_cons, itemArrow_nil, procArrow_cons, procArrow_nil, hc, hu, e1, e3 hd, e5, e6, e7, e8, e9, true_and,
        false_and, or_false, false_or, and_or_left, or_assoc]
    · simp only [if_true, itemArrow_cons, itemArrow_nil, procArrow_cons, procArrow_nil, hc, hu, e1, e2, e4, e5, e9, true_and, Bool.true_eq_false,
        false_and, or_false, false_or, and_or_left, or_assoc]
  rw [hitems]
  constructor
  · rintro ((⟨rfl, ⟨rfl, rfl⟩ | ⟨rfl, rfl⟩⟩ | ⟨hd, rfl, rfl, rfl⟩ | ⟨hd, rfl, ⟨rfl, rfl⟩ | ⟨rfl, rfl⟩⟩ | ⟨hd, rfl, rfl, rfl⟩ | ⟨rfl, rfl, rfl⟩ | ⟨rfl, rfl, rfl⟩) |
      ⟨melt, hm, c', hc', h⟩)
    · exact .interception hcs
    · cases hd : o.discrete
      · exact .net hcs hd
      · exact .throughfall hcs hd
    · exact .production hd
    · exact .infiltration hcs hd
    · exact .excess hcs hd
    · exact .percolation hd
    · exact .et
    · cases hs : o.six
      · exact .routing4 hs
      · exact .routing6 hs
    · exact .snow hm hc' h
  · intro h
    have inj : ∀ {c' r'}, cs = c' :: r' → c' = c := by
      intro c' r' h'
      rw [hcs] at h'
      cases h'
      rfl
    cases h with
    | snow hm hc h => exact .inr ⟨_, hm, _, hc, h⟩
    | interception h1 => cases inj h1; exact .inl (.inl ⟨rfl, .inl ⟨rfl, rfl⟩⟩)
    | throughfall h1 hd => cases inj h1; exact .inl (.inl ⟨rfl, .inr ⟨rfl, by rw [hd]; rfl⟩⟩)
    | net h1 hd => cases inj h1; exact .inl (.inl ⟨rfl, .inr ⟨rfl, by rw [hd]; rfl⟩⟩)
    | production hd => exact .inl (.inr (.inl ⟨hd, rfl, rfl, rfl⟩))
    | infiltration h1 hd => cases inj h1; exact .inl (.inr (.inr (.inl ⟨hd, rfl, .inl ⟨rfl, rfl⟩⟩)))
    | excess h1 hd => cases inj h1; exact .inl (.inr (.inr (.inl ⟨hd, rfl, .inr ⟨rfl, rfl⟩⟩)))
    | percolation hd => exact .inl (.inr (.inr (.inr (.inl ⟨hd, rfl, rfl, rfl⟩))))
    | et => exact .inl (.inr (.inr (.inr (.inr (.inl ⟨rfl, rfl, rfl⟩)))))
    | routing4 hs => exact .inl (.inr (.inr (.inr (.inr (.inr ⟨rfl, by rw [hs]; rfl, rfl⟩)))))
    | routing6 hs => exact .inl (.inr (.inr (.inr (.inr (.inr ⟨rfl, by rw [hs]; rfl, rfl⟩)))))

end HB.Wire
