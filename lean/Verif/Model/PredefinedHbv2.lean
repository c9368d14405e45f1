import Verif.Model.PredefinedHbv

/-! # HBV-96 is a good model: its lakes and its list of variants. -/

set_option linter.unusedSectionVars false
set_option linter.unusedSimpArgs false

namespace HB.Wire

open HB.Names

/-! ## The lake variant -/

/-- The lake covers. -/
def lakesOf (cs : List PyCover) : List PyCover := cs.filter fun c => c.kind == "lake"

theorem lake_mem {cs : List PyCover} {c : PyCover} : c ∈ lakesOf cs ↔ c ∈ cs ∧ c.kind = "lake" := by
  simp [lakesOf]

/-- The lake variant. -/
def hbvLakes (o : HbvOpts) (lk : List PyCover) : Variant := ⟨hbvLakeArgs o lk, (lk.map (·.name)).flatMap hbvLake⟩

/-- The storage of a lake. -/
def lakeStore (name : String) : Item :=
  { key := name ++ "_storage", place := .unit,
    procs := [⟨"et", "et:open_water", [], false⟩, ⟨"outflow", "outflow:linear", ["outlet"], false⟩] }

theorem lake_item {o : HbvOpts} {lk : List PyCover} {it : Item} (hit : it ∈ (hbvLakes o lk).items) : ∃ c ∈ lk,
    it = { key := c.name, place := .cover, procs := [⟨"outflow", "outflow:direct", [c.name ++ "_storage"], true⟩] } ∨ it = lakeStore c.name := by
  obtain ⟨n, hn, hit⟩ := List.mem_flatMap.1 hit
  obtain ⟨c, hc, rfl⟩ := List.mem_map.1 hn
  simp only [hbvLake, List.mem_cons, List.not_mem_nil, or_false] at hit
  exact ⟨c, hc, hit⟩

theorem lake_units (o : HbvOpts) (lk : List PyCover) : Spec.itemsAt .unit (hbvLakes o lk).items = lk.map fun c => lakeStore c.name := by
  unfold hbvLakes
  simp only
  induction lk with
  | nil => rfl
  | cons c lk ih =>
    rw [List.map_cons, List.flatMap_cons, itemsAt_append, ih]
    rfl

theorem lake_basin (o : HbvOpts) (lk : List PyCover) : Spec.itemsAt .basin (hbvLakes o lk).items = [] := by
  refine itemsAt_nil_of ?_
  intro it hit
  obtain ⟨c, -, rfl | rfl⟩ := lake_item hit
  · dsimp only; decide
  · change Place.unit ≠ _; decide

theorem hbvLakes_solved (o : HbvOpts) (lk : List PyCover) : NoSolvedExchange (hbvLakes o lk) := by
  intro it hit hpl p hp
  obtain ⟨c, -, rfl | rfl⟩ := lake_item hit
  · rcases hpl with h | ⟨h, -⟩ <;> cases h
  · simp only [lakeStore, List.mem_cons, List.not_mem_nil, or_false] at hp
    rcases hp with rfl | rfl <;> decide

section
variable {cs lk : List PyCover} (h : Spec.GoodCovers cs) (hsub : lk.Sublist cs) {o : HbvOpts} (ho : Spec.GoodSnow o.snow)
  {bas : List String} (hbg : ∀ n ∈ bas, n ∈ gsmNames)
include h hsub

theorem lake_keys : ((hbvLakes o lk).items.map (·.key)).Nodup := by
  have key : (hbvLakes o lk).items.map (·.key) = (lk.map (·.name)).flatMap fun n => [n, n ++ "_storage"] := by
    unfold hbvLakes
    simp only [List.map_flatMap]
    rfl
  rw [key, List.nodup_flatMap]
  refine ⟨?_, ?_⟩
  · intro n hn
    obtain ⟨c, hc, rfl⟩ := List.mem_map.1 hn
    have := names_ne h (hsub.subset hc) (hsub.subset hc) (s := "") (s' := "_storage") (by decide) (by decide) (by decide)
    simpa using this
  · have hnd : (lk.map (·.name)).Nodup := (hsub.map _).nodup (name_nodup h)
    refine List.Pairwise.imp_of_mem (R := fun a b => a ≠ b) ?_ hnd
    intro a b ha hb hab x hx hy
    obtain ⟨c, hc, rfl⟩ := List.mem_map.1 ha
    obtain ⟨c', hc', rfl⟩ := List.mem_map.1 hb
    have hc := hsub.subset hc
    have hc' := hsub.subset hc'
    have n1 := names_ne h hc hc' (s := "") (s' := "_storage") (by decide) (by decide) (by decide)
    have n2 := names_ne h hc' hc (s := "") (s' := "_storage") (by decide) (by decide) (by decide)
    simp only [String.append_empty] at n1 n2
    simp only [List.mem_cons, List.not_mem_nil, or_false] at hx hy
    rcases hx with rfl | rfl
    · rcases hy with hy | hy
      · exact hab hy
      · exact n1 hy
    · rcases hy with hy | hy
      · exact n2 hy.symm
      · exact hab (by rw [name_inj' h hc hc' hy])

include ho hbg

theorem hbvLakes_good : Good (hbvLakes o lk) bas := by
  have hg : CoversAre (hbvLakes o lk).base lk := ⟨_, rfl⟩
  have hbuild : Spec.Buildable (hbvLakes o lk).base := {
    names := coverNames_of h hsub hg
    types := coverTypes_of h hsub hg
    splitter := fun hx => absurd hx (by change ¬ (false = true); decide)
    retention := fun hx => absurd hx (by change ¬ (false = true); decide)
    melt := melt_self (k := "melt:degree_day") (by decide)
    outflow := fun p hp => by cases hp
    refreezing := fun p hp => by cases hp
    snowIce := snowIce_self ho.snowIce
    redistribution := ho.redistribution
    sublimation := fun p hp => by cases hp }
  refine ⟨goodNames_of h hsub hg, hbuild, plan_of (lake_keys h hsub) ?_ (gsm_apart h hsub hg hbg) ?_⟩
  · intro it hit
    obtain ⟨c, hc, rfl | rfl⟩ := lake_item hit
    · have hreach : Spec.Reaches (hbvLakes o lk) bas (c.name ++ "_storage") :=
        .inr ⟨lakeStore c.name, by rw [lake_units]; exact List.mem_map.2 ⟨c, hc, rfl⟩, rfl⟩
      refine .cover rfl rfl (mem_covers hg hc) ?_ ?_
      · intro c' hc' he q hq
        rw [List.mem_singleton] at hq; subst hq
        exact procOK_one _ bas _ (t := c.name ++ "_storage") (works_water (by dsimp only; decide) _) rfl
          (suffixed_plain h (hsub.subset hc) (by decide)) fun _ => hreach
      · intro q hq _ t ht
        rw [List.mem_singleton] at hq; subst hq
        rw [List.mem_singleton] at ht; subst ht
        exact hreach
    · refine coverItem_ok h hsub hg hbg (hsub.subset hc) (s := "_storage") (by decide) rfl rfl rfl fun q hq => ?_
      simp only [lakeStore, List.mem_cons, List.not_mem_nil, or_false] at hq
      rcases hq with rfl | rfl
      · exact ⟨procOK_none _ bas _ (by decide) rfl (by decide) (by decide), rfl⟩
      · refine ⟨procOK_one _ bas _ (t := "outlet") (works_water (by decide) _) rfl (by decide) ?_, rfl⟩
        rintro (hx | hx)
        · exact absurd hx (by decide)
        · exact absurd hx (by decide)
  · rw [lake_units]
    have := feedsLater_append (l := lk.map fun c => lakeStore c.name) (l' := []) ?_ trivial
    · rwa [List.append_nil] at this
    · intro it hit p hp ha t ht
      obtain ⟨c, -, rfl⟩ := List.mem_map.1 hit
      simp only [lakeStore, List.mem_cons, List.not_mem_nil, or_false] at hp
      rcases hp with rfl | rfl
      · cases ht
      · rw [List.mem_singleton] at ht; exact .inl ht

end

/-! ## Its variants -/

/-- The covers that are no lakes. -/
def dryOf (cs : List PyCover) : List PyCover := cs.filter fun c => c.kind != "lake"

theorem dry_mem {cs : List PyCover} {c : PyCover} : c ∈ dryOf cs ↔ c ∈ cs ∧ c.kind ≠ "lake" := by
  simp [dryOf]

theorem glaciers_dry (cs : List PyCover) : glaciersOf (dryOf cs) = glaciersOf cs := by
  unfold glaciersOf dryOf
  rw [List.filter_filter]
  refine List.filter_congr ?_
  intro c _
  by_cases hk : c.kind = "glacier"
  · rw [hk]; decide
  · have : (c.kind == "glacier") = false := by simpa using hk
    rw [this]; rfl

/-- The variants of HBV-96. -/
theorem hbv_variants {cs : List PyCover} (h : Spec.GoodCovers cs) (o : HbvOpts) (hs : soilsOf cs ≠ []) : hbv96 o cs =
    (if glaciersOf cs = [] then [hbvVariant o cs (dryOf cs) [] false]
      else [hbvVariant o cs ((dryOf cs).filter fun c => c.kind != "glacier") [] true, hbvVariant o cs (dryOf cs) (glaciersOf cs) true]) ++
    if lakesOf cs = [] then [] else [hbvLakes o (lakesOf cs)] := by
  unfold hbv96
  rw [if_neg (by rw [hbvSoilCovers_eq]; simpa using hs)]
  congr 1
  · have hitems : hbvItems o cs = hbvCore o cs ++ gsmItems o.snow.melt ((glaciersOf cs).map (·.name)) := by
      unfold hbvItems hbvCore
      simp only [List.append_assoc]
      rfl
    change splitGlaciers _ (dryOf cs) _ = _
    unfold splitGlaciers
    rw [namesOf_eq, glaciers_dry, hitems]
    by_cases hg : glaciersOf cs = []
    · rw [if_pos hg, if_pos (by rw [hg]; rfl), hg]
      rfl
    · rw [if_neg hg, if_neg (by simpa using hg)]
      have hres : ∀ c ∈ glaciersOf cs, c.name ∉ Spec.reserved := fun c hc => name_reserved h (glacier_mem.1 hc).1
      rw [List.filter_append, filter_gsm hg hres, filter_other, gsmItems_eq hg]
      · rfl
      · intro it hit c hc
        obtain ⟨hc1, hc2⟩ := glacier_mem.1 hc
        exact ((hbvCore_keys h (o := o)).2 it.key (List.mem_map.2 ⟨it, hit, rfl⟩)).2 c hc1 hc2
  · by_cases hl : lakesOf cs = []
    · rw [if_pos hl, if_pos]
      change (lakesOf cs).map _ = []
      rw [hl]; rfl
    · rw [if_neg hl, if_neg]
      · rfl
      · change (lakesOf cs).map _ ≠ []
        simpa using hl

theorem hbv_good {cs : List PyCover} (h : Spec.GoodCovers cs) {o : HbvOpts} (ho : Spec.GoodSnow o.snow)
    (hsoil : ∃ c ∈ cs, c.kind ≠ "lake" ∧ c.kind ≠ "glacier") (hice : Spec.IceMelts o.snow.melt cs) :
    GoodModel (hbv96 o cs) (basOf cs) ∧ (∀ v ∈ hbv96 o cs, NoSolvedExchange v ∧ v.base.redistribution = o.snow.redistribution) := by
  obtain ⟨c0, hc0, hk0⟩ := hsoil
  have hsne : soilsOf cs ≠ [] := List.ne_nil_of_mem (soil_mem.2 ⟨hc0, hk0⟩)
  rw [hbv_variants h o hsne]
  have hdry : (dryOf cs).Sublist cs := List.filter_sublist
  have hlk : (lakesOf cs).Sublist cs := List.filter_sublist
  have hsd : ∀ c ∈ soilsOf cs, c ∈ dryOf cs := fun c hc => dry_mem.2 ⟨(soil_mem.1 hc).1, (soil_mem.1 hc).2.1⟩
  have hlake : ∀ v ∈ (if lakesOf cs = [] then [] else [hbvLakes o (lakesOf cs)]), v = hbvLakes o (lakesOf cs) := by
    intro v hv
    split at hv
    · cases hv
    · rwa [List.mem_singleton] at hv
  have hbg : ∀ n ∈ basOf cs, n ∈ gsmNames := by
    intro n hn
    unfold basOf at hn
    split at hn
    · cases hn
    · exact hn
  by_cases hg : glaciersOf cs = []
  · have hb : basOf cs = [] := by unfold basOf; rw [if_pos hg]
    rw [if_pos hg]
    refine ⟨⟨?_, ?_⟩, ?_⟩
    · intro v hv
      rcases List.mem_append.1 hv with hv | hv
      · rw [List.mem_singleton] at hv
        subst hv
        rw [hb]
        exact hbvVariant_good h hdry hsd hsne ho (List.nil_sublist _) (by simp) (S := false) (by simp) (by simp)
      · rw [hlake v hv]
        exact hbvLakes_good h hlk ho hbg
    · intro v hv
      cases hv
      rw [hb]
      exact hbvVariant_basin ..
    · intro v hv
      rcases List.mem_append.1 hv with hv | hv
      · rw [List.mem_singleton] at hv
        subst hv
        exact ⟨hbvVariant_solved _ _ _ _ _, rfl⟩
      · rw [hlake v hv]
        exact ⟨hbvLakes_solved _ _, rfl⟩
  · have hb : basOf cs = gsmNames := by unfold basOf; rw [if_neg hg]
    rw [if_neg hg]
    refine ⟨⟨?_, ?_⟩, ?_⟩
    · intro v hv
      rcases List.mem_append.1 hv with hv | hv
      · rw [hb]
        simp only [List.mem_cons, List.not_mem_nil, or_false] at hv
        rcases hv with rfl | rfl
        · refine hbvVariant_good h (List.filter_sublist.trans hdry) ?_ hsne ho (List.nil_sublist _) (by simp) (S := true) (by simp) (by simp)
          intro c hc
          exact List.mem_filter.2 ⟨hsd c hc, by simpa using (soil_mem.1 hc).2.2⟩
        · refine hbvVariant_good h hdry hsd hsne ho ?_ (fun c hc => (glacier_mem.1 hc).2) (S := true) (by simp) fun hne => ?_
          · rw [← glaciers_dry]; exact List.filter_sublist
          · obtain ⟨c, hc⟩ := List.exists_mem_of_ne_nil _ hne
            exact hice ⟨c, glacier_mem.1 hc⟩
      · rw [hlake v hv]
        exact hbvLakes_good h hlk ho hbg
    · intro v hv
      cases hv
      rw [hb]
      exact hbvVariant_basin ..
    · intro v hv
      rcases List.mem_append.1 hv with hv | hv
      · simp only [List.mem_cons, List.not_mem_nil, or_false] at hv
        rcases hv with rfl | rfl <;> exact ⟨hbvVariant_solved _ _ _ _ _, rfl⟩
      · rw [hlake v hv]
        exact ⟨hbvLakes_solved _ _, rfl⟩

end HB.Wire
