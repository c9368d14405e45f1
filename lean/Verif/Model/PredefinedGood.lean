import Verif.Model.PredefinedRun

/-! # Socont, HBV-96, GR4J and GR6J are good models. -/

set_option linter.unusedSectionVars false
set_option linter.unusedSimpArgs false

namespace HB.Wire

open HB.Names

/-! ## The glacier module -/

/-- The glacier storages of the sub-basin. -/
def gsmStores : List Item := [gsmStore gsmRain, gsmStore gsmIce]

/-- Their names. -/
def gsmNames : List String := [gsmRain, gsmIce]

theorem gsm_reserved : ∀ n ∈ gsmNames, n ∈ Spec.reserved ∧ n ≠ "lateral" ∧ n ∉ Spec.keywords := by decide

theorem gsmStore_ok (v : Variant) (bas : List String) {n : String} (hn : n ∈ gsmNames) : ItemOK v bas (gsmStore n) := by
  refine .basin rfl rfl (gsm_reserved n hn).2.2 ?_
  intro p hp
  simp only [gsmStore, List.mem_singleton] at hp
  subst hp
  refine ⟨procOK_one v bas "storage" (t := "outlet") (works_water (by decide) _) rfl (by decide) ?_, rfl, rfl, by decide, by decide⟩
  rintro (h | h)
  · exact absurd h (by decide)
  · exact absurd h (by decide)

theorem melt_on_glacier {k : String} (h : k ∈ Spec.meltKinds) (hne : k ≠ "melt:cemaneige") : Spec.CanWork k "glacier" := by
  simp only [Spec.meltKinds, List.mem_cons, List.not_mem_nil, or_false] at h
  rcases h with rfl | rfl | rfl | rfl
  · exact ⟨.meltDegreeDay, .ice, by decide, by decide⟩
  · exact ⟨.meltDegreeDayAspect, .ice, by decide, by decide⟩
  · exact ⟨.meltTemperatureIndex, .ice, by decide, by decide⟩
  · exact absurd rfl hne

section
variable {cs cs' : List PyCover} (h : Spec.GoodCovers cs) (hsub : cs'.Sublist cs)
include h hsub

theorem gsmCover_ok {v : Variant} (hg : CoversAre v.base cs') {bas : List String} (hbas : ∀ n ∈ gsmNames, n ∈ bas) {melt : String}
    (hmelt : melt ∈ Spec.meltKinds) (hne : melt ≠ "melt:cemaneige") {p : PyCover} (hp : p ∈ cs') (hpk : p.kind = "glacier") :
    ItemOK v bas (gsmCover melt p.name) := by
  refine .cover rfl rfl (mem_covers hg hp) ?_ ?_
  · intro c hc he q hq
    have hty : c.type = "glacier" := by
      rw [cover_type h hsub hg hp hc he, hpk]
      decide
    simp only [gsmCover, List.mem_cons, List.not_mem_nil, or_false] at hq
    rcases hq with rfl | rfl
    · refine procOK_one v bas _ (t := gsmRain) (works_water (by decide) _) rfl (by decide) ?_
      rintro (h | h)
      · exact absurd h (by decide)
      · exact absurd h (by decide)
    · refine procOK_one v bas _ (t := gsmIce) (by rw [hty]; exact melt_on_glacier hmelt hne) rfl (by decide) fun _ => .inl (hbas _ (by decide))
  · intro q hq _ t ht
    simp only [gsmCover, List.mem_cons, List.not_mem_nil, or_false] at hq
    rcases hq with rfl | rfl
    · simp only [List.mem_singleton] at ht
      subst ht
      exact .inl (hbas _ (by decide))
    · simp only [List.mem_singleton] at ht
      subst ht
      exact .inl (hbas _ (by decide))

/-- A storage of the unit with a name of the model. -/
theorem unitItem_ok {v : Variant} (hg : CoversAre v.base cs') {bas : List String} (hbas : ∀ n ∈ bas, n ∈ gsmNames) {it : Item}
    (hpl : it.place = .unit) (hk : it.kind = "storage") (hr : it.key ∈ Spec.reserved) (hkw : it.key ∉ Spec.keywords) (hgs : it.key ∉ gsmNames)
    (hp : ∀ p ∈ it.procs, ProcOK v bas "storage" p ∧ p.inst = false) : ItemOK v bas it :=
  .unit hpl hk hkw (base_reserved h hsub hg hr) (fun hb => hgs (hbas _ hb)) hp

/-- A storage of the unit named after a land cover. -/
theorem coverItem_ok {v : Variant} (hg : CoversAre v.base cs') {bas : List String} (hbas : ∀ n ∈ bas, n ∈ gsmNames) {it : Item} {c : PyCover}
    {s : String} (hc : c ∈ cs) (hs : s ∈ ["_soil_moisture", "_storage", "_soil"]) (hkey : it.key = c.name ++ s)
    (hpl : it.place = .unit) (hk : it.kind = "storage") (hp : ∀ p ∈ it.procs, ProcOK v bas "storage" p ∧ p.inst = false) : ItemOK v bas it := by
  have key : ∀ s ∈ ["_soil_moisture", "_storage", "_soil"], s ∈ Spec.suffixes := by decide
  have hres := names_reserved h hc (key s hs)
  refine .unit hpl hk ?_ (by rw [hkey]; exact base_suffix h hsub hg hc hs) ?_ hp
  · rw [hkey]; exact fun hx => hres (List.mem_append_left _ hx)
  · rw [hkey]; exact fun hx => hres (gsm_reserved _ (hbas _ hx)).1

end

theorem gsm_apart {cs cs' : List PyCover} (h : Spec.GoodCovers cs) (hsub : cs'.Sublist cs) {g : BaseArgs} (hg : CoversAre g cs') {bas : List String}
    (hbas : ∀ n ∈ bas, n ∈ gsmNames) : ∀ n ∈ bas, n ∉ (Spec.base g).unitBricks.map (·.name) ∧ n ∉ Spec.keywords :=
  fun n hn => ⟨base_reserved h hsub hg (gsm_reserved n (hbas n hn)).1, (gsm_reserved n (hbas n hn)).2.2⟩

theorem itemsAt_nil_of {pl : Place} {l : List Item} (h : ∀ it ∈ l, it.place ≠ pl) : Spec.itemsAt pl l = [] := by
  unfold Spec.itemsAt
  rw [List.filter_eq_nil_iff]
  intro it hit
  simpa using h it hit

theorem itemsAt_all {pl : Place} {l : List Item} (h : ∀ it ∈ l, it.place = pl) : Spec.itemsAt pl l = l := by
  unfold Spec.itemsAt
  rw [List.filter_eq_self]
  intro it hit
  simpa using h it hit

/-- Keys made of names of covers and of other names. -/
theorem keys_nodup {cs : List PyCover} (h : Spec.GoodCovers cs) {keys N R : List String} (hp : keys.Perm (N ++ R)) (hN : N.Nodup)
    (hN' : ∀ n ∈ N, n ∉ Spec.reserved) (hR : R.Nodup) (hR' : ∀ n ∈ R, n ∈ Spec.reserved) : keys.Nodup := by
  rw [hp.nodup_iff]
  refine List.nodup_append.2 ⟨hN, hR, ?_⟩
  rintro x hx y hy rfl
  exact hN' x hx (hR' x hy)

/-! ## Socont -/

/-- The shape of the variants of Socont. -/
def socontVariant (o : SocontOpts) (cs : List PyCover) (gl : List PyCover) (S : Bool) (soil : String) : Variant :=
  ⟨snowArgs o.snow cs, (gl.map (·.name)).map (gsmCover o.snow.melt) ++ (if S then gsmStores else []) ++ socontSoil o soil⟩

section
variable {cs cs' : List PyCover} (h : Spec.GoodCovers cs) (hsub : cs'.Sublist cs) {o : SocontOpts} (ho : Spec.GoodSnow o.snow)
  {gl : List PyCover} (hgl : gl.Sublist cs') (hgk : ∀ c ∈ gl, c.kind = "glacier") {S : Bool} (hS : gl ≠ [] → S = true)
  {soil : PyCover} (hsoil : soil ∈ cs') (hsk : soil.kind ≠ "glacier") (hice : gl ≠ [] → o.snow.melt ≠ "melt:cemaneige")

theorem socontSoil_keys (o : SocontOpts) (soil : String) : (socontSoil o soil).map (·.key) =
    soil :: "slow_reservoir" :: ((if o.secondLayer then ["slow_reservoir_2"] else []) ++ ["surface_runoff"]) := by
  unfold socontSoil
  cases o.secondLayer <;> rfl

theorem socontSoil_units (o : SocontOpts) (soil : String) : Spec.itemsAt .unit (socontSoil o soil) = (socontSoil o soil).tail := by
  unfold socontSoil Spec.itemsAt
  cases o.secondLayer <;> simp

include h hsub ho hgl hgk hS hsoil hsk hice

theorem socontVariant_good : Good (socontVariant o cs' gl S soil.name) (if S then gsmNames else []) := by
  set v := socontVariant o cs' gl S soil.name with hv
  set bas : List String := if S then gsmNames else [] with hbas
  have hg : CoversAre v.base cs' := snowArgs_covers _ _
  have hbg : ∀ n ∈ bas, n ∈ gsmNames := by
    intro n hn
    rw [hbas] at hn
    split at hn
    · exact hn
    · cases hn
  have hunits : Spec.itemsAt .unit v.items = (socontSoil o soil.name).tail := by
    rw [hv]
    unfold socontVariant
    simp only
    rw [itemsAt_append, itemsAt_append, itemsAt_nil_of, itemsAt_nil_of, List.nil_append, List.nil_append, socontSoil_units]
    · intro it hit
      split at hit
      · simp only [gsmStores, List.mem_cons, List.not_mem_nil, or_false] at hit
        rcases hit with rfl | rfl <;> (change Place.basin ≠ _; decide)
      · cases hit
    · intro it hit
      obtain ⟨n, -, rfl⟩ := List.mem_map.1 hit
      change Place.cover ≠ _; decide
  have hslow : Spec.Reaches v bas "slow_reservoir" := by
    refine .inr ⟨_, by rw [hunits]; exact List.mem_cons_self .., rfl⟩
  have hsurf : Spec.Reaches v bas "surface_runoff" := by
    refine .inr ⟨(socontSoil o soil.name).getLast (by simp [socontSoil]), ?_, ?_⟩
    · rw [hunits]; unfold socontSoil; cases o.secondLayer <;> simp
    · unfold socontSoil; cases o.secondLayer <;> simp
  have hone : ∀ (p : PItem) (ty t : String), p.kind ∈ waterKinds.map (·.1) → p.kind ∉ Spec.infiltrationNames → p.kind ≠ "capillary:hbv" →
      p.targets = [t] → t ∈ Spec.reserved → t ≠ "lateral" → ProcOK v bas ty p := by
    intro p ty t h1 h2 h3 h4 h5 h6
    exact procOK_one v bas ty (works_water h1 _) h4 (reserved_plain h5 h6) (by rintro (h | h); exacts [absurd h h2, absurd h h3])
  refine ⟨goodNames_of h hsub hg, snowArgs_buildable h hsub ho, plan_of ?_ ?_ (gsm_apart h hsub hg hbg) ?_⟩
  · -- keys
    have hk : v.items.map (·.key) = gl.map (·.name) ++ (if S then gsmNames else []) ++
        (soil.name :: "slow_reservoir" :: ((if o.secondLayer then ["slow_reservoir_2"] else []) ++ ["surface_runoff"])) := by
      rw [hv]
      unfold socontVariant
      simp only [List.map_append, List.map_map, socontSoil_keys]
      congr 2
      cases S <;> rfl
    rw [hk]
    have hsg : soil.name ∉ gl.map (·.name) := by
      intro hm
      obtain ⟨c, hc, he⟩ := List.mem_map.1 hm
      have := name_inj h (hsub.subset (hgl.subset hc)) (hsub.subset hsoil) he
      subst this
      exact hsk (hgk c hc)
    refine keys_nodup h (N := soil.name :: gl.map (·.name))
      (R := (if S then gsmNames else []) ++ ("slow_reservoir" :: ((if o.secondLayer then ["slow_reservoir_2"] else []) ++ ["surface_runoff"]))) ?_ ?_ ?_ ?_ ?_
    · rw [List.append_assoc, List.cons_append]
      refine (List.Perm.append_left _ List.perm_middle).trans ?_
      exact List.perm_middle
    · exact List.nodup_cons.2 ⟨hsg, ((hgl.trans hsub).map _).nodup (name_nodup h)⟩
    · intro n hn
      rcases List.mem_cons.1 hn with rfl | hn
      · exact name_reserved h (hsub.subset hsoil)
      · obtain ⟨c, hc, rfl⟩ := List.mem_map.1 hn
        exact name_reserved h (hsub.subset (hgl.subset hc))
    · cases S <;> cases o.secondLayer <;> decide
    · cases S <;> cases o.secondLayer <;> decide
  · -- entries
    intro it hit
    rw [hv] at hit
    unfold socontVariant at hit
    rcases List.mem_append.1 hit with hit | hit
    · rcases List.mem_append.1 hit with hit | hit
      · obtain ⟨n, hn, rfl⟩ := List.mem_map.1 hit
        obtain ⟨c, hc, rfl⟩ := List.mem_map.1 hn
        have hne : gl ≠ [] := List.ne_nil_of_mem hc
        refine gsmCover_ok h hsub hg ?_ ho.melt (hice hne) (hgl.subset hc) (hgk c hc)
        intro n hn
        rw [hbas, if_pos (hS hne)]
        exact hn
      · split at hit
        · simp only [gsmStores, List.mem_cons, List.not_mem_nil, or_false] at hit
          rcases hit with rfl | rfl
          · exact gsmStore_ok v bas (by decide)
          · exact gsmStore_ok v bas (by decide)
        · cases hit
    · unfold socontSoil at hit
      simp only [List.mem_append, List.mem_cons, List.not_mem_nil, or_false] at hit
      rcases hit with ((rfl | rfl) | hit) | rfl
      · refine .cover rfl rfl (mem_covers hg hsoil) ?_ ?_
        · intro c hc he q hq
          simp only [List.mem_cons, List.not_mem_nil, or_false] at hq
          rcases hq with rfl | rfl
          · exact procOK_one v bas _ (t := "slow_reservoir") (works_water (by decide) _) rfl (by decide) fun _ => hslow
          · exact hone _ _ "surface_runoff" (by decide) (by decide) (by decide) rfl (by decide) (by decide)
        · intro q hq _ t ht
          simp only [List.mem_cons, List.not_mem_nil, or_false] at hq
          rcases hq with rfl | rfl
          · rw [List.mem_singleton] at ht; subst ht; exact hslow
          · rw [List.mem_singleton] at ht; subst ht; exact hsurf
      · refine unitItem_ok h hsub hg hbg rfl rfl (by dsimp only; decide) (by dsimp only; decide) (by dsimp only; decide) fun q hq => ?_
        simp only [List.mem_append, List.mem_cons, List.not_mem_nil, or_false] at hq
        rcases hq with (rfl | rfl | rfl) | hq
        · exact ⟨procOK_none v bas _ (by decide) rfl (by decide) (by decide), rfl⟩
        · exact ⟨hone _ _ "outlet" (by decide) (by decide) (by decide) rfl (by decide) (by decide), rfl⟩
        · exact ⟨hone _ _ "outlet" (by decide) (by decide) (by decide) rfl (by decide) (by decide), rfl⟩
        · split at hq
          · rw [List.mem_singleton] at hq
            subst hq
            exact ⟨hone _ _ "slow_reservoir_2" (by decide) (by decide) (by decide) rfl (by decide) (by decide), rfl⟩
          · cases hq
      · split at hit
        · rw [List.mem_singleton] at hit
          subst hit
          refine unitItem_ok h hsub hg hbg rfl rfl (by dsimp only; decide) (by dsimp only; decide) (by dsimp only; decide) fun q hq => ?_
          rw [List.mem_singleton] at hq
          subst hq
          exact ⟨hone _ _ "outlet" (by decide) (by decide) (by decide) rfl (by decide) (by decide), rfl⟩
        · cases hit
      · refine unitItem_ok h hsub hg hbg rfl rfl (by dsimp only; decide) (by dsimp only; decide) (by dsimp only; decide) fun q hq => ?_
        rw [List.mem_singleton] at hq
        subst hq
        refine ⟨hone _ _ "outlet" ?_ ?_ ?_ rfl (by decide) (by decide), rfl⟩ <;> (dsimp only; cases o.linearRunoff <;> decide)
  · -- forward
    rw [hunits]
    unfold socontSoil
    cases hl : o.secondLayer
    · simp only [Bool.false_eq_true, if_false, List.append_nil, List.cons_append, List.nil_append, List.tail_cons]
      refine ⟨?_, ?_, trivial⟩
      · intro p hp ha t ht
        simp only [List.mem_cons, List.not_mem_nil, or_false] at hp
        rcases hp with rfl | rfl | rfl <;> simp at ht <;> exact .inl ht
      · intro p hp ha t ht
        rw [List.mem_singleton] at hp
        subst hp
        simp at ht; exact .inl ht
    · simp only [if_true, List.cons_append, List.nil_append, List.tail_cons]
      refine ⟨?_, ?_, ?_, trivial⟩
      · intro p hp ha t ht
        simp only [List.mem_cons, List.not_mem_nil, or_false] at hp
        rcases hp with rfl | rfl | rfl | rfl <;> simp at ht
        · exact .inl ht
        · exact .inl ht
        · subst ht
          exact .inr ⟨_, List.mem_cons_self .., rfl, fun _ => rfl⟩
      · intro p hp ha t ht
        rw [List.mem_singleton] at hp
        subst hp
        simp at ht; exact .inl ht
      · intro p hp ha t ht
        rw [List.mem_singleton] at hp
        subst hp
        simp at ht; exact .inl ht

omit h hsub ho hgl hgk hS hsoil hsk hice in
theorem socontVariant_solved (o : SocontOpts) (cs gl : List PyCover) (S : Bool) (soil : String) : NoSolvedExchange (socontVariant o cs gl S soil) := by
  intro it hit hpl p hp
  unfold socontVariant at hit
  rcases List.mem_append.1 hit with hit | hit
  · rcases List.mem_append.1 hit with hit | hit
    · obtain ⟨n, -, rfl⟩ := List.mem_map.1 hit
      rcases hpl with h | ⟨h, -⟩ <;> cases h
    · split at hit
      · simp only [gsmStores, List.mem_cons, List.not_mem_nil, or_false] at hit
        rcases hit with rfl | rfl <;> (simp only [gsmStore, List.mem_singleton] at hp; subst hp; decide)
      · cases hit
  · unfold socontSoil at hit
    simp only [List.mem_append, List.mem_cons, List.not_mem_nil, or_false] at hit
    rcases hit with ((rfl | rfl) | hit) | rfl
    · rcases hpl with h | ⟨h, -⟩ <;> cases h
    · simp only [List.mem_append, List.mem_cons, List.not_mem_nil, or_false] at hp
      rcases hp with (rfl | rfl | rfl) | hp
      · decide
      · decide
      · decide
      · split at hp
        · rw [List.mem_singleton] at hp; subst hp; decide
        · cases hp
    · split at hit
      · rw [List.mem_singleton] at hit
        subst hit
        rw [List.mem_singleton] at hp; subst hp; decide
      · cases hit
    · rw [List.mem_singleton] at hp; subst hp
      dsimp only; cases o.linearRunoff <;> decide

end

/-! ### Its variants -/

/-- The glacier covers. -/
def glaciersOf (cs : List PyCover) : List PyCover := cs.filter fun c => c.kind == "glacier"

theorem namesOf_eq (cs : List PyCover) : namesOf "glacier" cs = (glaciersOf cs).map (·.name) := rfl

theorem glacier_mem {cs : List PyCover} {c : PyCover} : c ∈ glaciersOf cs ↔ c ∈ cs ∧ c.kind = "glacier" := by
  simp [glaciersOf]

theorem filter_gsm {melt : String} {gl : List PyCover} (hne : gl ≠ []) (hres : ∀ c ∈ gl, c.name ∉ Spec.reserved) :
    (gsmItems melt (gl.map (·.name))).filter (fun it => decide (it.key ∉ gl.map (·.name))) = gsmStores := by
  unfold gsmItems
  rw [if_neg (by simpa using hne), List.filter_append]
  have h1 : List.filter (fun it => decide (it.key ∉ gl.map (·.name))) ((gl.map (·.name)).map (gsmCover melt)) = [] := by
    rw [List.filter_eq_nil_iff]
    intro it hit
    obtain ⟨n, hn, rfl⟩ := List.mem_map.1 hit
    simpa [gsmCover] using hn
  rw [h1, List.nil_append, List.filter_eq_self.2]
  · rfl
  · intro it hit
    have hr : it.key ∈ Spec.reserved := by
      simp only [List.mem_cons, List.not_mem_nil, or_false] at hit
      rcases hit with rfl | rfl <;> (dsimp only [gsmStore]; decide)
    refine decide_eq_true ?_
    intro hm
    obtain ⟨c, hc, he⟩ := List.mem_map.1 hm
    exact hres c hc (by rw [he]; exact hr)

theorem gsmItems_eq {melt : String} {gl : List PyCover} (hne : gl ≠ []) :
    gsmItems melt (gl.map (·.name)) = (gl.map (·.name)).map (gsmCover melt) ++ gsmStores := by
  unfold gsmItems
  rw [if_neg (by simpa using hne)]
  rfl

theorem filter_other {l : List Item} {gl : List PyCover} (h : ∀ it ∈ l, ∀ c ∈ gl, c.name ≠ it.key) :
    l.filter (fun it => decide (it.key ∉ gl.map (·.name))) = l := by
  rw [List.filter_eq_self]
  intro it hit
  refine decide_eq_true ?_
  intro hm
  obtain ⟨c, hc, he⟩ := List.mem_map.1 hm
  exact h it hit c hc he

/-- The variants of Socont. -/
theorem socont_variants {cs : List PyCover} (h : Spec.GoodCovers cs) (o : SocontOpts) {soil : PyCover} (hs : soil ∈ cs) (hsk : soil.kind ≠ "glacier")
    (he : soilCover cs = soil.name) : socont o cs =
      if glaciersOf cs = [] then [socontVariant o cs [] false soil.name]
      else [socontVariant o (cs.filter fun c => c.kind != "glacier") [] true soil.name, socontVariant o cs (glaciersOf cs) true soil.name] := by
  unfold socont splitGlaciers
  rw [namesOf_eq, he]
  by_cases hg : glaciersOf cs = []
  · rw [if_pos hg, if_pos (by rw [hg]; rfl), hg]
    rfl
  · rw [if_neg hg, if_neg (by simpa using hg)]
    have hres : ∀ c ∈ glaciersOf cs, c.name ∉ Spec.reserved := fun c hc => name_reserved h (glacier_mem.1 hc).1
    rw [List.filter_append, filter_gsm hg hres, filter_other, gsmItems_eq hg]
    · rfl
    · intro it hit c hc hn
      have hkey : it.key ∈ (socontSoil o soil.name).map (·.key) := List.mem_map.2 ⟨it, hit, rfl⟩
      rw [socontSoil_keys] at hkey
      rcases List.mem_cons.1 hkey with hk | hk
      · rw [hk] at hn
        have := name_inj h (glacier_mem.1 hc).1 hs hn
        subst this
        exact hsk (glacier_mem.1 hc).2
      · refine hres c hc ?_
        rw [hn]
        revert hk
        generalize it.key = k
        cases o.secondLayer
        · have : ∀ k ∈ "slow_reservoir" :: ((if false = true then ["slow_reservoir_2"] else []) ++ ["surface_runoff"]), k ∈ Spec.reserved := by decide
          exact this k
        · have : ∀ k ∈ "slow_reservoir" :: ((if true = true then ["slow_reservoir_2"] else []) ++ ["surface_runoff"]), k ∈ Spec.reserved := by decide
          exact this k

/-- The cover with the soil routine. -/
theorem soilCover_of {cs : List PyCover} (h : ∃ c ∈ cs, c.kind ≠ "glacier") : ∃ c ∈ cs, c.kind ≠ "glacier" ∧ soilCover cs = c.name := by
  cases hf : cs.filter (fun c => c.kind != "glacier") with
  | nil =>
    obtain ⟨c, hc, hk⟩ := h
    rw [List.filter_eq_nil_iff] at hf
    exact absurd (by simpa using hk) (hf c hc)
  | cons c l =>
    have hm : c ∈ cs.filter (fun c => c.kind != "glacier") := by rw [hf]; exact List.mem_cons_self ..
    rw [List.mem_filter] at hm
    exact ⟨c, hm.1, by simpa using hm.2, by unfold soilCover; rw [hf]; rfl⟩

/-- Names of the storages of the sub-basin. -/
def basOf (cs : List PyCover) : List String := if glaciersOf cs = [] then [] else gsmNames

theorem socont_basin (o : SocontOpts) (cs gl : List PyCover) (S : Bool) (soil : String) :
    (Spec.itemsAt .basin (socontVariant o cs gl S soil).items).map (·.key) = if S then gsmNames else [] := by
  unfold socontVariant
  simp only
  rw [itemsAt_append, itemsAt_append, itemsAt_nil_of, itemsAt_nil_of (l := socontSoil o soil), List.nil_append, List.append_nil]
  · cases S <;> rfl
  · intro it hit
    unfold socontSoil at hit
    simp only [List.mem_append, List.mem_cons, List.not_mem_nil, or_false] at hit
    rcases hit with ((rfl | rfl) | hit) | rfl
    · dsimp only; decide
    · dsimp only; decide
    · split at hit
      · rw [List.mem_singleton] at hit; subst hit; dsimp only; decide
      · cases hit
    · dsimp only; decide
  · intro it hit
    obtain ⟨n, -, rfl⟩ := List.mem_map.1 hit
    change Place.cover ≠ _; decide

theorem socont_good {cs : List PyCover} (h : Spec.GoodCovers cs) {o : SocontOpts} (ho : Spec.GoodSnow o.snow)
    (hsoil : ∃ c ∈ cs, c.kind ≠ "glacier") (hice : Spec.IceMelts o.snow.melt cs) :
    GoodModel (socont o cs) (basOf cs) ∧ (∀ v ∈ socont o cs, NoSolvedExchange v ∧ v.base.redistribution = o.snow.redistribution) := by
  obtain ⟨soil, hs, hsk, he⟩ := soilCover_of hsoil
  rw [socont_variants h o hs hsk he]
  unfold basOf
  by_cases hg : glaciersOf cs = []
  · rw [if_pos hg, if_pos hg]
    refine ⟨⟨?_, ?_⟩, ?_⟩
    · intro v hv
      rw [List.mem_singleton] at hv
      subst hv
      exact socontVariant_good h (List.Sublist.refl _) ho (List.nil_sublist _) (by simp) (S := false) (by simp) hs hsk (by simp)
    · intro v hv
      cases hv
      exact socont_basin ..
    · intro v hv
      rw [List.mem_singleton] at hv
      subst hv
      exact ⟨socontVariant_solved _ _ _ _ _, rfl⟩
  · rw [if_neg hg, if_neg hg]
    refine ⟨⟨?_, ?_⟩, ?_⟩
    · intro v hv
      simp only [List.mem_cons, List.not_mem_nil, or_false] at hv
      rcases hv with rfl | rfl
      · exact socontVariant_good h List.filter_sublist ho (List.nil_sublist _) (by simp) (S := true) (by simp)
          (List.mem_filter.2 ⟨hs, by simpa using hsk⟩) hsk (by simp)
      · refine socontVariant_good h (List.Sublist.refl _) ho List.filter_sublist (fun c hc => (glacier_mem.1 hc).2) (S := true) (by simp) hs hsk fun hne => ?_
        obtain ⟨c, hc⟩ := List.exists_mem_of_ne_nil _ hne
        exact hice ⟨c, glacier_mem.1 hc⟩
    · intro v hv
      cases hv
      exact socont_basin ..
    · intro v hv
      simp only [List.mem_cons, List.not_mem_nil, or_false] at hv
      rcases hv with rfl | rfl <;> exact ⟨socontVariant_solved _ _ _ _ _, rfl⟩

end HB.Wire
