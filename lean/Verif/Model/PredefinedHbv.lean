import Verif.Model.PredefinedGood

/-! # HBV-96, GR4J and GR6J are good models. -/

set_option linter.unusedSectionVars false
set_option linter.unusedSimpArgs false

namespace HB.Wire

open HB.Names

/-! ## HBV-96 -/

/-- The covers with a soil routine. -/
def soilsOf (cs : List PyCover) : List PyCover := cs.filter fun c => !(c.kind == "lake" || c.kind == "glacier")

theorem soil_mem {cs : List PyCover} {c : PyCover} : c ∈ soilsOf cs ↔ c ∈ cs ∧ c.kind ≠ "lake" ∧ c.kind ≠ "glacier" := by
  simp [soilsOf]

theorem hbvSoilCovers_eq (cs : List PyCover) : hbvSoilCovers cs = (soilsOf cs).map (·.name) := rfl

theorem hbvSoil_mem {o : HbvOpts} {cs : List PyCover} {n : String} (hn : n ∈ hbvSoilCovers cs) : hbvSoil o cs n ∈ hbvSoils o cs := by
  unfold hbvSoil hbvSoils
  by_cases h : hbvShared o cs = true
  · rw [if_pos h, if_pos h, if_neg (List.ne_nil_of_mem hn)]
    exact List.mem_cons_self ..
  · rw [if_neg h, if_neg h]
    exact List.mem_map.2 ⟨n, hn, rfl⟩

theorem hbvSoils_cases {o : HbvOpts} {cs : List PyCover} {s : String} (hs : s ∈ hbvSoils o cs) :
    s = "soil_moisture" ∨ ∃ c ∈ cs, s = c.name ++ "_soil_moisture" := by
  unfold hbvSoils at hs
  split at hs
  · split at hs
    · cases hs
    · rw [List.mem_singleton] at hs; exact .inl hs
  · rw [hbvSoilCovers_eq, List.map_map] at hs
    obtain ⟨c, hc, rfl⟩ := List.mem_map.1 hs
    exact .inr ⟨c, (soil_mem.1 hc).1, rfl⟩

/-- The entries of a unit with a soil routine. -/
def hbvCore (o : HbvOpts) (cs : List PyCover) : List Item :=
  (hbvSoilCovers cs).map (hbvCover o cs) ++ (hbvResponse o cs ++ ((hbvSoils o cs).map hbvSoilStore ++ [hbvRouting]))

/-- The shape of the variants of HBV-96 with a soil routine. -/
def hbvVariant (o : HbvOpts) (cs cs' gl : List PyCover) (S : Bool) : Variant :=
  ⟨snowArgs o.snow cs', hbvCore o cs ++ ((gl.map (·.name)).map (gsmCover o.snow.melt) ++ if S then gsmStores else [])⟩

theorem hbvCore_units (o : HbvOpts) (cs : List PyCover) : Spec.itemsAt .unit (hbvCore o cs) =
    hbvResponse o cs ++ ((hbvSoils o cs).map hbvSoilStore ++ [hbvRouting]) := by
  unfold hbvCore
  rw [itemsAt_append, itemsAt_nil_of, List.nil_append, itemsAt_all]
  · intro it hit
    simp only [List.mem_append, hbvResponse, List.mem_cons, List.not_mem_nil, or_false, List.mem_map] at hit
    rcases hit with (rfl | rfl) | ⟨s, -, rfl⟩ | rfl <;> rfl
  · intro it hit
    obtain ⟨n, -, rfl⟩ := List.mem_map.1 hit
    change Place.cover ≠ _; decide

theorem hbvCore_place {o : HbvOpts} {cs : List PyCover} {it : Item} (hit : it ∈ hbvCore o cs) : it.place ≠ .basin := by
  unfold hbvCore at hit
  simp only [List.mem_append, hbvResponse, List.mem_cons, List.not_mem_nil, or_false, List.mem_map] at hit
  rcases hit with ⟨n, -, rfl⟩ | (rfl | rfl) | ⟨s, -, rfl⟩ | rfl
  · change Place.cover ≠ _; decide
  all_goals (change Place.unit ≠ _; decide)

theorem gsm_units (melt : String) (gl : List PyCover) (S : Bool) :
    Spec.itemsAt .unit ((gl.map (·.name)).map (gsmCover melt) ++ if S then gsmStores else []) = [] := by
  refine itemsAt_nil_of ?_
  intro it hit
  rcases List.mem_append.1 hit with hit | hit
  · obtain ⟨n, -, rfl⟩ := List.mem_map.1 hit
    change Place.cover ≠ _; decide
  · split at hit
    · simp only [gsmStores, List.mem_cons, List.not_mem_nil, or_false] at hit
      rcases hit with rfl | rfl <;> (change Place.basin ≠ _; decide)
    · cases hit

theorem gsm_basin (melt : String) (gl : List PyCover) (S : Bool) :
    (Spec.itemsAt .basin ((gl.map (·.name)).map (gsmCover melt) ++ if S then gsmStores else [])).map (·.key) = if S then gsmNames else [] := by
  rw [itemsAt_append, itemsAt_nil_of, List.nil_append]
  · cases S <;> rfl
  · intro it hit
    obtain ⟨n, -, rfl⟩ := List.mem_map.1 hit
    change Place.cover ≠ _; decide

theorem hbvVariant_units (o : HbvOpts) (cs cs' gl : List PyCover) (S : Bool) : Spec.itemsAt .unit (hbvVariant o cs cs' gl S).items =
    hbvResponse o cs ++ ((hbvSoils o cs).map hbvSoilStore ++ [hbvRouting]) := by
  unfold hbvVariant
  simp only
  rw [itemsAt_append, hbvCore_units, gsm_units, List.append_nil]

theorem hbvVariant_basin (o : HbvOpts) (cs cs' gl : List PyCover) (S : Bool) :
    (Spec.itemsAt .basin (hbvVariant o cs cs' gl S).items).map (·.key) = if S then gsmNames else [] := by
  unfold hbvVariant
  simp only
  rw [itemsAt_append, itemsAt_nil_of (fun it hit => hbvCore_place hit), List.nil_append, gsm_basin]

section
variable {cs cs' : List PyCover} (h : Spec.GoodCovers cs) (hsub : cs'.Sublist cs) (hsoil : ∀ c ∈ soilsOf cs, c ∈ cs')
  (hsne : soilsOf cs ≠ []) {o : HbvOpts} (ho : Spec.GoodSnow o.snow)
  {gl : List PyCover} (hgl : gl.Sublist cs') (hgk : ∀ c ∈ gl, c.kind = "glacier") {S : Bool} (hS : gl ≠ [] → S = true)
  (hice : gl ≠ [] → o.snow.melt ≠ "melt:cemaneige")

include h

theorem hbvSoils_plain {s : String} (hs : s ∈ hbvSoils o cs) : s ≠ "" ∧ ':' ∉ s.toList ∧ s ≠ "lateral" := by
  rcases hbvSoils_cases hs with rfl | ⟨c, hc, rfl⟩
  · decide
  · exact suffixed_plain h hc (by decide)

theorem hbvCore_keys : ((hbvCore o cs).map (·.key)).Nodup ∧ ∀ k ∈ (hbvCore o cs).map (·.key), k ∉ gsmNames ∧ ∀ c ∈ cs, c.kind = "glacier" → c.name ≠ k := by
  have e : (hbvCore o cs).map (·.key) = (soilsOf cs).map (·.name) ++ (["upper_zone", "lower_zone"] ++ (hbvSoils o cs ++ ["routing"])) := by
    unfold hbvCore
    simp only [List.map_append, List.map_map, hbvSoilCovers_eq]
    congr 1
    · congr 1
      congr 1
      rw [show ((fun x : Item => x.key) ∘ hbvSoilStore) = id from rfl, List.map_id]
  rw [e]
  have hss : (soilsOf cs).Sublist cs := List.filter_sublist
  have hn1 : ((soilsOf cs).map (·.name)).Nodup := (hss.map _).nodup (name_nodup h)
  have hr1 : ∀ n ∈ (soilsOf cs).map (·.name), n ∉ Spec.reserved := by
    intro n hn
    obtain ⟨c, hc, rfl⟩ := List.mem_map.1 hn
    exact name_reserved h (hss.subset hc)
  have hgl : ∀ n ∈ (soilsOf cs).map (·.name), ∀ c ∈ cs, c.kind = "glacier" → c.name ≠ n := by
    intro n hn c hc hk he
    obtain ⟨c', hc', rfl⟩ := List.mem_map.1 hn
    have := name_inj h hc (hss.subset hc') he
    subst this
    exact (soil_mem.1 hc').2.2 hk
  have hres : ∀ k ∈ Spec.reserved, k ∉ gsmNames → k ∉ gsmNames ∧ ∀ c ∈ cs, c.kind = "glacier" → c.name ≠ k := by
    intro k hk hg
    refine ⟨hg, fun c hc _ he => name_reserved h hc (by rw [he]; exact hk)⟩
  have hgr : ∀ n, n ∉ Spec.reserved → n ∉ gsmNames := fun n hn hg => hn (gsm_reserved n hg).1
  by_cases hsh : hbvShared o cs = true
  · have hs : ∀ s ∈ hbvSoils o cs, s = "soil_moisture" := by
      unfold hbvSoils
      rw [if_pos hsh]
      split
      · intro s hs; cases hs
      · intro s hs; rwa [List.mem_singleton] at hs
    have hsn : (hbvSoils o cs).Nodup := by
      unfold hbvSoils
      rw [if_pos hsh]
      split <;> simp
    refine ⟨?_, ?_⟩
    · refine keys_nodup h (List.Perm.refl _) hn1 hr1 ?_ ?_
      · refine List.nodup_append.2 ⟨by decide, List.nodup_append.2 ⟨hsn, by decide, ?_⟩, ?_⟩
        · intro x hx y hy
          rw [hs x hx]
          rw [List.mem_singleton] at hy; subst hy; decide
        · intro x hx y hy
          rcases List.mem_append.1 hy with hy | hy
          · rw [hs y hy]
            have : ∀ x ∈ ["upper_zone", "lower_zone"], x ≠ "soil_moisture" := by decide
            exact this x hx
          · rw [List.mem_singleton] at hy; subst hy
            have : ∀ x ∈ ["upper_zone", "lower_zone"], x ≠ "routing" := by decide
            exact this x hx
      · intro n hn
        rcases List.mem_append.1 hn with hn | hn
        · have : ∀ x ∈ ["upper_zone", "lower_zone"], x ∈ Spec.reserved := by decide
          exact this n hn
        · rcases List.mem_append.1 hn with hn | hn
          · rw [hs n hn]; decide
          · rw [List.mem_singleton] at hn; subst hn; decide
    · intro k hk
      rcases List.mem_append.1 hk with hk | hk
      · exact ⟨hgr _ (hr1 k hk), hgl k hk⟩
      · rcases List.mem_append.1 hk with hk | hk
        · have : ∀ x ∈ ["upper_zone", "lower_zone"], x ∈ Spec.reserved ∧ x ∉ gsmNames := by decide
          exact hres k (this k hk).1 (this k hk).2
        · rcases List.mem_append.1 hk with hk | hk
          · rw [hs k hk]; exact hres _ (by decide) (by decide)
          · rw [List.mem_singleton] at hk; subst hk; exact hres _ (by decide) (by decide)
  · have hs : hbvSoils o cs = (soilsOf cs).map fun c => c.name ++ "_soil_moisture" := by
      unfold hbvSoils
      rw [if_neg hsh, hbvSoilCovers_eq, List.map_map]
      rfl
    have hsn : (hbvSoils o cs).Nodup := by
      rw [hs]
      exact (hss.map _).nodup (names_nodup h "_soil_moisture" (by decide))
    have hsr : ∀ s ∈ hbvSoils o cs, s ∉ Spec.reserved := by
      rw [hs]
      intro s hs
      obtain ⟨c, hc, rfl⟩ := List.mem_map.1 hs
      exact names_reserved h (hss.subset hc) (by decide)
    have hsg : ∀ s ∈ hbvSoils o cs, ∀ c ∈ cs, c.name ≠ s := by
      rw [hs]
      intro s hs c hc he
      obtain ⟨c', hc', rfl⟩ := List.mem_map.1 hs
      refine names_ne h hc (hss.subset hc') (s := "") (s' := "_soil_moisture") (by decide) (by decide) (by decide) ?_
      simpa using he
    refine ⟨?_, ?_⟩
    · refine keys_nodup h (N := (soilsOf cs).map (·.name) ++ hbvSoils o cs) (R := ["upper_zone", "lower_zone", "routing"]) ?_ ?_ ?_ (by decide) (by decide)
      · rw [List.append_assoc]
        refine List.Perm.append_left _ ?_
        have : (["upper_zone", "lower_zone"] ++ (hbvSoils o cs ++ ["routing"])).Perm ((hbvSoils o cs ++ ["routing"]) ++ ["upper_zone", "lower_zone"]) :=
          List.perm_append_comm
        refine this.trans ?_
        rw [List.append_assoc]
        exact List.Perm.append_left _ (by decide)
      · refine List.nodup_append.2 ⟨hn1, hsn, ?_⟩
        rintro x hx y hy rfl
        obtain ⟨c, hc, rfl⟩ := List.mem_map.1 hx
        exact hsg _ hy c (hss.subset hc) rfl
      · intro n hn
        rcases List.mem_append.1 hn with hn | hn
        · exact hr1 n hn
        · exact hsr n hn
    · intro k hk
      rcases List.mem_append.1 hk with hk | hk
      · exact ⟨hgr _ (hr1 k hk), hgl k hk⟩
      · rcases List.mem_append.1 hk with hk | hk
        · have : ∀ x ∈ ["upper_zone", "lower_zone"], x ∈ Spec.reserved ∧ x ∉ gsmNames := by decide
          exact hres k (this k hk).1 (this k hk).2
        · rcases List.mem_append.1 hk with hk | hk
          · exact ⟨hgr _ (hsr k hk), fun c hc _ => hsg k hk c hc⟩
          · rw [List.mem_singleton] at hk; subst hk; exact hres _ (by decide) (by decide)

include hsub hsoil hsne ho hgl hgk hS hice

theorem hbvVariant_good : Good (hbvVariant o cs cs' gl S) (if S then gsmNames else []) := by
  set v := hbvVariant o cs cs' gl S with hv
  set bas : List String := if S then gsmNames else [] with hbas
  have hg : CoversAre v.base cs' := snowArgs_covers _ _
  have hbg : ∀ n ∈ bas, n ∈ gsmNames := by
    intro n hn
    rw [hbas] at hn
    split at hn
    · exact hn
    · cases hn
  have hunits := hbvVariant_units o cs cs' gl S
  rw [← hv] at hunits
  have hupper : Spec.Reaches v bas "upper_zone" := .inr ⟨_, by rw [hunits]; exact List.mem_append_left _ (List.mem_cons_self ..), rfl⟩
  have hsoils : ∀ s ∈ hbvSoils o cs, Spec.Reaches v bas s := by
    intro s hs
    exact .inr ⟨hbvSoilStore s, by rw [hunits]; exact List.mem_append_right _ (List.mem_append_left _ (List.mem_map.2 ⟨s, hs, rfl⟩)), rfl⟩
  have hone : ∀ (p : PItem) (ty t : String), p.kind ∈ waterKinds.map (·.1) → p.kind ∉ Spec.infiltrationNames → p.kind ≠ "capillary:hbv" →
      p.targets = [t] → t ∈ Spec.reserved → t ≠ "lateral" → ProcOK v bas ty p := by
    intro p ty t h1 h2 h3 h4 h5 h6
    exact procOK_one v bas ty (works_water h1 _) h4 (reserved_plain h5 h6) (by rintro (h | h); exacts [absurd h h2, absurd h h3])
  have hsne' : hbvSoils o cs ≠ [] := by
    obtain ⟨c, hc⟩ := List.exists_mem_of_ne_nil _ hsne
    exact List.ne_nil_of_mem (hbvSoil_mem (o := o) (n := c.name) (by rw [hbvSoilCovers_eq]; exact List.mem_map.2 ⟨c, hc, rfl⟩))
  refine ⟨goodNames_of h hsub hg, snowArgs_buildable h hsub ho, plan_of ?_ ?_ (gsm_apart h hsub hg hbg) ?_⟩
  · -- keys
    obtain ⟨k1, k2⟩ := hbvCore_keys h (o := o)
    rw [hv]
    unfold hbvVariant
    simp only [List.map_append]
    have e1 : ((gl.map (·.name)).map (gsmCover o.snow.melt)).map (·.key) = gl.map (·.name) := by
      rw [List.map_map]
      rw [show ((fun x : Item => x.key) ∘ gsmCover o.snow.melt) = id from rfl, List.map_id]
    have e2 : (if S then gsmStores else []).map (·.key) = if S then gsmNames else [] := by cases S <;> rfl
    rw [e1, e2]
    refine List.nodup_append.2 ⟨k1, keys_nodup h (List.Perm.refl _) (((hgl.trans hsub).map _).nodup (name_nodup h)) ?_ ?_ ?_, ?_⟩
    · intro n hn
      obtain ⟨c, hc, rfl⟩ := List.mem_map.1 hn
      exact name_reserved h (hsub.subset (hgl.subset hc))
    · cases S <;> decide
    · cases S <;> decide
    · rintro x hx y hy rfl
      obtain ⟨q1, q2⟩ := k2 x hx
      rcases List.mem_append.1 hy with hy | hy
      · obtain ⟨c, hc, he⟩ := List.mem_map.1 hy
        exact q2 c (hsub.subset (hgl.subset hc)) (hgk c hc) he
      · exact q1 (hbg x hy)
  · -- entries
    intro it hit
    rw [hv] at hit
    unfold hbvVariant at hit
    rcases List.mem_append.1 hit with hit | hit
    · unfold hbvCore at hit
      rcases List.mem_append.1 hit with hit | hit
      · obtain ⟨n, hn, rfl⟩ := List.mem_map.1 hit
        have hsm := hbvSoil_mem (o := o) hn
        rw [hbvSoilCovers_eq] at hn
        obtain ⟨c, hc, rfl⟩ := List.mem_map.1 hn
        refine .cover rfl rfl (mem_covers hg (hsoil c hc)) ?_ ?_
        · intro c' hc' he q hq
          simp only [hbvCover, List.mem_cons, List.not_mem_nil, or_false] at hq
          rcases hq with rfl | rfl
          · exact procOK_one v bas _ (t := hbvSoil o cs c.name) (works_water (by dsimp only; decide) _) rfl (hbvSoils_plain h hsm) fun _ => hsoils _ hsm
          · exact hone _ _ "upper_zone" (by decide) (by decide) (by decide) rfl (by decide) (by decide)
        · intro q hq _ t ht
          simp only [hbvCover, List.mem_cons, List.not_mem_nil, or_false] at hq
          rcases hq with rfl | rfl
          · rw [List.mem_singleton] at ht; subst ht; exact hsoils _ hsm
          · rw [List.mem_singleton] at ht; subst ht; exact hupper
      · rcases List.mem_append.1 hit with hit | hit
        · simp only [hbvResponse, List.mem_cons, List.not_mem_nil, or_false] at hit
          rcases hit with rfl | rfl
          · refine unitItem_ok h hsub hg hbg rfl rfl (by dsimp only; decide) (by dsimp only; decide) (by dsimp only; decide) fun q hq => ?_
            simp only [List.mem_cons, List.not_mem_nil, or_false] at hq
            rcases hq with rfl | rfl | rfl
            · refine ⟨⟨works_water (by dsimp only; decide) _, fun hx => absurd hx hsne', fun t ht => hbvSoils_plain h ht,
                fun hx => absurd hx (by dsimp only; decide), fun _ t ht => hsoils t ht⟩, rfl⟩
            · exact ⟨hone _ _ "lower_zone" (by decide) (by decide) (by decide) rfl (by decide) (by decide), rfl⟩
            · exact ⟨hone _ _ "routing" (by decide) (by decide) (by decide) rfl (by decide) (by decide), rfl⟩
          · refine unitItem_ok h hsub hg hbg rfl rfl (by dsimp only; decide) (by dsimp only; decide) (by dsimp only; decide) fun q hq => ?_
            rw [List.mem_singleton] at hq
            subst hq
            exact ⟨hone _ _ "routing" (by decide) (by decide) (by decide) rfl (by decide) (by decide), rfl⟩
        · rcases List.mem_append.1 hit with hit | hit
          · obtain ⟨s, hs, rfl⟩ := List.mem_map.1 hit
            have hpr : ∀ q ∈ (hbvSoilStore s).procs, ProcOK v bas "storage" q ∧ q.inst = false := by
              intro q hq
              simp only [hbvSoilStore, List.mem_cons, List.not_mem_nil, or_false] at hq
              rcases hq with rfl | rfl
              · exact ⟨procOK_none v bas _ (by decide) rfl (by decide) (by decide), rfl⟩
              · exact ⟨hone _ _ "routing" (by decide) (by decide) (by decide) rfl (by decide) (by decide), rfl⟩
            rcases hbvSoils_cases hs with rfl | ⟨c, hc, rfl⟩
            · exact unitItem_ok h hsub hg hbg rfl rfl (by dsimp only [hbvSoilStore]; decide) (by dsimp only [hbvSoilStore]; decide) (by dsimp only [hbvSoilStore]; decide) hpr
            · exact coverItem_ok h hsub hg hbg hc (s := "_soil_moisture") (by decide) rfl rfl rfl hpr
          · rw [List.mem_singleton] at hit
            subst hit
            refine unitItem_ok h hsub hg hbg rfl rfl (by decide) (by decide) (by decide) fun q hq => ?_
            simp only [hbvRouting, List.mem_singleton] at hq
            subst hq
            exact ⟨hone _ _ "outlet" (by decide) (by decide) (by decide) rfl (by decide) (by decide), rfl⟩
    · rcases List.mem_append.1 hit with hit | hit
      · obtain ⟨n, hn, rfl⟩ := List.mem_map.1 hit
        obtain ⟨c, hc, rfl⟩ := List.mem_map.1 hn
        have hne : gl ≠ [] := List.ne_nil_of_mem hc
        refine gsmCover_ok h hsub hg ?_ ho.melt (hice hne) (hgl.subset hc) (hgk c hc)
        intro n hn
        rw [hbas, if_pos (hS hne)]
        exact hn
      · split at hit
        · simp only [gsmStores, List.mem_cons, List.not_mem_nil, or_false] at hit
          rcases hit with rfl | rfl
          · exact gsmStore_ok v bas (by decide)
          · exact gsmStore_ok v bas (by decide)
        · cases hit
  · -- forward
    rw [hunits]
    have hrout : hbvRouting ∈ (hbvSoils o cs).map hbvSoilStore ++ [hbvRouting] := List.mem_append_right _ (List.mem_cons_self ..)
    unfold hbvResponse
    simp only [List.cons_append, List.nil_append]
    refine ⟨?_, ?_, feedsLater_append (l := (hbvSoils o cs).map hbvSoilStore) (l' := [hbvRouting]) ?_ ⟨?_, trivial⟩⟩
    · intro p hp ha t ht
      simp only [List.mem_cons, List.not_mem_nil, or_false] at hp
      rcases hp with rfl | rfl | rfl
      · exact .inr ⟨hbvSoilStore t, List.mem_cons_of_mem _ (List.mem_append_left _ (List.mem_map.2 ⟨t, ht, rfl⟩)), rfl, fun _ => rfl⟩
      · rw [List.mem_singleton] at ht; subst ht
        exact .inr ⟨_, List.mem_cons_self .., rfl, fun _ => rfl⟩
      · rw [List.mem_singleton] at ht; subst ht
        exact .inr ⟨hbvRouting, List.mem_cons_of_mem _ hrout, rfl, fun _ => rfl⟩
    · intro p hp ha t ht
      rw [List.mem_singleton] at hp; subst hp
      rw [List.mem_singleton] at ht; subst ht
      exact .inr ⟨hbvRouting, hrout, rfl, fun _ => rfl⟩
    · intro it hit p hp ha t ht
      obtain ⟨s, hs, rfl⟩ := List.mem_map.1 hit
      simp only [hbvSoilStore, List.mem_cons, List.not_mem_nil, or_false] at hp
      rcases hp with rfl | rfl
      · cases ht
      · rw [List.mem_singleton] at ht; subst ht
        exact .inr ⟨hbvRouting, List.mem_cons_self .., rfl, fun _ => rfl⟩
    · intro p hp ha t ht
      simp only [hbvRouting, List.mem_singleton] at hp; subst hp
      rw [List.mem_singleton] at ht; exact .inl ht

end

theorem hbvVariant_solved (o : HbvOpts) (cs cs' gl : List PyCover) (S : Bool) : NoSolvedExchange (hbvVariant o cs cs' gl S) := by
  intro it hit hpl p hp
  unfold hbvVariant at hit
  rcases List.mem_append.1 hit with hit | hit
  · unfold hbvCore at hit
    simp only [List.mem_append, hbvResponse, List.mem_cons, List.not_mem_nil, or_false, List.mem_map] at hit
    rcases hit with ⟨n, -, rfl⟩ | (rfl | rfl) | ⟨s, -, rfl⟩ | rfl
    · rcases hpl with h | ⟨h, -⟩ <;> cases h
    · simp only [List.mem_cons, List.not_mem_nil, or_false] at hp
      rcases hp with rfl | rfl | rfl <;> (dsimp only; decide)
    · rw [List.mem_singleton] at hp; subst hp; decide
    · simp only [hbvSoilStore, List.mem_cons, List.not_mem_nil, or_false] at hp
      rcases hp with rfl | rfl <;> decide
    · simp only [hbvRouting, List.mem_singleton] at hp; subst hp; decide
  · rcases List.mem_append.1 hit with hit | hit
    · obtain ⟨n, -, rfl⟩ := List.mem_map.1 hit
      rcases hpl with h | ⟨h, -⟩ <;> cases h
    · split at hit
      · simp only [gsmStores, List.mem_cons, List.not_mem_nil, or_false] at hit
        rcases hit with rfl | rfl <;> (simp only [gsmStore, List.mem_singleton] at hp; subst hp; decide)
      · cases hit

end HB.Wire
