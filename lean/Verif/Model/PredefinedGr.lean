import Verif.Model.PredefinedGood

/-! # GR4J and GR6J are good models. -/

set_option linter.unusedSectionVars false
set_option linter.unusedSimpArgs false

namespace HB.Wire

open HB.Names

theorem grArgs_buildable {cs : List PyCover} (h : Spec.GoodCovers cs) {o : GrOpts} (ho : Spec.GoodGr o) : Spec.Buildable (grArgs o cs) where
  names := coverNames_of h (List.Sublist.refl _) ⟨_, rfl⟩
  types := coverTypes_of h (List.Sublist.refl _) ⟨_, rfl⟩
  splitter _ := by
    change ∃ k, (match o.snowRain with
      | some s => s
      | none => defaultSplitter (o.melt.getD "melt:degree_day")) ∈ Spec.splitterNames k
    cases hs : o.snowRain with
    | none => exact splitter_known _
    | some s => exact ho.snowRain s (by rw [hs]; rfl)
  retention _ _ := ⟨rfl, rfl⟩
  melt := by
    change Spec.SelfContained (o.melt.getD "melt:degree_day")
    cases hm : o.melt with
    | none => exact melt_self (k := "melt:degree_day") (by decide)
    | some m => exact melt_self (ho.melt m (by rw [hm]; rfl))
  outflow p hp := by cases hp
  refreezing p hp := by cases hp
  snowIce p hp := by cases hp
  redistribution := ho.redistribution
  sublimation := sublimation_self ho.sublimation

/-- The soil store of the solver version. -/
def grSoil (cover : String) : Item :=
  { key := cover ++ "_soil", place := .unit,
    procs := [⟨"production", "infiltration:gr4j", ["production_store"], false⟩, ⟨"runoff", "outflow:rest", ["uh_input"], false⟩] }

/-- The production store. -/
def grStore (discrete : Bool) : Item :=
  if discrete then
    { key := "production_store", place := .unit, direct := true,
      procs := [⟨"production", "production:gr4j", ["uh_input"], false⟩, ⟨"et", "et:gr4j", [], false⟩] }
  else
    { key := "production_store", place := .unit,
      procs := [⟨"percolation", "percolation:gr4j", ["uh_input"], false⟩, ⟨"et", "et:gr4j", [], false⟩] }

theorem gr_units (o : GrOpts) (cover : String) : Spec.itemsAt .unit (grItems o cover) =
    (if o.discrete then [] else [grSoil cover]) ++ [grStore o.discrete, grRouting o] := by
  unfold grItems grRouting
  cases o.discrete <;> rfl

theorem gr_basin (o : GrOpts) (cover : String) : Spec.itemsAt .basin (grItems o cover) = [] := by
  unfold grItems grRouting
  cases o.discrete <;> rfl

theorem gr_items {o : GrOpts} {cover : String} {it : Item} (hit : it ∈ grItems o cover) :
    it = { key := cover, place := .cover, procs := [⟨"interception", "interception:gr4j", [], false⟩,
      ⟨"throughfall", "outflow:rest", [if o.discrete then "production_store" else cover ++ "_soil"], true⟩] } ∨
    o.discrete = false ∧ it = grSoil cover ∨ it = grStore o.discrete ∨ it = grRouting o := by
  unfold grItems at hit
  rcases List.mem_cons.1 hit with rfl | hit
  · exact .inl rfl
  · cases hd : o.discrete
    · rw [hd] at hit
      simp only [Bool.false_eq_true, if_false, List.mem_cons, List.not_mem_nil, or_false] at hit
      rcases hit with rfl | rfl | rfl
      · exact .inr (.inl ⟨rfl, rfl⟩)
      · exact .inr (.inr (.inl rfl))
      · exact .inr (.inr (.inr rfl))
    · rw [hd] at hit
      simp only [if_true, List.mem_cons, List.not_mem_nil, or_false] at hit
      rcases hit with rfl | rfl
      · exact .inr (.inr (.inl rfl))
      · exact .inr (.inr (.inr rfl))

theorem gr_keys (o : GrOpts) (cover : String) : (grItems o cover).map (·.key) =
    cover :: ((if o.discrete then [] else [cover ++ "_soil"]) ++ ["production_store", "uh_input"]) := by
  unfold grItems grRouting
  cases o.discrete <;> rfl

theorem grVariant_good {cs : List PyCover} (h : Spec.GoodCovers cs) {o : GrOpts} (ho : Spec.GoodGr o) {c : PyCover} (hc : c ∈ cs) :
    Good ⟨grArgs o cs, grItems o c.name⟩ [] := by
  have hsub := List.Sublist.refl cs
  set v : Variant := ⟨grArgs o cs, grItems o c.name⟩ with hv
  have hg : CoversAre v.base cs := ⟨_, rfl⟩
  have hunits : Spec.itemsAt .unit v.items = (if o.discrete then [] else [grSoil c.name]) ++ [grStore o.discrete, grRouting o] := gr_units o c.name
  have hstoreKey : (grStore o.discrete).key = "production_store" := by unfold grStore; split <;> rfl
  have hstore : Spec.Reaches v [] "production_store" :=
    .inr ⟨grStore o.discrete, by rw [hunits]; exact List.mem_append_right _ (List.mem_cons_self ..), hstoreKey⟩
  have hone : ∀ (p : PItem) (ty t : String), p.kind ∈ waterKinds.map (·.1) → p.kind ∉ Spec.infiltrationNames → p.kind ≠ "capillary:hbv" →
      p.targets = [t] → t ∈ Spec.reserved → t ≠ "lateral" → ProcOK v [] ty p := by
    intro p ty t h1 h2 h3 h4 h5 h6
    exact procOK_one v [] ty (works_water h1 _) h4 (reserved_plain h5 h6) (by rintro (h | h); exacts [absurd h h2, absurd h h3])
  have hbg : ∀ n ∈ ([] : List String), n ∈ gsmNames := by simp
  have hret : Spec.Reaches v [] (if o.discrete then "production_store" else c.name ++ "_soil") := by
    cases hd : o.discrete
    · exact .inr ⟨grSoil c.name, by rw [hunits, hd]; exact List.mem_cons_self .., rfl⟩
    · exact hstore
  refine ⟨goodNames_of h hsub hg, grArgs_buildable h ho, plan_of ?_ ?_ (by simp) ?_⟩
  · change ((grItems o c.name).map (·.key)).Nodup
    rw [gr_keys]
    refine keys_nodup h (N := c.name :: (if o.discrete then [] else [c.name ++ "_soil"])) (R := ["production_store", "uh_input"]) (by simp) ?_ ?_ (by decide) (by decide)
    · have := names_ne h hc hc (s := "") (s' := "_soil") (by decide) (by decide) (by decide)
      simp only [String.append_empty] at this
      cases o.discrete
      · simpa using this
      · simp
    · intro n hn
      rcases List.mem_cons.1 hn with rfl | hn
      · exact name_reserved h hc
      · split at hn
        · cases hn
        · rw [List.mem_singleton] at hn; subst hn
          exact names_reserved h hc (by decide)
  · intro it hit
    rcases gr_items hit with rfl | ⟨hd, rfl⟩ | rfl | rfl
    · refine .cover rfl rfl (mem_covers hg hc) ?_ ?_
      · intro c' hc' he q hq
        simp only [List.mem_cons, List.not_mem_nil, or_false] at hq
        rcases hq with rfl | rfl
        · exact procOK_none v [] _ (by decide) rfl (by decide) (by decide)
        · refine procOK_one v [] _ (works_water (by dsimp only; decide) _) rfl ?_ fun _ => hret
          cases o.discrete
          · exact suffixed_plain h hc (by decide)
          · exact reserved_plain (t := "production_store") (by decide) (by decide)
      · intro q hq _ t ht
        simp only [List.mem_cons, List.not_mem_nil, or_false] at hq
        rcases hq with rfl | rfl
        · cases ht
        · rw [List.mem_singleton] at ht; subst ht; exact hret
    · refine coverItem_ok h hsub hg hbg hc (s := "_soil") (by decide) rfl rfl rfl fun q hq => ?_
      simp only [grSoil, List.mem_cons, List.not_mem_nil, or_false] at hq
      rcases hq with rfl | rfl
      · exact ⟨procOK_one v [] _ (works_water (by decide) _) rfl (by decide) fun _ => hstore, rfl⟩
      · exact ⟨hone _ _ "uh_input" (by decide) (by decide) (by decide) rfl (by decide) (by decide), rfl⟩
    · unfold grStore
      cases o.discrete
      · refine unitItem_ok h hsub hg hbg rfl rfl (by decide) (by decide) (by decide) fun q hq => ?_
        simp only [Bool.false_eq_true, if_false, List.mem_cons, List.not_mem_nil, or_false] at hq
        rcases hq with rfl | rfl
        · exact ⟨hone _ _ "uh_input" (by decide) (by decide) (by decide) rfl (by decide) (by decide), rfl⟩
        · exact ⟨procOK_none v [] _ (by decide) rfl (by decide) (by decide), rfl⟩
      · refine unitItem_ok h hsub hg hbg rfl rfl (by decide) (by decide) (by decide) fun q hq => ?_
        simp only [if_true, List.mem_cons, List.not_mem_nil, or_false] at hq
        rcases hq with rfl | rfl
        · exact ⟨hone _ _ "uh_input" (by decide) (by decide) (by decide) rfl (by decide) (by decide), rfl⟩
        · exact ⟨procOK_none v [] _ (by decide) rfl (by decide) (by decide), rfl⟩
    · refine unitItem_ok h hsub hg hbg rfl rfl (by dsimp only [grRouting]; decide) (by dsimp only [grRouting]; decide)
        (by dsimp only [grRouting]; decide) fun q hq => ?_
      simp only [grRouting, List.mem_singleton] at hq
      subst hq
      refine ⟨hone _ _ "outlet" ?_ ?_ ?_ rfl (by decide) (by decide), rfl⟩ <;> (dsimp only; cases o.six <;> decide)
  · rw [hunits]
    have hlast : Spec.FeedsLater [grStore o.discrete, grRouting o] := by
      refine ⟨?_, ?_, trivial⟩
      · intro p hp ha t ht
        refine .inr ⟨grRouting o, List.mem_cons_self .., ?_, ?_⟩
        · cases hd : o.discrete
          · rw [hd] at hp
            simp only [grStore, Bool.false_eq_true, if_false, List.mem_cons, List.not_mem_nil, or_false] at hp
            rcases hp with rfl | rfl
            · rw [List.mem_singleton] at ht; subst ht; rfl
            · cases ht
          · rw [hd] at hp
            simp only [grStore, if_true, List.mem_cons, List.not_mem_nil, or_false] at hp
            rcases hp with rfl | rfl
            · rw [List.mem_singleton] at ht; subst ht; rfl
            · cases ht
        · unfold grStore grRouting
          cases o.discrete <;> simp
      · intro p hp ha t ht
        simp only [grRouting, List.mem_singleton] at hp
        subst hp
        rw [List.mem_singleton] at ht
        exact .inl ht
    cases hd : o.discrete
    · rw [hd] at hlast
      refine ⟨?_, hlast⟩
      intro p hp ha t ht
      simp only [grSoil, List.mem_cons, List.not_mem_nil, or_false] at hp
      rcases hp with rfl | rfl
      · rw [List.mem_singleton] at ht; subst ht
        exact .inr ⟨grStore false, List.mem_cons_self .., rfl, fun _ => rfl⟩
      · rw [List.mem_singleton] at ht; subst ht
        exact .inr ⟨grRouting o, List.mem_cons_of_mem _ (List.mem_cons_self ..), rfl, fun _ => hd⟩
    · rw [hd] at hlast
      exact hlast

theorem gr_good {cs : List PyCover} (h : Spec.GoodCovers cs) {o : GrOpts} (ho : Spec.GoodGr o) : GoodModel (gr o cs) [] ∧
    (∀ v ∈ gr o cs, v.base.redistribution = o.redistribution ∧ (o.discrete = true → NoSolvedExchange v)) := by
  unfold gr
  cases cs with
  | nil => exact ⟨⟨by simp, by simp⟩, by simp⟩
  | cons c l =>
    refine ⟨⟨?_, ?_⟩, ?_⟩
    · intro v hv
      rw [List.mem_singleton] at hv
      subst hv
      exact grVariant_good h ho (List.mem_cons_self ..)
    · intro v hv
      cases hv
      change (Spec.itemsAt .basin (grItems o c.name)).map _ = []
      rw [gr_basin]; rfl
    · intro v hv
      rw [List.mem_singleton] at hv
      subst hv
      refine ⟨rfl, fun hd it hit hpl p hp => ?_⟩
      rcases gr_items hit with rfl | ⟨hd', rfl⟩ | rfl | rfl
      · rcases hpl with h | ⟨h, -⟩ <;> cases h
      · rw [hd] at hd'; cases hd'
      · rw [hd] at hpl
        rcases hpl with h | ⟨-, h⟩ <;> cases h
      · rcases hpl with h | ⟨-, h⟩
        · cases h
        · change o.discrete = false at h
          rw [hd] at h; cases h

end HB.Wire
