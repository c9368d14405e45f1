import Verif.Model.PredefinedRun
import Verif.Spec.Ready
import Verif.Props.Valid2

/-! # Models set up from structure variants are complete. -/

set_option linter.unusedSectionVars false
set_option linter.unusedSimpArgs false

namespace HB.Wire

open HB.Names

/-- Documented options of the snow routine; refreezing goes with the degree-day melt. -/
structure DocSnow (g : BaseArgs) : Prop where
  melt : g.melt ∈ Spec.meltKinds
  retention : g.retention ∈ [none, some "outflow:snow_holding"]
  refreezing : g.refreezing ∈ [none, some "refreeze:degree_day"]
  companion : g.refreezing ≠ none → g.melt = "melt:degree_day"
  snowIce : g.snowIce ∈ [none, some "transformation:snow_ice_constant", some "transformation:snow_ice_swat"]
  redistribution : ∀ p ∈ g.redistribution, p ∈ Spec.lateralNames
  sublimation : g.sublimation ∈ [none, some "sublimation:constant", some "sublimation:pet"]

/-- A description in which nothing is missing. -/
structure Whole (v : Variant) : Prop where
  snow : DocSnow v.base
  splitter : v.base.withSnow = true → v.base.splitter ∈ ["snow_rain:threshold", "snow_rain:linear", "snow_rain:cemaneige"]
  land : v.base.covers ≠ []
  kinds : ∀ it ∈ v.items, ∀ p ∈ it.procs, p.kind ∉ Spec.lateralNames ∧ p.kind ≠ "refreeze:degree_day" ∧ p.kind ≠ "outflow:snow_holding"
  single : ∀ it ∈ v.items, ∀ p ∈ it.procs, p.kind ∉ Spec.atmosphereNames → p.kind ≠ "capillary:hbv" → p.targets.length = 1
  capillary : ∀ it ∈ v.items, ∀ p ∈ it.procs, p.kind = "capillary:hbv" → p.targets ≠ [] ∧
    ∀ t ∈ p.targets, ∃ it' ∈ v.items, it'.place = .cover ∧ ∃ p' ∈ it'.procs, t ∈ p'.targets
  stored : ∀ it ∈ v.items, it.place ≠ .cover → (∃ p ∈ it.procs, Spec.WorksOn p.kind "storage" .water) ∧ ∀ p ∈ it.procs, p.kind ≠ "outflow:direct"
  covered : ∀ c ∈ v.base.covers, ∃ it ∈ v.items, it.place = .cover ∧ it.key = c.name ∧ ∃ p ∈ it.procs, Spec.WorksOn p.kind c.type (Spec.ownStore c.type)
  alone : ∀ c ∈ v.base.covers, ∀ it ∈ v.items, it.place = .cover → it.key = c.name → ∀ (j k : ℕ) (p p' : PItem), it.procs[j]? = some p →
    it.procs[k]? = some p' → p.kind = "outflow:direct" → k ≠ j → ¬ Spec.WorksOn p'.kind c.type .water
  basin : ∀ it ∈ v.items, it.place = .basin → ∀ p ∈ it.procs, ∀ w, ¬ Spec.Driven p.kind w

/-- The kinds of processes of a unit. -/
def kindsOf (v : Variant) : List String :=
  v.items.flatMap (fun it => it.procs.map (·.kind)) ++ ["outflow:threshold", "et:open_water"] ++
    if v.base.withSnow then [v.base.melt] ++ v.base.retention.toList ++ v.base.refreezing.toList ++ v.base.snowIce.toList ++
      v.base.redistribution.toList ++ v.base.sublimation.toList else []

/-- The processes of a snowpack. -/
theorem snow_cases {g : BaseArgs} {c : Cover} {p : Proc} (hp : p ∈ Spec.snowProcs g c) :
    ((p.type = g.melt ∨ g.retention = some p.type ∨ g.refreezing = some p.type ∨ g.snowIce = some p.type) ∧
      ∃ o, p.outs = [o] ∧ (o.target = c.name ∨ o.target = c.name ++ "_snowpack")) ∨
    g.redistribution = some p.type ∨ g.sublimation = some p.type := by
  unfold Spec.snowProcs at hp
  rcases List.mem_append.mp hp with hp | hp
  · rcases List.mem_append.mp hp with hp | hp
    · refine .inl ?_
      rcases List.mem_append.mp hp with hp | hp
      · split at hp
        · rw [List.mem_singleton] at hp
          subst hp
          exact ⟨.inl rfl, _, rfl, .inl rfl⟩
        · rename_i r hr
          rcases List.mem_append.mp hp with hp | hp
          · rcases List.mem_cons.mp hp with rfl | hp
            · exact ⟨.inl rfl, _, rfl, .inr rfl⟩
            · rw [List.mem_singleton] at hp
              subst hp
              exact ⟨.inr (.inl hr), _, rfl, .inl rfl⟩
          · cases hq : g.refreezing with
            | none => rw [hq] at hp; cases hp
            | some q =>
              rw [hq] at hp
              simp only [Spec.opt, Option.map_some, Option.toList_some, List.mem_singleton] at hp
              subst hp
              exact ⟨.inr (.inr (.inl rfl)), _, rfl, .inr rfl⟩
      · split at hp
        · cases hq : g.snowIce with
          | none => rw [hq] at hp; cases hp
          | some q =>
            rw [hq] at hp
            simp only [Spec.opt, Option.map_some, Option.toList_some, List.mem_singleton] at hp
            subst hp
            exact ⟨.inr (.inr (.inr rfl)), _, rfl, .inl rfl⟩
        · cases hp
    · refine .inr (.inl ?_)
      cases hq : g.redistribution with
      | none => rw [hq] at hp; cases hp
      | some q =>
        rw [hq] at hp
        simp only [Spec.opt, Option.map_some, Option.toList_some, List.mem_singleton] at hp
        subst hp
        rfl
  · refine .inr (.inr ?_)
    cases hq : g.sublimation with
    | none => rw [hq] at hp; cases hp
    | some q =>
      rw [hq] at hp
      simp only [Spec.opt, Option.map_some, Option.toList_some, List.mem_singleton] at hp
      subst hp
      rfl

/-- The melt is always there. -/
theorem melt_mem (g : BaseArgs) (c : Cover) : ∃ p ∈ Spec.snowProcs g c, p.type = g.melt := by
  unfold Spec.snowProcs
  cases g.retention with
  | none => exact ⟨_, by simp only [List.mem_append]; exact .inl (.inl (.inl (List.mem_cons_self ..))), rfl⟩
  | some r => exact ⟨_, by simp only [List.mem_append]; exact .inl (.inl (.inl (.inl (List.mem_cons_self ..)))), rfl⟩

section
variable {v : Variant} {bas : List String} (h : Good v bas)

/-- One entry lists the processes of a cover. -/
theorem listedFor_eq {items : List Item} (hk : (items.map (·.key)).Nodup) {it : Item} (hit : it ∈ items) (hp : it.place = .cover) :
    Spec.listedFor items it.key = it.procs.map Spec.procOf := by
  unfold Spec.listedFor
  induction items with
  | nil => cases hit
  | cons x l ih =>
    rw [List.map_cons, List.nodup_cons] at hk
    rcases List.mem_cons.1 hit with rfl | hit'
    · rw [List.filter_cons_of_pos (by simp [hp]), List.flatMap_cons]
      have : l.filter (fun it' => decide (it'.place = .cover ∧ it'.key = it.key)) = [] := by
        rw [List.filter_eq_nil_iff]
        intro y hy hc
        have := of_decide_eq_true hc
        exact hk.1 (List.mem_map.2 ⟨y, hy, this.2⟩)
      rw [this]
      simp
    · rw [List.filter_cons_of_neg, ih hk.2 hit']
      simp only [decide_eq_true_eq, not_and]
      rintro - he
      exact hk.1 (List.mem_map.2 ⟨it, hit', he.symm⟩)

include h

/-- The brick of a cover with an entry. -/
theorem cover_brick {i : ℕ} {b : Brick} (hb : (Spec.complete v).unitBricks[i]? = some b) (hi : i < nc v) :
    ∃ c ∈ v.base.covers, b = Spec.fill v.items (Spec.coverBrick c) := by
  rcases at_cases hb with ⟨-, c, h2, rfl⟩ | ⟨h1, -⟩ | ⟨h1, -⟩ | ⟨k, it, h1, -⟩
  · exact ⟨c, List.mem_of_getElem? h2, rfl⟩
  all_goals omega

/-- The processes of a unit are of these kinds. -/
theorem kind_mem {b : Brick} (hb : b ∈ (Spec.complete v).unitBricks) {p : Proc} (hp : p ∈ b.procs) : p.type ∈ kindsOf v := by
  obtain ⟨i, hs⟩ := sort_mem h hb
  unfold kindsOf
  have hitem : ∀ it ∈ v.items, ∀ q ∈ it.procs, q.kind ∈ v.items.flatMap (fun it => it.procs.map (·.kind)) :=
    fun it hit q hq => List.mem_flatMap.2 ⟨it, hit, List.mem_map.2 ⟨q, hq, rfl⟩⟩
  cases hs with
  | cover c _ _ hc hn hty _ _ hpr =>
    obtain ⟨it, hit, -, -, q, hq, rfl⟩ := hpr p hp
    exact List.mem_append_left _ (List.mem_append_left _ (hitem it hit q hq))
  | canopy c _ _ hc hcc he =>
    subst he
    refine List.mem_append_left _ (List.mem_append_right _ ?_)
    rcases List.mem_cons.1 hp with rfl | hp
    · exact List.mem_cons_self ..
    · rw [List.mem_singleton] at hp
      subst hp
      exact List.mem_cons_of_mem _ (List.mem_cons_self ..)
  | snow c _ _ hw hc he =>
    subst he
    refine List.mem_append_right _ ?_
    rw [if_pos hw]
    simp only [List.mem_append, List.mem_singleton, Option.mem_toList]
    rcases snow_cases hp with ⟨h1 | h1 | h1 | h1, -⟩ | h1 | h1
    · exact .inl (.inl (.inl (.inl (.inl h1))))
    · exact .inl (.inl (.inl (.inl (.inr h1))))
    · exact .inl (.inl (.inl (.inr h1)))
    · exact .inl (.inl (.inr h1))
    · exact .inl (.inr h1)
    · exact .inr h1
  | storage k it _ _ hit hpl he =>
    subst he
    obtain ⟨q, hq, rfl⟩ := List.mem_map.1 hp
    exact List.mem_append_left _ (List.mem_append_left _ (hitem it hit q hq))

end

/-- Without lateral outputs, one flux per output. -/
theorem fluxCount_eq {K : Type} {inp : Input K} {un : UnitIn K} {p : Proc} (ha : p.type ∉ Spec.atmosphereNames)
    (hl : ∀ o ∈ p.outs, o.target ≠ "lateral") : Spec.fluxCount inp un p = p.outs.length := by
  unfold Spec.fluxCount
  rw [if_neg ha]
  have : p.outs.map (Spec.fluxesOf inp un) = p.outs.map fun _ => 1 :=
    List.map_congr_left fun o ho => by unfold Spec.fluxesOf; rw [if_neg (hl o ho)]
  rw [this]
  simp

theorem outs_length (q : PItem) : (Spec.procOf q).outs.length = q.targets.length := by
  change (Spec.outsOfItem q).length = _
  unfold Spec.outsOfItem
  cases q.targets <;> simp

theorem proc_get {l : List PItem} {k : ℕ} {p : Proc} (hk : (l.map Spec.procOf)[k]? = some p) : ∃ q, l[k]? = some q ∧ p = Spec.procOf q := by
  rw [List.getElem?_map] at hk
  cases hq : l[k]? with
  | none => rw [hq] at hk; cases hk
  | some q => rw [hq] at hk; cases hk; exact ⟨q, rfl, rfl⟩

section
variable {K : Type} {inp : Input K} {un : UnitIn K} {v : Variant} {bas : List String} (h : Good v bas) (hw : Whole v)
  (hs : un.str = Spec.complete v)
include h hw hs

/-- A described process is complete. -/
theorem item_complete {b : Brick} {j : ℕ} {it : Item} (hit : it ∈ v.items) {q : PItem} (hq : q ∈ it.procs)
    (hal : q.kind = "outflow:direct" → ∀ (k : ℕ) (p' : Proc), b.procs[k]? = some p' → k ≠ j → ¬ Spec.WorksOn p'.type b.type .water) :
    Spec.ProcComplete inp un b j (Spec.procOf q) where
  single _ hc := by
    by_cases ha : q.kind ∈ Spec.atmosphereNames
    · unfold Spec.fluxCount
      exact if_pos ha
    · rw [fluxCount_eq ha fun o ho => ((h.plan.written it hit q hq).2 _ (procOf_outs ho).1).2.2, outs_length]
      exact hw.single it hit q hq ha hc
  capillary hc := by
    obtain ⟨h1, h2⟩ := hw.capillary it hit q hq hc
    refine ⟨?_, ?_, fun _ o ho => ?_⟩
    · intro he
      have := outs_length q
      rw [he] at this
      exact h1 (List.length_eq_zero_iff.1 this.symm)
    · refine fluxCount_eq ?_ fun o ho => ((h.plan.written it hit q hq).2 _ (procOf_outs ho).1).2.2
      change q.kind ∉ _
      change q.kind = _ at hc
      rw [hc]; decide
    · obtain ⟨it', hit', hpl, p', hp', ht⟩ := h2 _ (procOf_outs ho).1
      obtain ⟨-, c, hc', hcn⟩ := h.plan.covers it' hit' hpl
      obtain ⟨i, hi⟩ := List.mem_iff_getElem?.1 hc'
      have hb := cover_get (v := v) hi
      refine ⟨_, by rw [hs]; exact List.mem_of_getElem? hb, ?_, Spec.procOf p', ?_, ?_⟩
      · have key : ∀ t ∈ Spec.coverTypes, t ∈ Spec.brickNames .genericLandCover ∨ t = "glacier" := by decide
        exact key _ (h.build.types c hc')
      · change _ ∈ [] ++ Spec.listedFor v.items c.name
        rw [hcn, listedFor_eq h.plan.keys hit' hpl]
        exact List.mem_append_right _ (List.mem_map.2 ⟨p', hp', rfl⟩)
      · have : ∃ o' ∈ Spec.outsOfItem p', o'.target = o.target := by
          unfold Spec.outsOfItem
          cases htt : p'.targets with
          | nil => rw [htt] at ht; cases ht
          | cons t ts =>
            rw [htt] at ht
            rcases List.mem_cons.1 ht with he | ht
            · exact ⟨_, List.mem_cons_self .., he.symm⟩
            · exact ⟨_, List.mem_cons_of_mem _ (List.mem_map.2 ⟨_, ht, rfl⟩), rfl⟩
        exact this
  alone := hal
  refreeze hc := absurd hc (hw.kinds it hit q hq).2.1
  holding hc := absurd hc (hw.kinds it hit q hq).2.2

theorem brick_complete {b : Brick} (hb : b ∈ un.str.unitBricks) : Spec.BrickComplete inp un b := by
  rw [hs] at hb
  obtain ⟨i, hi⟩ := List.mem_iff_getElem?.1 hb
  rcases at_cases hi with ⟨h1, c, h2, rfl⟩ | ⟨h1, h2, c, hc, hcc, rfl⟩ | ⟨h1, h2, hsn, c, hc, rfl⟩ | ⟨k, it, h1, h2, rfl⟩
  · have hc := List.mem_of_getElem? h2
    obtain ⟨it, hit, hpl, hkey, q, hq, hwo⟩ := hw.covered c hc
    have hpr : (Spec.fill v.items (Spec.coverBrick c)).procs = it.procs.map Spec.procOf := by
      change [] ++ Spec.listedFor v.items c.name = _
      rw [List.nil_append, ← hkey, listedFor_eq h.plan.keys hit hpl]
    refine ⟨⟨Spec.procOf q, by rw [hpr]; exact List.mem_map.2 ⟨q, hq, rfl⟩, hwo⟩, fun j p hj => ?_⟩
    rw [hpr] at hj
    obtain ⟨q', hq', rfl⟩ := proc_get hj
    refine item_complete h hw hs hit (List.mem_of_getElem? hq') fun hd k p' hk hne => ?_
    rw [hpr] at hk
    obtain ⟨q'', hq'', rfl⟩ := proc_get hk
    exact hw.alone c hc it hit hpl hkey j k q' q'' hq' hq'' hd hne
  · rw [fill_canopy h hc hcc]
    refine ⟨⟨_, List.mem_cons_self .., .outflowThreshold, by change "outflow:threshold" ∈ _; decide, rfl⟩, fun j p hj => ?_⟩
    have hbl : Spec.belowCanopy v.base c ≠ "lateral" := by
      unfold Spec.belowCanopy
      split
      · intro he
        have : c.name ++ "_snowpack" ∉ Spec.keywords := suffix_ne_keyword (.inl rfl)
        rw [he] at this
        exact this (by decide)
      · intro he
        exact h.build.names c hc (by rw [he]; decide)
    have hp := List.mem_of_getElem? hj
    rcases List.mem_cons.1 hp with rfl | hp
    · refine ⟨fun _ _ => ?_, fun hc => absurd hc (by change "outflow:threshold" ≠ _; decide), fun hc => absurd hc (by change "outflow:threshold" ≠ _; decide),
        fun hc => absurd hc (by change "outflow:threshold" ≠ _; decide), fun hc => absurd hc (by change "outflow:threshold" ≠ _; decide)⟩
      rw [fluxCount_eq (by change "outflow:threshold" ∉ _; decide)]
      · rfl
      · intro o ho
        simp only [Spec.pr, List.mem_singleton] at ho
        subst ho
        exact hbl
    · rw [List.mem_singleton] at hp
      subst hp
      exact ⟨fun _ _ => rfl, fun hc => absurd hc (by change "et:open_water" ≠ _; decide), fun hc => absurd hc (by change "et:open_water" ≠ _; decide),
        fun hc => absurd hc (by change "et:open_water" ≠ _; decide), fun hc => absurd hc (by change "et:open_water" ≠ _; decide)⟩
  · rw [fill_snow h hsn hc]
    obtain ⟨pm, hpm, hty⟩ := melt_mem v.base c
    have hD := hw.snow
    refine ⟨⟨pm, hpm, ?_⟩, fun j p hj => ?_⟩
    · rw [hty]
      have key : ∀ k ∈ Spec.meltKinds, ∃ pc ∈ [ProcClass.meltDegreeDay, .meltDegreeDayAspect, .meltTemperatureIndex, .meltCemaNeige],
          k ∈ Spec.processNames pc ∧ Spec.storeFor pc .snowpack = some .snow := by decide
      obtain ⟨pc, -, h1, h2⟩ := key _ hD.melt
      exact ⟨pc, h1, h2⟩
    · have hp := List.mem_of_getElem? hj
      have hk : ∀ k, (k = v.base.melt ∨ v.base.retention = some k ∨ v.base.refreezing = some k ∨ v.base.snowIce = some k) →
          k ∉ Spec.atmosphereNames ∧ k ≠ "capillary:hbv" ∧ k ≠ "outflow:direct" := by
        intro k hk
        have key : ∀ k ∈ Spec.meltKinds ++ ["outflow:snow_holding", "refreeze:degree_day", "transformation:snow_ice_constant",
            "transformation:snow_ice_swat"], k ∉ Spec.atmosphereNames ∧ k ≠ "capillary:hbv" ∧ k ≠ "outflow:direct" := by decide
        refine key k ?_
        rw [List.mem_append]
        rcases hk with hk | hk | hk | hk
        · rw [hk]; exact .inl hD.melt
        · have := hD.retention
          rw [hk] at this
          simp only [List.mem_cons, reduceCtorEq, Option.some.injEq, List.not_mem_nil, or_false, false_or] at this
          exact .inr (by simp [this])
        · have := hD.refreezing
          rw [hk] at this
          simp only [List.mem_cons, reduceCtorEq, Option.some.injEq, List.not_mem_nil, or_false, false_or] at this
          exact .inr (by simp [this])
        · have := hD.snowIce
          rw [hk] at this
          simp only [List.mem_cons, reduceCtorEq, Option.some.injEq, List.not_mem_nil, or_false, false_or] at this
          exact .inr (by rcases this with this | this <;> simp [this])
      rcases snow_cases hp with ⟨hkind, o, ho, hto⟩ | hr | hsub
      · obtain ⟨k1, k2, k3⟩ := hk _ hkind
        refine ⟨fun _ _ => ?_, fun hc => absurd hc k2, fun hc => absurd hc k3, fun hc => ?_, fun _ => rfl⟩
        · rw [fluxCount_eq k1]
          · rw [ho]; rfl
          · intro o' ho'
            rw [ho, List.mem_singleton] at ho'
            subst ho'
            intro he
            rcases hto with hto | hto
            · exact h.build.names c hc (by rw [← hto, he]; decide)
            · have : c.name ++ "_snowpack" ∉ Spec.keywords := suffix_ne_keyword (.inl rfl)
              rw [← hto, he] at this
              exact this (by decide)
        · refine ⟨pm, hpm, ?_⟩
          rw [hty]
          rcases hkind with hk' | hk' | hk' | hk'
          · rw [hk'] at hc
            have := hD.melt
            rw [hc] at this
            exact absurd this (by decide)
          · have := hD.retention
            rw [hk', hc] at this
            exact absurd this (by decide)
          · exact hD.companion (by rw [hk']; exact Option.some_ne_none _)
          · have := hD.snowIce
            rw [hk', hc] at this
            exact absurd this (by decide)
      · have hl := hD.redistribution _ (Option.mem_def.2 hr)
        have key : ∀ k ∈ Spec.lateralNames, k ≠ "capillary:hbv" ∧ k ≠ "outflow:direct" ∧ k ≠ "refreeze:degree_day" := by decide
        obtain ⟨k1, k2, k3⟩ := key _ hl
        exact ⟨fun hn => absurd hl hn, fun hc => absurd hc k1, fun hc => absurd hc k2, fun hc => absurd hc k3, fun _ => rfl⟩
      · have hs' := hD.sublimation
        rw [hsub] at hs'
        simp only [List.mem_cons, reduceCtorEq, Option.some.injEq, List.not_mem_nil, or_false, false_or] at hs'
        have key : ∀ k ∈ ["sublimation:constant", "sublimation:pet"], k ∈ Spec.atmosphereNames ∧ k ≠ "capillary:hbv" ∧ k ≠ "outflow:direct" ∧
            k ≠ "refreeze:degree_day" := by decide
        obtain ⟨k0, k1, k2, k3⟩ := key p.type (by simpa using hs')
        exact ⟨fun _ _ => by unfold Spec.fluxCount; exact if_pos k0, fun hc => absurd hc k1, fun hc => absurd hc k2, fun hc => absurd hc k3, fun _ => rfl⟩
  · obtain ⟨hit, hpl⟩ := mem_itemsAt.1 (List.mem_of_getElem? h2)
    obtain ⟨⟨q, hq, hwo⟩, hnd⟩ := hw.stored it hit (by rw [hpl]; decide)
    have hty : it.kind = "storage" := (h.plan.storages it hit (by rw [hpl]; decide)).1
    refine ⟨⟨Spec.procOf q, List.mem_map.2 ⟨q, hq, rfl⟩, ?_⟩, fun j p hj => ?_⟩
    · change Spec.WorksOn q.kind it.kind (Spec.ownStore it.kind)
      rw [hty]
      exact hwo
    · obtain ⟨q', hq', rfl⟩ := proc_get hj
      exact item_complete h hw hs hit (List.mem_of_getElem? hq') fun hd => absurd hd (hnd q' (List.mem_of_getElem? hq'))

end

end HB.Wire
