import Verif.Model.PredefinedPlan

/-! # Described structures build, send water forward, and their areas fit. -/

set_option linter.unusedSectionVars false
set_option linter.unusedSimpArgs false

namespace HB.Wire

open HB.Names

section
variable {K : Type} {inp : Input K} (hd : Spec.Described inp)
include hd

/-- Names of the storages of the sub-basin. -/
def basNames (inp : Input K) : List String := inp.basin.basinBricks.map (·.name)

theorem basin_brick {i : ℕ} {b : Brick} (hb : inp.basin.basinBricks[i]? = some b) : b.type = "storage" ∧ b.name ∉ Spec.keywords ∧
    ∃ v it, Good v (basNames inp) ∧ it ∈ v.items ∧ it.place = .basin ∧ b = Spec.storageOf it := by
  obtain ⟨v, h1, h2, h3, h4⟩ := hd.basin
  have hb' := List.mem_of_getElem? hb
  rw [h4] at hb'
  obtain ⟨it, hit, rfl⟩ := List.mem_map.1 hb'
  rw [mem_itemsAt] at hit
  have hst := h3.storages it hit.1 (by rw [hit.2]; decide)
  exact ⟨hst.1, hst.2, v, it, ⟨h1, h2, h3⟩, hit.1, hit.2, rfl⟩

theorem basin_splits : inp.basin.basinSplits = [] := by
  obtain ⟨v, -, -, -, h4⟩ := hd.basin
  rw [h4]; rfl

theorem unit_good {u : ℕ} {un : UnitIn K} (hu : inp.units[u]? = some un) : ∃ v, Good v (basNames inp) ∧ un.str = Spec.complete v ∧
    (v.base.redistribution ≠ none → ∀ cn ∈ un.lateral, cn.1 < inp.units.length) := by
  obtain ⟨v, h1, h2, h3, h4, h5⟩ := hd.units un (List.mem_of_getElem? hu)
  exact ⟨v, ⟨h1, h2, h3⟩, h4, h5⟩

theorem described_distinct : Spec.Distinct inp := by
  refine ⟨fun un hun => ?_, ?_, by rw [basin_splits hd]; simp⟩
  · obtain ⟨v, h1, h2, h3, h4, -⟩ := hd.units un hun
    rw [h4]
    exact complete_distinct ⟨h1, h2, h3⟩
  · obtain ⟨v, -, -, h3, h4⟩ := hd.basin
    rw [h4]
    change (((Spec.itemsAt .basin v.items).map Spec.storageOf).map (·.name)).Nodup
    rw [List.map_map]
    exact (List.Sublist.map _ List.filter_sublist).nodup h3.keys

/-- What a reachable name stands for. -/
theorem reaches {u : ℕ} {un : UnitIn K} {v : Variant} (hg : Good v (basNames inp)) (hs : un.str = Spec.complete v) {t : String}
    (ht : Spec.Reaches v (basNames inp) t) : ∃ c b, Spec.BrickNamed inp u un t c b ∧ b.type = "storage" := by
  rcases ht with ht | ⟨it, hit, rfl⟩
  · obtain ⟨b, hb, rfl⟩ := List.mem_map.1 ht
    obtain ⟨i, hi⟩ := List.mem_iff_getElem?.1 hb
    refine ⟨.basinBrick i, b, .basin ?_ hi rfl, (basin_brick hd hi).1⟩
    intro b' hb' he
    have hap := hg.plan.apart _ ht
    have : b'.name ∈ (Spec.complete v).unitBricks.map (·.name) := List.mem_map.2 ⟨b', hs ▸ hb', rfl⟩
    rw [complete_names, List.mem_append] at this
    rcases this with h | h
    · exact hap.1 (he ▸ h)
    · obtain ⟨it, hit, hk⟩ := List.mem_map.1 h
      rw [mem_itemsAt] at hit
      exact hap.2.2 it hit.1 hit.2 (by rw [hk, he])
  · obtain ⟨k, -, hk⟩ := storage_at hg hit
    exact ⟨_, _, .own (by rw [hs]; exact hk) rfl, (hg.plan.storages it (mem_itemsAt.1 hit).1 (by rw [(mem_itemsAt.1 hit).2]; decide)).1⟩

theorem storage_outs {v : Variant} (hg : Good v (basNames inp)) {k : ℕ} {it : Item} (hk : (Spec.itemsAt .unit v.items)[k]? = some it)
    {q : PItem} (hq : q ∈ it.procs) (ha : q.kind ∉ Spec.atmosphereNames) {t : String} (ht : t ∈ q.targets) :
    t = "outlet" ∨ Spec.Reaches v (basNames inp) t := by
  rcases feedsLater_get hg.plan.forward hk hq ha ht with h | ⟨k', it', -, h2, h3, -⟩
  · exact .inl h
  · exact .inr (.inr ⟨it', List.mem_of_getElem? h2, h3⟩)

variable [Field K]

theorem described_unitWF {u : ℕ} {un : UnitIn K} (hu : inp.units[u]? = some un) : Spec.UnitWF inp u un := by
  obtain ⟨v, hg, hs, hlat⟩ := unit_good hd hu
  have hst : ∀ pc, ∃ st, Spec.storeFor pc .snowpack = some st := fun pc => by cases pc <;> exact ⟨_, rfl⟩
  -- base names
  have hcov : ∀ c ∈ v.base.covers, ∀ o : Out, o.target = c.name → Spec.Takes c.type o.content → Spec.NamedOK inp u un o := by
    intro c hc o ho ht
    obtain ⟨i, b, -, -, hb, hn, hty⟩ := cover_at hc
    exact .inl ⟨_, b, .own (by rw [hs]; exact hb) (by rw [hn, ho]), by rw [hty]; exact ht⟩
  have hsnow : v.base.withSnow = true → ∀ c ∈ v.base.covers, ∀ o : Out, o.target = c.name ++ "_snowpack" →
      (o.content = .water ∨ o.content = .snow) → Spec.NamedOK inp u un o := by
    intro hw c hc o ho ht
    obtain ⟨i, -, -, hb⟩ := snow_at hg hw hc
    refine .inl ⟨_, _, .own (by rw [hs]; exact hb) ho.symm, ?_⟩
    rcases ht with ht | ht
    · exact .inl ht
    · exact .inr (.inl ⟨ht, rfl⟩)
  have hkw : ∀ b ∈ un.str.unitBricks, b.name ∉ Spec.keywords := fun b hb => complete_plain hg (hs ▸ hb)
  have hviaSnow : Spec.viaSnowpack v.base = true → v.base.withSnow = true := by
    intro h; simp [Spec.viaSnowpack] at h; exact h.1
  have hfind : ∀ t ∈ ["rain_splitter", "snow_splitter"], ∀ c b, ¬ Spec.BrickNamed inp u un t c b := by
    intro t ht c b hn
    have hkt : t ∈ Spec.keywords := by
      have : ∀ t ∈ ["rain_splitter", "snow_splitter"], t ∈ Spec.keywords := by decide
      exact this t ht
    cases hn with
    | own h1 h2 => exact hkw _ (List.mem_of_getElem? h1) (h2 ▸ hkt)
    | basin h0 h1 h2 => exact (basin_brick hd h1).2.1 (h2 ▸ hkt)
  have hsplit : ∀ t, (∃ s ∈ (Spec.base v.base).unitSplits, s.name = t) → ∃ c, Spec.SplitNamed inp u un t c := by
    rintro t ⟨s, hsm, rfl⟩
    obtain ⟨i, hi⟩ := List.mem_iff_getElem?.mp hsm
    exact ⟨_, .own (by rw [hs]; exact hi) rfl⟩
  have hout : ∀ {q : PItem} {o : Out}, o ∈ (Spec.procOf q).outs → (o.target = "outlet" ∨ Spec.Reaches v (basNames inp) o.target) →
      (∀ t ∈ q.targets, t ≠ "" ∧ ':' ∉ t.toList ∧ t ≠ "lateral") →
      (o.target = "outlet" ∨ (o.target = "lateral" ∧ ∀ p, Spec.LateralOK inp un p o) ∨ (o.target ≠ "lateral" ∧ Spec.NamedOK inp u un o)) := by
    intro q o ho ht hq
    rcases ht with ht | ht
    · exact .inl ht
    · obtain ⟨c, b, hn, hty⟩ := reaches hd (u := u) hg hs ht
      obtain ⟨h1, h2, -⟩ := procOf_outs ho
      exact .inr (.inr ⟨(hq _ h1).2.2, .inl ⟨c, b, hn, .inl h2⟩⟩)
  refine ⟨?_, ?_, ?_, ?_, ?_, ?_, ?_⟩
  · -- bricks
    intro b hb
    rw [hs] at hb
    obtain ⟨i, hr⟩ := sort_mem hg hb
    cases hr with
    | cover c _ _ hc hn hty _ _ hpr =>
      refine ⟨?_, fun p hp => ?_⟩
      · have key : ∀ t ∈ Spec.coverTypes, t ∈ Spec.brickNames .genericLandCover ∨ t ∈ Spec.brickNames .glacier := by decide
        rw [hty]
        rcases key _ (hg.build.types c hc) with h | h <;> exact ⟨_, h⟩
      · obtain ⟨it, hit, hpl, hk, q, hq, rfl⟩ := hpr p hp
        have := hg.plan.onCover it hit hpl q hq c hc hk.symm
        rw [hty]
        exact this
    | canopy c _ _ hc hcc hb => subst hb; exact base_brickOK hg.names hg.build (canopy_mem hg.names hg.build hc hcc)
    | snow c _ _ hw hc hb => subst hb; exact base_brickOK hg.names hg.build (snow_mem hg.names hg.build hw hc)
    | storage k it _ _ hit hpl hb =>
      subst hb
      have hty := (hg.plan.storages it hit (by rw [hpl]; decide)).1
      refine ⟨⟨.storage, by change it.kind ∈ _; rw [hty]; decide⟩, fun p hp => ?_⟩
      obtain ⟨q, hq, rfl⟩ := List.mem_map.1 hp
      have := hg.plan.onStorage it hit (by rw [hpl]; decide) q hq
      change ∃ pc st, q.kind ∈ Spec.processNames pc ∧ Spec.storeFor pc (Spec.kindOf it.kind) = some st
      rw [hty]
      exact this
  · -- splitters
    rw [hs]
    intro s hsp
    change s ∈ (Spec.base v.base).unitSplits at hsp
    unfold Spec.base at hsp
    cases hw : v.base.withSnow with
    | true =>
      simp only [hw, if_true, List.mem_cons, List.not_mem_nil, or_false] at hsp
      rcases hsp with rfl | rfl | rfl
      · exact hg.build.splitter hw
      · exact ⟨.multiFluxes, by simp [Spec.snowSplitter, Spec.splitterNames]⟩
      · exact ⟨.multiFluxes, by simp [Spec.rainSplitter, Spec.splitterNames]⟩
    | false =>
      simp only [hw, Bool.false_eq_true, if_false, List.mem_cons, List.not_mem_nil, or_false] at hsp
      rcases hsp with rfl | rfl
      · exact ⟨.rain, by decide⟩
      · exact ⟨.multiFluxes, by simp [Spec.rainSplitter, Spec.splitterNames]⟩
  · -- parents
    rw [hs]
    intro i hi b hib
    cases sort_of hg hib with
    | cover c _ _ _ _ _ _ hp => exact .inl hp
    | canopy c _ _ hc _ hb =>
      subst hb
      obtain ⟨j, b', -, -, hb', hn, -⟩ := cover_at hc
      exact .inr ⟨b', List.mem_of_getElem? hb', hn⟩
    | snow c _ _ _ hc hb =>
      subst hb
      obtain ⟨j, b', -, -, hb', hn, -⟩ := cover_at hc
      exact .inr ⟨b', List.mem_of_getElem? hb', hn⟩
    | storage k it _ _ _ _ hb => subst hb; exact .inl rfl
  · -- outputs
    intro b hb p hp hat o ho
    rw [hs] at hb
    obtain ⟨i, hr⟩ := sort_mem hg hb
    have hnl : ∀ b ∈ (Spec.complete v).unitBricks, b.name ≠ "lateral" := fun b hb he => complete_plain hg hb (by rw [he]; decide)
    cases hr with
    | cover c _ _ hc hn hty _ _ hpr =>
      obtain ⟨it, hit, hpl, hk, q, hq, rfl⟩ := hpr p hp
      have h1 := hg.plan.fromCover it hit hpl q hq hat _ (procOf_outs ho).1
      rcases hout ho (.inr h1) (hg.plan.written it hit q hq).2 with h | ⟨h, h'⟩ | h
      · exact .inl h
      · exact .inr (.inl ⟨h, h' _⟩)
      · exact .inr (.inr h)
    | canopy c _ _ hc hcc hb =>
      subst hb
      rcases List.mem_cons.mp hp with rfl | hp
      · simp only [Spec.pr, List.mem_singleton] at ho
        subst ho
        obtain ⟨j, b', -, -, hb', hn, -⟩ := cover_at hc
        refine .inr (.inr ⟨?_, ?_⟩)
        · dsimp only [Spec.belowCanopy]
          split
          · intro he
            have : c.name ++ "_snowpack" ∉ Spec.keywords := suffix_ne_keyword (.inl rfl)
            rw [he] at this; exact this (by decide)
          · rw [← hn]; exact hnl b' (List.mem_of_getElem? hb')
        · by_cases hv : Spec.viaSnowpack v.base = true
          · exact hsnow (hviaSnow hv) c hc _ (by simp [Spec.belowCanopy, hv]) (.inl rfl)
          · exact hcov c hc _ (by simp [Spec.belowCanopy, hv]) (.inl rfl)
      · rw [List.mem_singleton] at hp
        subst hp
        cases ho
    | snow c _ _ hw hc hb =>
      subst hb
      rcases (snow_proc hg.names hg.build hc hp).2 o ho with ⟨h1, h2⟩ | ⟨h1, h2⟩ | ⟨h1, h2, h3, h4⟩
      · obtain ⟨j, b', -, -, hb', hn, -⟩ := cover_at hc
        refine .inr (.inr ⟨by rw [h1, ← hn]; exact hnl b' (List.mem_of_getElem? hb'), hcov c hc o h1 ?_⟩)
        rcases h2 with h2 | ⟨h2, h3⟩
        · exact .inl h2
        · exact .inr (.inr ⟨h2, h3⟩)
      · refine .inr (.inr ⟨?_, hsnow hw c hc o h1 h2⟩)
        intro he
        have : c.name ++ "_snowpack" ∉ Spec.keywords := suffix_ne_keyword (.inl rfl)
        rw [← h1, he] at this; exact this (by decide)
      · refine .inr (.inl ⟨h1, fun cn hcn => ?_⟩)
        have := hlat h4 cn hcn
        exact ⟨_, List.getElem?_eq_getElem this, h2, fun _ => h3⟩
    | storage k it _ hk hit hpl hb =>
      subst hb
      obtain ⟨q, hq, rfl⟩ := List.mem_map.1 hp
      have h1 := storage_outs hd hg hk hq hat (procOf_outs ho).1
      rcases hout ho h1 (hg.plan.written it hit q hq).2 with h | ⟨h, h'⟩ | h
      · exact .inl h
      · exact .inr (.inl ⟨h, h' _⟩)
      · exact .inr (.inr h)
  · -- splitter outputs
    rw [hs]
    intro s hsp o ho
    change s ∈ (Spec.base v.base).unitSplits at hsp
    have hrs : ∃ s ∈ (Spec.base v.base).unitSplits, s.name = "rain_splitter" := by
      refine ⟨Spec.rainSplitter v.base, ?_, rfl⟩
      unfold Spec.base
      cases v.base.withSnow <;> simp
    have hrain : o ∈ (Spec.rainSplitter v.base).outs → Spec.NamedOK inp u un o := by
      intro ho
      obtain ⟨c, hc, rfl⟩ := List.mem_map.mp ho
      by_cases hcc : c.canopy = true
      · have hm := canopy_mem hg.names hg.build hc hcc
        have hm' : Spec.canopyBrick v.base c ∈ (Spec.complete v).unitBricks := by
          rw [← fill_canopy hg hc hcc]
          exact List.mem_append_left _ (List.mem_map.2 ⟨_, hm, rfl⟩)
        obtain ⟨i, hi⟩ := List.mem_iff_getElem?.1 hm'
        exact .inl ⟨_, _, .own (by rw [hs]; exact hi) (by simp [Spec.rainEntry, hcc, Spec.canopyBrick]), .inl rfl⟩
      · by_cases hv : Spec.viaSnowpack v.base = true
        · exact hsnow (hviaSnow hv) c hc _ (by simp [Spec.rainEntry, hcc, Spec.belowCanopy, hv]) (.inl rfl)
        · exact hcov c hc _ (by simp [Spec.rainEntry, hcc, Spec.belowCanopy, hv]) (.inl rfl)
    unfold Spec.base at hsp
    cases hw : v.base.withSnow with
    | true =>
      have hss : ∃ s ∈ (Spec.base v.base).unitSplits, s.name = "snow_splitter" := by
        refine ⟨Spec.snowSplitter v.base, ?_, rfl⟩
        unfold Spec.base
        simp [hw]
      simp only [hw, if_true, List.mem_cons, List.not_mem_nil, or_false] at hsp
      rcases hsp with rfl | rfl | rfl
      · simp only [List.mem_cons, List.not_mem_nil, or_false] at ho
        rcases ho with rfl | rfl
        · exact .inr (.inr ⟨hfind _ (by simp), hsplit _ hrs⟩)
        · exact .inr (.inr ⟨hfind _ (by simp), hsplit _ hss⟩)
      · obtain ⟨c, hc, rfl⟩ := List.mem_map.mp ho
        exact .inr (hsnow hw c hc _ rfl (.inr rfl))
      · exact .inr (hrain ho)
    | false =>
      simp only [hw, Bool.false_eq_true, if_false, List.mem_cons, List.not_mem_nil, or_false] at hsp
      rcases hsp with rfl | rfl
      · simp only [List.mem_singleton] at ho
        subst ho
        exact .inr (.inr ⟨hfind _ (by simp), hsplit _ hrs⟩)
      · exact .inr (hrain ho)
  · -- infiltration
    intro b hb p hp hi
    rw [hs] at hb
    obtain ⟨i, hr⟩ := sort_mem hg hb
    have hq' : ∀ (it : Item), it ∈ v.items → ∀ q ∈ it.procs, q.kind ∈ Spec.infiltrationNames →
        ∃ o c b', (Spec.procOf q).outs = [o] ∧ Spec.BrickNamed inp u un o.target c b' := by
      intro it hit q hq hi
      obtain ⟨t, ht, hr⟩ := hg.plan.linked it hit q hq hi
      obtain ⟨c, b', hn, -⟩ := reaches hd (u := u) hg hs hr
      refine ⟨⟨t, .water, q.inst, decide (q.kind = "outflow:direct" ∨ q.kind = "outflow:rest")⟩, c, b', ?_, hn⟩
      simp only [Spec.procOf, Spec.outsOfItem, ht, List.map_nil]
    cases hr with
    | cover c _ _ hc hn hty _ _ hpr =>
      obtain ⟨it, hit, hpl, hk, q, hq, rfl⟩ := hpr p hp
      exact hq' it hit q hq hi
    | canopy c _ _ hc hcc hb =>
      subst hb
      exact absurd hi (base_self hg.names hg.build (canopy_mem hg.names hg.build hc hcc) hp).2.1
    | snow c _ _ hw hc hb =>
      subst hb
      exact absurd hi (base_self hg.names hg.build (snow_mem hg.names hg.build hw hc) hp).2.1
    | storage k it _ hk hit hpl hb =>
      subst hb
      obtain ⟨q, hq, rfl⟩ := List.mem_map.1 hp
      exact hq' it hit q hq hi
  · -- capillary
    intro b hb p hp hi o ho
    rw [hs] at hb
    obtain ⟨i, hr⟩ := sort_mem hg hb
    have hq' : ∀ (it : Item), it ∈ v.items → ∀ q ∈ it.procs, q.kind = "capillary:hbv" → o ∈ (Spec.procOf q).outs →
        ∃ c b', Spec.BrickNamed inp u un o.target c b' := by
      intro it hit q hq hi ho
      obtain ⟨c, b', hn, -⟩ := reaches hd (u := u) hg hs (hg.plan.fanned it hit q hq hi _ (procOf_outs ho).1)
      exact ⟨c, b', hn⟩
    cases hr with
    | cover c _ _ hc hn hty _ _ hpr =>
      obtain ⟨it, hit, hpl, hk, q, hq, rfl⟩ := hpr p hp
      exact hq' it hit q hq hi ho
    | canopy c _ _ hc hcc hb =>
      subst hb
      exact absurd hi (base_self hg.names hg.build (canopy_mem hg.names hg.build hc hcc) hp).2.2
    | snow c _ _ hw hc hb =>
      subst hb
      exact absurd hi (base_self hg.names hg.build (snow_mem hg.names hg.build hw hc) hp).2.2
    | storage k it _ hk hit hpl hb =>
      subst hb
      obtain ⟨q, hq, rfl⟩ := List.mem_map.1 hp
      exact hq' it hit q hq hi ho

theorem described_builds : ∃ m, build inp = .ok m := by
  refine (c57_builds_iff (described_distinct hd)).2 ⟨fun u un hu => described_unitWF hd hu, ?_, by rw [basin_splits hd]; simp, ?_, by rw [basin_splits hd]; simp, ?_, ?_⟩
  · intro b hb
    obtain ⟨i, hi⟩ := List.mem_iff_getElem?.1 hb
    obtain ⟨hty, -, v, it, hg, hit, hpl, rfl⟩ := basin_brick hd hi
    refine ⟨⟨.storage, by rw [hty]; decide⟩, fun p hp => ?_⟩
    obtain ⟨q, hq, rfl⟩ := List.mem_map.1 hp
    have := hg.plan.onStorage it hit (by rw [hpl]; decide) q hq
    rw [hty]
    exact this
  · intro b hb p hp _ o ho
    obtain ⟨i, hi⟩ := List.mem_iff_getElem?.1 hb
    obtain ⟨hty, -, v, it, hg, hit, hpl, rfl⟩ := basin_brick hd hi
    obtain ⟨q, hq, rfl⟩ := List.mem_map.1 hp
    have := (procOf_outs ho).1
    rw [(hg.plan.fromBasin it hit hpl q hq).1, List.mem_singleton] at this
    exact .inl this
  · intro b hb p hp hin
    obtain ⟨i, hi⟩ := List.mem_iff_getElem?.1 hb
    obtain ⟨hty, -, v, it, hg, hit, hpl, rfl⟩ := basin_brick hd hi
    obtain ⟨q, hq, rfl⟩ := List.mem_map.1 hp
    exact absurd hin (hg.plan.fromBasin it hit hpl q hq).2.1
  · intro b hb p hp
    obtain ⟨i, hi⟩ := List.mem_iff_getElem?.1 hb
    obtain ⟨hty, -, v, it, hg, hit, hpl, rfl⟩ := basin_brick hd hi
    obtain ⟨q, hq, rfl⟩ := List.mem_map.1 hp
    exact (hg.plan.fromBasin it hit hpl q hq).2.2

end

end HB.Wire
