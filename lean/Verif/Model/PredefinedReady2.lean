import Verif.Model.PredefinedReady

/-! # Models set up from structure variants initialise and run. -/

set_option linter.unusedSectionVars false
set_option linter.unusedSimpArgs false

namespace HB.Wire

open HB.Names

/-- Kinds of processes of a snowpack other than melt and redistribution. -/
def snowOthers : List String :=
  ["outflow:snow_holding", "refreeze:degree_day", "transformation:snow_ice_constant", "transformation:snow_ice_swat",
   "sublimation:constant", "sublimation:pet"]

theorem kind_cases {v : Variant} (hw : Whole v) {k : String} (hk : k ∈ kindsOf v) :
    (∃ it ∈ v.items, ∃ p ∈ it.procs, k = p.kind) ∨ k ∈ ["outflow:threshold", "et:open_water"] ∨
    (v.base.withSnow = true ∧ (k = v.base.melt ∨ k ∈ snowOthers ∨ (v.base.redistribution = some k ∧ k ∈ Spec.lateralNames))) := by
  unfold kindsOf at hk
  rcases List.mem_append.1 hk with hk | hk
  · rcases List.mem_append.1 hk with hk | hk
    · obtain ⟨it, hit, hk⟩ := List.mem_flatMap.1 hk
      obtain ⟨p, hp, rfl⟩ := List.mem_map.1 hk
      exact .inl ⟨it, hit, p, hp, rfl⟩
    · exact .inr (.inl hk)
  · refine .inr (.inr ?_)
    split at hk
    · rename_i hsn
      refine ⟨hsn, ?_⟩
      simp only [List.mem_append, List.mem_singleton, Option.mem_toList, Option.mem_def] at hk
      rcases hk with ((((hk | hk) | hk) | hk) | hk) | hk
      · exact .inl hk
      · have := hw.snow.retention
        rw [hk] at this
        simp only [List.mem_cons, reduceCtorEq, Option.some.injEq, List.not_mem_nil, or_false, false_or] at this
        exact .inr (.inl (by simp [this, snowOthers]))
      · have := hw.snow.refreezing
        rw [hk] at this
        simp only [List.mem_cons, reduceCtorEq, Option.some.injEq, List.not_mem_nil, or_false, false_or] at this
        exact .inr (.inl (by simp [this, snowOthers]))
      · have := hw.snow.snowIce
        rw [hk] at this
        simp only [List.mem_cons, reduceCtorEq, Option.some.injEq, List.not_mem_nil, or_false, false_or] at this
        exact .inr (.inl (by rcases this with this | this <;> simp [this, snowOthers]))
      · exact .inr (.inr ⟨hk, hw.snow.redistribution _ hk⟩)
      · have := hw.snow.sublimation
        rw [hk] at this
        simp only [List.mem_cons, reduceCtorEq, Option.some.injEq, List.not_mem_nil, or_false, false_or] at this
        exact .inr (.inl (by rcases this with this | this <;> simp [this, snowOthers]))
    · cases hk

/-- The variant needs nothing beyond the choices. -/
structure Fits (o : Spec.Choices) (v : Variant) : Prop where
  snow : v.base.withSnow = true → o.snow = true ∧ v.base.melt = o.melt ∧ v.base.splitter = o.splitter
  heat : ∀ it ∈ v.items, ∀ p ∈ it.procs, p.kind ∈ Spec.temperatureDriven → o.snow = true ∧ p.kind = o.melt
  slope : ∀ it ∈ v.items, ∀ p ∈ it.procs, p.kind = "runoff:socont" → o.slope
  lateral : v.base.withSnow = true → v.base.redistribution ≠ none → o.slope

section
variable {K : Type} [Field K] [LinearOrder K] {v : Variant} (hw : Whole v) {o : Spec.Choices} (hf : Fits o v)
include hw hf

theorem props_fit {un : UnitIn K} {x : UnitX K} (hx : Spec.Surveyed o un x) {k : String} (hk : k ∈ kindsOf v) : Spec.PropsFor x k := by
  have k1 : ∀ k ∈ ["outflow:threshold", "et:open_water"] ++ snowOthers,
      k ∉ ["runoff:socont", "transport:snow_slide", "transport:snow_redistribution_frey", "transport:snow_redistribution_frey_dynamic"] ∧
      k ≠ "melt:degree_day_aspect" := by decide
  have k2 : ∀ k ∈ Spec.meltKinds,
      k ∉ ["runoff:socont", "transport:snow_slide", "transport:snow_redistribution_frey", "transport:snow_redistribution_frey_dynamic"] := by decide
  have k3 : ∀ k ∈ Spec.lateralNames, k ≠ "melt:degree_day_aspect" := by decide
  have k4 : ∀ k ∈ ["runoff:socont", "transport:snow_slide", "transport:snow_redistribution_frey", "transport:snow_redistribution_frey_dynamic"],
      k = "runoff:socont" ∨ k ∈ Spec.lateralNames := by decide
  rcases kind_cases hw hk with ⟨it, hit, p, hp, rfl⟩ | hk' | ⟨hsn, hk' | hk' | ⟨hk', hl⟩⟩
  · refine ⟨fun hs => ?_, fun ha => ?_⟩
    · rcases k4 _ hs with h | h
      · exact hx.slope (hf.slope it hit p hp h)
      · exact absurd h (hw.kinds it hit p hp).1
    · obtain ⟨h1, h2⟩ := hf.heat it hit p hp (by rw [ha]; decide)
      exact hx.aspect h1 (by rw [← h2, ha])
  · have := k1 k (List.mem_append_left _ hk')
    exact ⟨fun h => absurd h this.1, fun h => absurd h this.2⟩
  · obtain ⟨h1, h2, -⟩ := hf.snow hsn
    refine ⟨fun h => absurd h (k2 k (by rw [hk']; exact hw.snow.melt)), fun h => hx.aspect h1 (by rw [← h2, ← hk', h])⟩
  · have := k1 k (List.mem_append_right _ hk')
    exact ⟨fun h => absurd h this.1, fun h => absurd h this.2⟩
  · exact ⟨fun _ => hx.slope (hf.lateral hsn (by rw [hk']; exact Option.some_ne_none _)), fun h => absurd h (k3 k hl)⟩

theorem driven_fit {xi : InputX K} {loaded : List Var} (hx : Spec.SeriesGiven o xi loaded) {k : String} (hk : k ∈ kindsOf v) {w : Var}
    (hd : Spec.Driven k w) : w ∈ loaded := by
  have k1 : ∀ k ∈ ["outflow:threshold", "et:open_water"], k ∉ Spec.temperatureDriven ∧ k ≠ "melt:temperature_index" := by decide
  have k2 : ∀ k ∈ snowOthers, k ≠ "melt:temperature_index" := by decide
  have k3 : ∀ k ∈ Spec.lateralNames, k ≠ "melt:temperature_index" := by decide
  rcases hd with ⟨rfl, -⟩ | ⟨rfl, ht⟩ | ⟨rfl, ht⟩
  · exact hx.pet
  · refine hx.temperature ?_
    rcases kind_cases hw hk with ⟨it, hit, p, hp, rfl⟩ | hk' | ⟨hsn, -⟩
    · exact (hf.heat it hit p hp ht).1
    · exact absurd ht (k1 k hk').1
    · exact (hf.snow hsn).1
  · rcases kind_cases hw hk with ⟨it, hit, p, hp, rfl⟩ | hk' | ⟨hsn, hk' | hk' | ⟨-, hl⟩⟩
    · obtain ⟨h1, h2⟩ := hf.heat it hit p hp (by rw [ht]; decide)
      exact hx.radiation h1 (by rw [← h2, ht])
    · exact absurd ht (k1 k hk').2
    · obtain ⟨h1, h2, -⟩ := hf.snow hsn
      exact hx.radiation h1 (by rw [← h2, ← hk', ht])
    · exact absurd ht (k2 k hk')
    · exact absurd ht (k3 k hl)

end

theorem base_splits {g : BaseArgs} (hc : g.covers ≠ []) (hs : g.withSnow = true → g.splitter ∈ ["snow_rain:threshold", "snow_rain:linear", "snow_rain:cemaneige"])
    {k : ℕ} {s : Split} (hk : (Spec.base g).unitSplits[k]? = some s) :
    Spec.SplitCount s ∧ (∀ w ∈ genForcings g.withSnow g.splitter k, Spec.SplitUsable s.type w) ∧
    (s.type = "snow_rain:cemaneige" → k = 0 ∧ g.withSnow = true ∧ g.splitter = "snow_rain:cemaneige") := by
  have hmulti : ∀ (n : String) (outs : List Out), outs ≠ [] → Spec.SplitCount ⟨n, "multi_fluxes", outs⟩ := fun n outs ho =>
    ⟨fun _ => ho, fun h => absurd h (by dsimp only; decide), fun h => absurd h (by dsimp only; decide)⟩
  cases hw : g.withSnow with
  | false =>
    have hsp : (Spec.base g).unitSplits = [⟨"rain", "rain", [{ target := "rain_splitter" }]⟩, Spec.rainSplitter g] := by
      simp [Spec.base, hw]
    rw [hsp] at hk
    match k, hk with
    | 0, hk =>
      cases hk
      refine ⟨⟨fun h => absurd h (by dsimp only; decide), fun _ => rfl, fun h => absurd h (by dsimp only; decide)⟩, ?_, fun h => absurd h (by dsimp only; decide)⟩
      intro w hw'
      simp only [genForcings, Bool.false_eq_true, if_false, List.mem_singleton] at hw'
      subst hw'
      exact .inl ⟨rfl, by decide⟩
    | 1, hk =>
      cases hk
      exact ⟨hmulti _ _ (by simpa using hc), by simp [genForcings], fun h => absurd h (by change "multi_fluxes" ≠ _; decide)⟩
    | k + 2, hk => simp at hk
  | true =>
    have hsp : (Spec.base g).unitSplits = [⟨"snow_rain_transition", g.splitter, [{ target := "rain_splitter" }, { target := "snow_splitter", content := .snow }]⟩,
       Spec.snowSplitter g, Spec.rainSplitter g] := by
      simp [Spec.base, hw]
    rw [hsp] at hk
    match k, hk with
    | 0, hk =>
      cases hk
      have key : ∀ t ∈ ["snow_rain:threshold", "snow_rain:linear", "snow_rain:cemaneige"], t ≠ "multi_fluxes" ∧ t ≠ "rain" ∧
          t ∈ ["rain", "snow_rain:threshold", "snow_rain:linear", "snow_rain:cemaneige"] := by decide
      obtain ⟨k1, k2, k3⟩ := key _ (hs hw)
      refine ⟨⟨fun h => absurd h k1, fun h => absurd h k2, fun _ => rfl⟩, ?_, fun h => ⟨rfl, rfl, h⟩⟩
      intro w hw'
      simp only [genForcings, if_true, List.mem_append, List.mem_cons, List.not_mem_nil, or_false] at hw'
      rcases hw' with (rfl | rfl) | hw'
      · exact .inl ⟨rfl, k3⟩
      · exact .inr (.inl ⟨rfl, hs hw⟩)
      · split at hw'
        · rename_i he
          simp only [List.mem_cons, List.not_mem_nil, or_false] at hw'
          exact .inr (.inr ⟨hw', he⟩)
        · cases hw'
    | 1, hk =>
      cases hk
      exact ⟨hmulti _ _ (by simpa using hc), by simp [genForcings], fun h => absurd h (by change "multi_fluxes" ≠ _; decide)⟩
    | 2, hk =>
      cases hk
      exact ⟨hmulti _ _ (by simpa using hc), by simp [genForcings], fun h => absurd h (by change "multi_fluxes" ≠ _; decide)⟩
    | k + 3, hk => simp at hk

section
variable {K : Type} [Field K] [LinearOrder K] {vs : List Variant} {bas : List String} (h : GoodModel vs bas) (hw : ∀ v ∈ vs, Whole v)
  {o : Spec.Choices} (hf : ∀ v ∈ vs, Fits o v) {xi : InputX K} (hm : Spec.SetUp vs xi)
  (hl : (∃ v ∈ vs, v.base.redistribution ≠ none) → Spec.LateralGiven xi.base)
  (hx : ∀ u un, xi.base.units[u]? = some un → Spec.Surveyed o un (xi.ext u))
include h hw hf hm hl hx

theorem unit_ready {u : ℕ} {un : UnitIn K} (hu : xi.base.units[u]? = some un) : ∃ v ∈ vs, Good v (basNames xi.base) ∧ un.str = Spec.complete v ∧
    (xi.ext u).splitF = genForcings v.base.withSnow v.base.splitter := by
  obtain ⟨v, hv, a, h1, h2, h3⟩ := hm.units u un hu
  have hg := h.good v hv
  exact ⟨v, hv, by rw [bas_eq h hm.from]; exact hg, by rw [h2, generated hg h1], h3⟩

theorem model_complete : Spec.WellFormed xi.base ∧ Spec.Complete xi := by
  have hd := described h hm.from hl
  refine ⟨(c57_builds_iff (described_distinct hd)).1 (described_builds hd), hm.exists_unit, ?_, ?_, ?_⟩
  · intro u un hu
    obtain ⟨v, hv, hg, hs, hsf⟩ := unit_ready h hw hf hm hl hx hu
    have hsp : un.str.unitSplits = (Spec.base v.base).unitSplits := by rw [hs]; rfl
    refine ⟨?_, ?_, ?_, ?_⟩
    · intro b hb p hp
      rw [hs] at hb
      exact props_fit (hw v hv) (hf v hv) (hx u un hu) (kind_mem hg hb hp)
    · intro i b _ j p _ w hw'
      rw [(hm.plain u).2 i j] at hw'
      cases hw'
    · intro k s hk w hw'
      rw [hsf] at hw'
      rw [hsp] at hk
      exact (base_splits (hw v hv).land (hw v hv).splitter hk).2.1 w hw'
    · intro s hs' hc
      rw [hsp] at hs'
      obtain ⟨k, hk⟩ := List.mem_iff_getElem?.1 hs'
      obtain ⟨-, h1, h2⟩ := (base_splits (hw v hv).land (hw v hv).splitter hk).2.2 hc
      obtain ⟨h3, -, h4⟩ := (hf v hv).snow h1
      exact (hx u un hu).elevation h3 (by rw [← h4, h2])
  · intro u un hu
    obtain ⟨v, hv, hg, hs, hsf⟩ := unit_ready h hw hf hm hl hx hu
    have hsp : un.str.unitSplits = (Spec.base v.base).unitSplits := by rw [hs]; rfl
    refine ⟨(hx u un hu).area, fun b hb => brick_complete hg (hw v hv) hs hb, ?_, ?_⟩
    · intro s hs'
      rw [hsp] at hs'
      obtain ⟨k, hk⟩ := List.mem_iff_getElem?.1 hs'
      exact (base_splits (hw v hv).land (hw v hv).splitter hk).1
    · intro k s hk hc
      rw [hsp] at hk
      obtain ⟨h0, h1, h2⟩ := (base_splits (hw v hv).land (hw v hv).splitter hk).2.2 hc
      obtain ⟨h3, -, h4⟩ := (hf v hv).snow h1
      have he := (hx u un hu).elevation h3 (by rw [← h4, h2])
      obtain ⟨e, he⟩ := Option.ne_none_iff_exists'.1 he
      rw [hsf, h0, h1, h2]
      exact ⟨by simp [genForcings], by simp [genForcings], e, he, fun _ => by simp [genForcings]⟩
  · have hbasin : ∀ b ∈ xi.base.basin.basinBricks, ∃ v ∈ vs, ∃ it ∈ v.items, Good v bas ∧ it.place = .basin ∧ it.kind = "storage" ∧ b = Spec.storageOf it := by
      intro b hb
      obtain ⟨v, a, h1, h2, h3⟩ := hm.basin
      have hv : v ∈ vs := List.mem_of_mem_head? (by rw [h1]; rfl)
      have hg := h.good v hv
      rw [h3, generated hg h2] at hb
      obtain ⟨it, hit, rfl⟩ := List.mem_map.1 hb
      rw [mem_itemsAt] at hit
      exact ⟨v, hv, it, hit.1, hg, hit.2, (hg.plan.storages it hit.1 (by rw [hit.2]; decide)).1, rfl⟩
    refine ⟨?_, ?_, ?_, ?_, ?_, by rw [basin_splits hd]; simp⟩
    · intro b hb
      obtain ⟨v, hv, it, hit, hg, hpl, hk, rfl⟩ := hbasin b hb
      obtain ⟨⟨q, hq, hwo⟩, -⟩ := (hw v hv).stored it hit (by rw [hpl]; decide)
      refine ⟨Spec.procOf q, List.mem_map.2 ⟨q, hq, rfl⟩, ?_⟩
      change Spec.WorksOn q.kind it.kind (Spec.ownStore it.kind)
      rw [hk]
      exact hwo
    · intro b hb p hp w
      obtain ⟨v, hv, it, hit, hg, hpl, hk, rfl⟩ := hbasin b hb
      obtain ⟨q, hq, rfl⟩ := List.mem_map.1 hp
      exact (hw v hv).basin it hit hpl q hq w
    · intro b hb p hp _ ha
      obtain ⟨v, hv, it, hit, hg, hpl, hk, rfl⟩ := hbasin b hb
      obtain ⟨q, hq, rfl⟩ := List.mem_map.1 hp
      rw [outs_length, (hg.plan.fromBasin it hit hpl q hq).1]
      rfl
    · intro b hb j p hj hdir
      obtain ⟨v, hv, it, hit, hg, hpl, hk, rfl⟩ := hbasin b hb
      obtain ⟨q, hq, rfl⟩ := List.mem_map.1 (List.mem_of_getElem? hj)
      exact absurd hdir (((hw v hv).stored it hit (by rw [hpl]; decide)).2 q hq)
    · intro b hb p hp hh
      obtain ⟨v, hv, it, hit, hg, hpl, hk, rfl⟩ := hbasin b hb
      obtain ⟨q, hq, rfl⟩ := List.mem_map.1 hp
      exact absurd hh ((hw v hv).kinds it hit q hq).2.2

theorem model_ready {loaded : List Var} (hs : Spec.SeriesGiven o xi loaded) : Spec.Ready xi loaded := by
  have hd := described h hm.from hl
  obtain ⟨⟨m, fs⟩, hp⟩ := (c62_accepts_iff (described_distinct hd)).2 (model_complete h hw hf hm hl hx)
  refine ⟨m, fs, hp, fun u un hu => ?_⟩
  obtain ⟨bu, l, h1, h2, h3⟩ := c62_safe_iff (described_distinct hd) hp hu loaded
  refine ⟨bu, l, h1, h2, h3.2 ?_⟩
  obtain ⟨v, hv, hg, hstr, hsf⟩ := unit_ready h hw hf hm hl hx hu
  refine (c62_generated (g := v.base) (by rw [hstr]; rfl) hsf (hw v hv).splitter ?_ loaded).2 ⟨?_, hs.precipitation, fun hsn => ?_⟩
  · have key : ∀ n, n ∉ Spec.keywords → n ∉ ["rain_splitter", "snow_splitter"] := by
      intro n hn hm
      refine hn ?_
      have key : ∀ n ∈ ["rain_splitter", "snow_splitter"], n ∈ Spec.keywords := by decide
      exact key n hm
    intro b hb
    rcases List.mem_append.1 hb with hb | hb
    · rw [hstr] at hb
      exact key _ (complete_plain hg hb)
    · obtain ⟨i, hi⟩ := List.mem_iff_getElem?.1 hb
      exact key _ (basin_brick hd hi).2.1
  · intro b hb p hpp w hw'
    rw [hstr] at hb
    exact driven_fit (hw v hv) (hf v hv) hs (kind_mem hg hb hpp) hw'
  · obtain ⟨k1, -, k3⟩ := (hf v hv).snow hsn
    refine ⟨fun _ => hs.temperature k1, fun hc e he => ⟨fun _ => hs.temperature k1, fun hlt => ?_⟩⟩
    exact hs.extremes k1 (by rw [← k3, hc]) u e (List.getElem?_eq_some_iff.1 hu).1 he hlt

end

end HB.Wire
