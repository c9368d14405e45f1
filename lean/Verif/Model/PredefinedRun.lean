import Verif.Model.PredefinedModels
import Verif.Props.Assemble

/-! # Models set up from structure variants: they are described, and they conserve water. -/

set_option linter.unusedSectionVars false
set_option linter.unusedSimpArgs false

namespace HB.Wire

open HB.Names

variable {K σ : Type}

/-- The solver handles no process with a groundwater exchange. -/
def NoSolvedExchange (v : Variant) : Prop :=
  ∀ it ∈ v.items, (it.place = .basin ∨ it.place = .unit ∧ it.direct = false) → ∀ p ∈ it.procs, p.kind ∉ Spec.exchangers

/-- All variants are good, and the first one has these storages in the sub-basin. -/
structure GoodModel (vs : List Variant) (bas : List String) : Prop where
  good : ∀ v ∈ vs, Good v bas
  basin : ∀ v, vs.head? = some v → (Spec.itemsAt .basin v.items).map (·.key) = bas

theorem generated {v : Variant} {bas : List String} (h : Good v bas) {a : Auth} (ha : generateOne v = .ok a) : a.str = Spec.complete v := by
  obtain ⟨a', h1, h2⟩ := generateOne_yields h.names h.build h.plan
  rw [h1] at ha
  cases ha
  exact h2

theorem complete_basNames (v : Variant) : (Spec.complete v).basinBricks.map (·.name) = (Spec.itemsAt .basin v.items).map (·.key) := by
  change ((Spec.itemsAt .basin v.items).map Spec.storageOf).map (·.name) = _
  rw [List.map_map]
  rfl

section
variable {vs : List Variant} {bas : List String} (h : GoodModel vs bas) {inp : Input K} (hm : Spec.FromModel vs inp)
include h hm

theorem bas_eq : basNames inp = bas := by
  obtain ⟨v, a, h1, h2, h3⟩ := hm.basin
  have hg := h.good v (List.mem_of_mem_head? (by rw [h1]; rfl))
  unfold basNames
  rw [h3, generated hg h2, complete_basNames, h.basin v h1]

theorem described (hl : (∃ v ∈ vs, v.base.redistribution ≠ none) → Spec.LateralGiven inp) : Spec.Described inp := by
  have hb : inp.basin.basinBricks.map (·.name) = bas := bas_eq h hm
  refine ⟨?_, ?_⟩
  · obtain ⟨v, a, h1, h2, h3⟩ := hm.basin
    have hg := h.good v (List.mem_of_mem_head? (by rw [h1]; rfl))
    exact ⟨v, hg.names, hg.build, hb ▸ hg.plan, by rw [h3, generated hg h2]⟩
  · intro un hun
    obtain ⟨v, hv, a, h2, h3⟩ := hm.units un hun
    have hg := h.good v hv
    exact ⟨v, hg.names, hg.build, hb ▸ hg.plan, by rw [h3, generated hg h2], fun hr => hl ⟨v, hv, hr⟩ un hun⟩

/-- The unit was generated from one of the variants. -/
theorem unit_from {u : ℕ} {un : UnitIn K} (hu : inp.units[u]? = some un) : ∃ v ∈ vs, Good v (basNames inp) ∧ un.str = Spec.complete v := by
  obtain ⟨v, hv, a, h2, h3⟩ := hm.units un (List.mem_of_getElem? hu)
  have hg := h.good v hv
  exact ⟨v, hv, by rw [bas_eq h hm]; exact hg, by rw [h3, generated hg h2]⟩

theorem noRedistribution (hr : ∀ v ∈ vs, v.base.redistribution = none) : Spec.NoRedistribution inp := by
  intro un hun b hb p hp o ho hlat
  obtain ⟨u, hu⟩ := List.mem_iff_getElem?.1 hun
  obtain ⟨v, hv, hg, hs⟩ := unit_from h hm hu
  rw [hs] at hb
  obtain ⟨i, hrole⟩ := sort_mem hg hb
  cases hrole with
  | cover c _ _ hc hn hty _ _ hpr =>
    obtain ⟨it, hit, hpl, hk', q, hq, rfl⟩ := hpr p hp
    exact ((hg.plan.written it hit q hq).2 _ (procOf_outs ho).1).2.2 hlat
  | canopy c _ _ hc hcc he =>
    subst he
    rcases List.mem_cons.1 hp with rfl | hp
    · simp only [Spec.pr, List.mem_singleton] at ho
      subst ho
      dsimp only [Spec.belowCanopy] at hlat
      split at hlat
      · have : c.name ++ "_snowpack" ∉ Spec.keywords := suffix_ne_keyword (.inl rfl)
        rw [hlat] at this
        exact this (by decide)
      · exact hg.build.names c hc (by rw [hlat]; decide)
    · rw [List.mem_singleton] at hp
      subst hp
      cases ho
  | snow c _ _ hw hc he =>
    subst he
    rcases (snow_proc hg.names hg.build hc hp).2 o ho with ⟨h1, -⟩ | ⟨h1, -⟩ | ⟨-, -, -, h4⟩
    · exact hg.build.names c hc (by rw [← h1, hlat]; decide)
    · have : c.name ++ "_snowpack" ∉ Spec.keywords := suffix_ne_keyword (.inl rfl)
      rw [← h1, hlat] at this
      exact this (by decide)
    · exact h4 (hr v hv)
  | storage k it _ _ hit hpl he =>
    subst he
    obtain ⟨q, hq, rfl⟩ := List.mem_map.1 hp
    exact ((hg.plan.written it hit q hq).2 _ (procOf_outs ho).1).2.2 hlat

variable [Field K] [LinearOrder K]

theorem noInject (hx : ∀ v ∈ vs, NoSolvedExchange v) {m : Wire.Model K} {ext : ℕ → ℕ → K} {laws : Laws K σ}
    (hl : Spec.OnlyExchangersInject inp laws) : NoInject (Asm.asm inp m ext) laws := by
  have procs : ∀ (c : Comp) (b : Wire.Brick), Spec.brickOf inp c = some b → (∀ p ∈ b.procs, p.type ∉ Spec.exchangers) →
      ∀ p ∈ Asm.procsOf m.net c b, ∀ h ph, (laws.rates p.pid h ph).2.1 = 0 := by
    intro c b hb hp p hpm
    obtain ⟨⟨q, j⟩, hq, rfl⟩ := List.mem_map.1 hpm
    have hq' := List.mem_zipIdx_iff_getElem?.1 hq
    exact hl c b j q hb hq' (hp q (List.mem_of_getElem? hq'))
  intro b hb p hp
  change b ∈ Asm.mkSolver inp m at hb
  unfold Asm.mkSolver at hb
  rcases List.mem_append.1 hb with hb | hb
  · obtain ⟨⟨un, u⟩, hu, hb⟩ := List.mem_flatMap.1 hb
    obtain ⟨⟨i, wb⟩, hib, rfl⟩ := List.mem_map.1 hb
    obtain ⟨hib, hdir⟩ := List.mem_filter.1 hib
    have hu' := List.mem_zipIdx_iff_getElem?.1 hu
    have hwb : un.str.unitBricks[i]? = some wb := by
      unfold Asm.unitBricks at hib
      obtain ⟨i', -, hi'⟩ := List.mem_filterMap.1 hib
      cases hg : un.str.unitBricks[i']? with
      | none => rw [hg] at hi'; cases hi'
      | some b0 =>
        rw [hg] at hi'
        simp only [Option.map_some, Option.some.injEq, Prod.mk.injEq] at hi'
        obtain ⟨rfl, rfl⟩ := hi'
        exact hg
    refine procs (.unitBrick u i) wb (by simp [Spec.brickOf, hu', hwb]) ?_ p hp
    obtain ⟨v, hv, hg, hs⟩ := unit_from h hm hu'
    rw [hs] at hwb
    simp only [Asm.isDirect, Bool.not_eq_true', Bool.or_eq_false_iff] at hdir
    cases sort_of hg hwb with
    | cover c _ _ hc hn hty _ _ hpr =>
      exfalso
      have key : ∀ t ∈ Spec.coverTypes, ∀ n par ps d, canHaveFraction (Asm.clsOf ⟨n, t, par, ps, d⟩) = true := by
        intro t ht n par ps d
        simp only [Spec.coverTypes, List.mem_cons, List.not_mem_nil, or_false] at ht
        rcases ht with rfl | rfl | rfl | rfl | rfl <;> rfl
      have := key wb.type (by rw [hty]; exact hg.build.types c hc) wb.name wb.parent wb.procs wb.direct
      rw [hdir.1] at this
      cases this
    | canopy c _ _ hc hcc he => subst he; exact absurd hdir.1 (by change ¬ (true = false); decide)
    | snow c _ _ hw hc he => subst he; exact absurd hdir.1 (by change ¬ (true = false); decide)
    | storage k it _ _ hit hpl he =>
      subst he
      intro q' hq'
      obtain ⟨q, hq, rfl⟩ := List.mem_map.1 hq'
      exact hx v hv it hit (.inr ⟨hpl, hdir.2⟩) q hq
  · obtain ⟨⟨wb, i⟩, hib, rfl⟩ := List.mem_map.1 hb
    have hwb := List.mem_zipIdx_iff_getElem?.1 hib
    refine procs (.basinBrick i) wb hwb ?_ p hp
    obtain ⟨v, a, h1, h2, h3⟩ := hm.basin
    have hv : v ∈ vs := List.mem_of_mem_head? (by rw [h1]; rfl)
    have hg := h.good v hv
    rw [h3, generated hg h2] at hwb
    obtain ⟨it, hit, rfl⟩ := List.mem_map.1 (List.mem_of_getElem? hwb)
    rw [mem_itemsAt] at hit
    intro q' hq'
    obtain ⟨q, hq, rfl⟩ := List.mem_map.1 hq'
    exact hx v hv it hit.1 (.inl hit.2) q hq

theorem model_builds (hl : (∃ v ∈ vs, v.base.redistribution ≠ none) → Spec.LateralGiven inp) : ∃ m, build inp = .ok m :=
  described_builds (described h hm hl)

variable [IsStrictOrderedRing K]

theorem model_conserves (hr : ∀ v ∈ vs, v.base.redistribution = none) {m : Wire.Model K}
    (hb : build inp = .ok m) {ext : ℕ → ℕ → K} (ha : Spec.AreasGiven inp ext) (laws : Laws K σ)
    (sch : Scheme K σ) (dt : K) (tick : σ → σ) : Spec.Conserves inp m ext laws sch dt tick := by
  have hd := described h hm (fun ⟨v, hv, hne⟩ => absurd (hr v hv) hne)
  have hnr := noRedistribution h hm hr
  intro n s s' recs hfresh hrun hlog
  exact c63_built_model_balance (described_distinct hd) hb (described_forward hd hnr) (described_areasFit hd hnr ha)
    (fun _ => described_stageable hd hnr) n hfresh hrun hlog

end

end HB.Wire
