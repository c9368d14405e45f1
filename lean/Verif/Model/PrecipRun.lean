import Verif.Model.PrecipHand

/-! # Closing the balance of models set up from structure variants. -/

set_option linter.unusedSectionVars false
set_option linter.unusedSimpArgs false

namespace HB.Wire

open HB.Names

variable {K σ : Type} [Field K] [LinearOrder K] [IsStrictOrderedRing K]

/-- The first splitter of the variant separates rain and snow. -/
def SeparatesRain (v : Variant) : Prop := v.base.withSnow = true → v.base.splitter ≠ "multi_fluxes"

section
variable {inp : Input K} (hd : Spec.Described inp) {m : Wire.Model K} (hb : build inp = .ok m) {ext : ℕ → ℕ → K}
include hd hb

/-- Over a run, the sums of what comes in and goes out. -/
theorem run_flows (hcov : Spec.Covered inp ext) (hnr : Spec.NoRedistribution inp) (hsep : Spec.Separates inp) {laws : Laws K σ} {sch : Scheme K σ}
    {tick : σ → σ} {time : σ → ℕ} {P : ℕ → ℕ → K} (hw : Spec.SplittersWork inp m laws time P) (hc : Spec.Clocked laws sch tick time) {dt : K}
    (s0 : Phys K) (hff : FeedForward (Asm.asm inp m ext) (Asm.geo inp m ext s0).C (Asm.stuckF inp m ext))
    (hst : sch.staged = true → StageOK (Asm.asm inp m ext)) (hown : DirectOwn (Asm.asm inp m ext))
    (hgeo : Spec.GeoOK (Asm.asm inp m ext) (Asm.geo inp m ext s0) (Spec.writes (Asm.asm inp m ext))) :
    ∀ (n : ℕ) (s s' : Sys K σ) (recs : List (Phys K)), Ready (Asm.asm inp m ext) (Asm.geo inp m ext s0) (Asm.stuckF inp m ext) s.ph →
      runSteps (Asm.asm inp m ext) laws sch dt tick n s = .ok (recs, s') →
      (recs.map (Spec.inflow inp ext m (Spec.system inp ext s0))).sum - (recs.map (Spec.losses inp ext m (Spec.system inp ext s0))).sum =
        ((List.range n).map fun i => Spec.precipitation inp P (time s.hid + i)).sum - (recs.map (Spec.evaporated inp ext m)).sum
          + (recs.map (Spec.supplied inp ext m (Spec.endless inp ext s0))).sum := by
  intro n
  induction n with
  | zero =>
    intro s s' recs _ h
    simp only [runSteps, Except.ok.injEq, Prod.mk.injEq] at h
    rw [← h.1]
    simp
  | succ n ih =>
    intro s s' recs hr h
    unfold runSteps at h
    cases h1 : processTimeStep (Asm.asm inp m ext) laws sch dt s with
    | error e => rw [h1] at h; simp [bind, Except.bind] at h
    | ok s1 =>
      rw [h1] at h
      simp only [bind, Except.bind] at h
      obtain ⟨hr1, -, -, -⟩ := step_balance hff hst hown hgeo hr h1
      cases h2 : runSteps (Asm.asm inp m ext) laws sch dt tick n { s1 with hid := tick s1.hid } with
      | error e => rw [h2] at h; simp at h
      | ok q =>
        rw [h2] at h
        simp only [pure, Except.pure, Except.ok.injEq, Prod.mk.injEq] at h
        have hrest := ih { s1 with hid := tick s1.hid } q.2 q.1 hr1 h2
        have hstep := flow_identity hd hb hcov hnr s0 (ph := s1.ph) hr1.stuck
        rw [step_precipitation hd hb hcov hnr hsep hw hc hff hst hown hr h1 hr1.stuck] at hstep
        have ht : time (tick s1.hid) = time s.hid + 1 := by rw [hc.tick, step_time hc h1]
        dsimp only at hrest
        rw [ht] at hrest
        rw [← h.1, List.range_succ_eq_map]
        simp only [List.map_cons, List.sum_cons, List.map_map, Nat.add_zero]
        have e : ((List.range n).map ((fun i => Spec.precipitation inp P (time s.hid + i)) ∘ Nat.succ)).sum =
            ((List.range n).map fun i => Spec.precipitation inp P (time s.hid + 1 + i)).sum := by
          congr 1
          apply List.map_congr_left
          intro i _
          simp only [Function.comp_apply]
          congr 1
          omega
        rw [e]
        linarith

end

section
variable {vs : List Variant} {bas : List String} (h : GoodModel vs bas) {inp : Input K} (hm : Spec.FromModel vs inp)
include h hm

theorem model_closes (hr : ∀ v ∈ vs, v.base.redistribution = none) (hs : ∀ v ∈ vs, SeparatesRain v)
    {m : Wire.Model K} (hb : build inp = .ok m) {ext : ℕ → ℕ → K} (ha : Spec.AreasGiven inp ext) (hcov : Spec.Covered inp ext) {laws : Laws K σ}
    {sch : Scheme K σ} {dt : K} {tick : σ → σ} {time : σ → ℕ} {P : ℕ → ℕ → K}
    (hw : Spec.SplittersWork inp m laws time P) (hc : Spec.Clocked laws sch tick time) :
    Spec.Closes inp m ext laws sch dt tick time P := by
  have hd := described h hm (fun ⟨v, hv, hne⟩ => absurd (hr v hv) hne)
  have hnr := noRedistribution h hm hr
  have hd' := described_distinct hd
  have hf := described_forward hd hnr
  have haf := described_areasFit hd hnr ha
  have hst : sch.staged = true → StageOK (Asm.asm inp m ext) := fun _ => Asm.stageOK hd' hb hf (described_stageable hd hnr) ext
  have hsep : Spec.Separates inp := by
    intro un hun s hsp
    obtain ⟨u, hu⟩ := List.mem_iff_getElem?.1 hun
    obtain ⟨v, hv, hg, hsv⟩ := unit_from h hm hu
    rw [hsv, complete_unitSplits] at hsp
    unfold Spec.base at hsp
    dsimp only at hsp
    split at hsp <;> simp only [List.getElem?_cons_zero, Option.some.injEq] at hsp <;> subst hsp
    · exact hs v hv (by assumption)
    · simp
  intro n s s' recs hfresh hrun hlog
  obtain ⟨hlen, hbal⟩ := model_conserves h hm hr hb ha laws sch dt tick n s s' recs hfresh hrun hlog
  have hflow := run_flows hd hb hcov hnr hsep hw hc s.ph (Asm.feedForward hd' hb hf ext s.ph) hst
    (Asm.directOwn hd' hb ext) (Asm.geoOK hd' hb hf haf s.ph) n s s' recs (Asm.ready hd' hb hfresh) hrun
  refine ⟨hlen, le_trans (le_of_eq ?_) hbal⟩
  congr 1
  linarith

end

theorem defaultSplitter_ne (melt : String) : defaultSplitter melt ≠ "multi_fluxes" := by unfold defaultSplitter; split <;> decide

theorem splitGlaciers_base {f : List PyCover → BaseArgs} {cs : List PyCover} {items : List Item} {v : Variant}
    (hv : v ∈ splitGlaciers f cs items) : ∃ cs', v.base = f cs' := by
  unfold splitGlaciers at hv
  split at hv
  · simp at hv; exact ⟨_, by rw [hv]⟩
  · simp at hv
    rcases hv with hv | hv <;> exact ⟨_, by rw [hv]⟩

theorem socont_separates {o : SocontOpts} {cs : List PyCover} : ∀ v ∈ socont o cs, SeparatesRain v := by
  intro v hv _
  obtain ⟨cs', h⟩ := splitGlaciers_base hv
  rw [h]
  exact defaultSplitter_ne _

theorem hbv_separates {o : HbvOpts} {cs : List PyCover} : ∀ v ∈ hbv96 o cs, SeparatesRain v := by
  intro v hv _
  unfold hbv96 at hv
  split at hv
  · simp at hv
  · rcases List.mem_append.1 hv with hv | hv
    · obtain ⟨cs', h⟩ := splitGlaciers_base hv
      rw [h]
      exact defaultSplitter_ne _
    · split at hv
      · simp at hv
      · simp at hv
        subst hv
        change "snow_rain:linear" ≠ _
        decide

theorem gr_separates {o : GrOpts} (ho : o.snowRain ≠ some "multi_fluxes") {cs : List PyCover} : ∀ v ∈ gr o cs, SeparatesRain v := by
  intro v hv _
  have : v.base = grArgs o cs := by
    unfold gr at hv
    split at hv <;> simp at hv
    subst hv
    rfl
  rw [this]
  unfold grArgs
  dsimp only
  split
  · rename_i s hs
    intro he
    exact ho (by rw [hs, he])
  · exact defaultSplitter_ne _

end HB.Wire
