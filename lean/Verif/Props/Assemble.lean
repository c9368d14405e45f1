import Verif.Model.AssembleSums

/-!
# C63: a built model conserves water over every run
-/

namespace HB

set_option linter.unusedSectionVars false

open HB.Names HB.Wire HB.Asm

variable {K σ : Type} [Field K] [LinearOrder K] [IsStrictOrderedRing K]

namespace Asm

theorem handled_order {inp : Input K} {m : Wire.Model K} (hd : Spec.Distinct inp) (h : build inp = .ok m) {ext : ℕ → ℕ → K}
    {f : Wire.Flux K} (hf : f ∈ m.net.outs) (hh : Spec.Handled inp ext f.src) : f.src ∈ order inp m ext := by
  rw [mem_order hd h]
  rcases c57_only_declared hd h f hf with ⟨u, un, i, b, p, hs, hu, hb, hp⟩ | ⟨u, un, i, s, hs, h0, hu, hsp⟩ |
      ⟨i, b, p, hs, hb, hp⟩ | ⟨i, s, hs, h0, _⟩ <;> rw [hs] at hh ⊢
  · exact ⟨⟨un, b, hu, hb⟩, hh⟩
  · exact ⟨un, s, hu, hsp⟩
  · exact ⟨b, hb⟩
  · exact hh.elim

theorem ready {inp : Input K} {m : Wire.Model K} (hd : Spec.Distinct inp) (h : build inp = .ok m) {ext : ℕ → ℕ → K}
    {ph : Phys K} (hf : Spec.Fresh inp ext m ph) :
    Ready (asm inp m ext) (geo inp m ext ph) (stuckF inp m ext) ph := by
  refine ⟨?_, ?_, ?_⟩
  · intro n hn
    obtain ⟨x, hx, rfl⟩ := mem_sysC.1 hn
    simpa using (List.mem_filter.1 hx).2
  · intro k hk
    obtain ⟨f, hk, hn⟩ := mem_stuckF.1 hk
    exact hf.idle k f hk fun hh => hn (handled_order hd h (List.mem_of_getElem? hk) hh)
  · intro n hn
    rw [solverConts_eq] at hn
    have : n ∈ (asm inp m ext).blocks.flatMap (·.reads) := by
      rw [Net.blocks, List.flatMap_append]; exact List.mem_append_right _ hn
    rw [blocks_eq, flatMap_map'] at this
    obtain ⟨x, hx, rfl⟩ := (mem_reads hd h ext).1 this
    exact hf.still x hx

end Asm

/-- **C63.** Take any declared structure the builder accepts, whose water is only sent forward and whose areas fit, with any
process laws, forcings and solver.  Over any number of time steps, as long as no negative content is reported, the change of
the volume stored in the bricks equals what came in (precipitation handed out by the splitters, supply from inexhaustible
stores), minus the basin area times the reported outlet discharge, minus what was lost elsewhere (evapotranspiration), plus
groundwater exchange, up to 1e-8 per unit of area and time step. -/
theorem c63_built_model_balance {inp : Input K} {m : Wire.Model K} (hd : Spec.Distinct inp) (h : build inp = .ok m)
    (hf : Spec.Forward inp) {ext : ℕ → ℕ → K} (ha : Spec.AreasFit inp ext) {laws : Laws K σ}
    {sch : Scheme K σ} (hw : sch.staged = true → Spec.Stageable inp) {dt : K}
    {tick : σ → σ} (n : ℕ) {s s' : Sys K σ} {recs : List (Phys K)} (hfresh : Spec.Fresh inp ext m s.ph)
    (hrun : runSteps (asm inp m ext) laws sch dt tick n s = .ok (recs, s')) (hlog : s'.ph.logs = s.ph.logs) :
    recs.length = n ∧
    |Spec.volume inp ext (Spec.system inp ext s.ph) s'.ph - Spec.volume inp ext (Spec.system inp ext s.ph) s.ph
        - ((recs.map (Spec.inflow inp ext m (Spec.system inp ext s.ph))).sum
          - Spec.basinArea inp * (recs.map (outletDischarge (asm inp m ext))).sum
          - (recs.map (Spec.losses inp ext m (Spec.system inp ext s.ph))).sum
          + (Spec.exchangedVolume inp ext (Spec.system inp ext s.ph) s'.ph
            - Spec.exchangedVolume inp ext (Spec.system inp ext s.ph) s.ph))|
      ≤ n * prec * Spec.totalArea inp ext (Spec.system inp ext s.ph) := by
  have hff := feedForward hd h hf ext s.ph
  have hgeo := geoOK hd h hf ha s.ph
  have hst : sch.staged = true → StageOK (asm inp m ext) := fun hs => stageOK hd h hf (hw hs) ext
  have hown := directOwn hd h ext
  have hr := ready hd h hfresh
  have hA : ∀ c ∈ (geo inp m ext s.ph).C, 0 ≤ (geo inp m ext s.ph).A c := fun c _ => area_nonneg ha _
  obtain ⟨hlen, hbal⟩ := c09_run_balance_partial (g := geo inp m ext s.ph) hff hst hown hgeo hA n s s' recs hr hrun hlog
  have hrec := records_ready (g := geo inp m ext s.ph) hff hst hown hgeo n s s' recs hr hrun
  refine ⟨hlen, ?_⟩
  rw [stored_eq, stored_eq, exchanged_eq, exchanged_eq, area_eq] at hbal
  refine le_trans (le_of_eq ?_) hbal
  congr 1
  have hflow : (recs.map (fun r => Spec.entering (asm inp m ext) (geo inp m ext s.ph) (Spec.writes (asm inp m ext)) r.amt)).sum
      - (recs.map (fun r => Spec.leaving (asm inp m ext) (geo inp m ext s.ph) (Spec.writes (asm inp m ext)) r.amt)).sum
      = (recs.map (Spec.inflow inp ext m (Spec.system inp ext s.ph))).sum
          - Spec.basinArea inp * (recs.map (outletDischarge (asm inp m ext))).sum
          - (recs.map (Spec.losses inp ext m (Spec.system inp ext s.ph))).sum := by
    rw [← List.sum_map_mul_left, Asm.sum_map_sub, Asm.sum_map_sub, Asm.sum_map_sub]
    congr 1
    apply List.map_congr_left
    intro r hr'
    exact net_flow hd h hf s.ph fun k hk => (hrec r hr').stuck k hk
  linear_combination hflow

end HB
