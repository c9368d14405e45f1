import Verif.Model.StepLemmas

/-!
# C06, C07, C08, C09, C15: water balance

The statements use only the specification `Verif/Spec/Balance.lean` (volumes stored, entering,
leaving, read from the recorded amounts) and the model functions of one phase / step / run.
The process and splitter laws are arbitrary functions: nothing is assumed about the rates.
-/

namespace HB

set_option linter.unusedSectionVars false

open Spec

variable {K σ : Type} [Field K] [LinearOrder K] [IsStrictOrderedRing K]

/-- All fluxes written in one step, in order. -/
def Spec.writes (net : Net K) : List (Option Nat × Nat) := writesDirect net ++ writesSolve net

/-- Total area. -/
def Spec.area (g : Geo K) : K := ∑ c ∈ g.C, g.A c

theorem count_fin (l : List Sh) (c : Nat) :
    l.count (.fin c) = (l.filterMap (fun s => match s with | .fin c => some c | _ => none)).count c := by
  induction l with
  | nil => rfl
  | cons s l ih =>
    cases s with
    | fin d =>
      simp only [List.count_cons, List.filterMap_cons, ih, beq_iff_eq, Sh.fin.injEq]
    | _ => simp [List.count_cons, List.filterMap_cons, ih]

theorem fins_schedDirect (net : Net K) :
    net.schedDirect.filterMap (fun s => match s with | .fin c => some c | _ => none) =
      net.blocksDirect.flatMap (·.reads) := by
  simp only [Net.schedDirect, filterMap_flatMap', Net.blocksDirect, List.flatMap_assoc]
  congr 1; funext u
  simp only [HUnit.sched, List.filterMap_append, filterMap_flatMap', List.flatMap_append, List.flatMap_map]
  have h1 : (u.splitters.flatMap fun a => List.filterMap (fun s => match s with | Sh.fin c => some c | _ => none)
      (a.2.map Sh.ext)) = u.splitters.flatMap (fun _ => ([] : List Nat)) := by
    congr 1; funext a
    simp [List.filterMap_eq_nil_iff]
  rw [h1]
  congr 1
  congr 1; funext b
  simp only [Brick.schedDirect, List.filterMap_append, filterMap_flatMap']
  have h2 : List.filterMap (fun s => match s with | Sh.fin c => some c | _ => none) b.schedRead = [] := by
    simp [Brick.schedRead, List.filterMap_eq_nil_iff]
  have h3 : (b.procs.flatMap fun p => List.filterMap (fun s => match s with | Sh.fin c => some c | _ => none)
      (Sh.inj p.src :: p.schedOut)) = [] := by
    simp [Proc.schedOut, List.filterMap_eq_nil_iff]
  rw [h2, h3]
  simp only [Brick.schedFin, List.filterMap_map, Brick.block, List.nil_append]
  induction b.conts with
  | nil => rfl
  | cons a l ih => simp [ih]

theorem fins_schedSolve (net : Net K) :
    net.schedSolve.filterMap (fun s => match s with | .fin c => some c | _ => none) =
      net.solverConts := by
  simp only [Net.schedSolve, List.filterMap_append, filterMap_flatMap']
  have h1 : (net.solver.flatMap fun b => List.filterMap (fun s => match s with | Sh.fin c => some c | _ => none)
      b.schedSolve) = [] := by
    simp only [List.flatMap_eq_nil_iff, List.filterMap_eq_nil_iff]
    intro b _ sh hsh
    simp only [Brick.schedSolve, Brick.schedRead, Brick.schedOut, Proc.schedOut, List.mem_append, List.mem_map, List.mem_flatMap] at hsh
    rcases hsh with ⟨p, -, rfl⟩ | ⟨q, -, rfl⟩ | ⟨p, -, f, -, rfl⟩ <;> rfl
  rw [h1, List.nil_append, Net.solverConts]
  congr 1; funext b
  simp only [Brick.schedFin, List.filterMap_map]
  induction b.conts with
  | nil => rfl
  | cons a l ih => simp [ih]

theorem snapped_bound {g : Geo K} {ph ph' : Phys K} (hA : ∀ c ∈ g.C, 0 ≤ g.A c) (n : K)
    (h : ∀ c, |ph'.snap c - ph.snap c| ≤ n * prec) :
    |snapped g ph' - snapped g ph| ≤ n * prec * area g := by
  unfold snapped area
  rw [← Finset.sum_sub_distrib]
  calc |∑ c ∈ g.C, (g.A c * ph'.snap c - g.A c * ph.snap c)|
      ≤ ∑ c ∈ g.C, |g.A c * ph'.snap c - g.A c * ph.snap c| := Finset.abs_sum_le_sum_abs _ _
    _ ≤ ∑ c ∈ g.C, n * prec * g.A c := by
        refine Finset.sum_le_sum (fun c hc => ?_)
        rw [← mul_sub, abs_mul, abs_of_nonneg (hA c hc), mul_comm]
        exact mul_le_mul_of_nonneg_right (h c) (hA c hc)
    _ = _ := by rw [Finset.mul_sum]

/-! ## Solver phase (C06, C07, C15) -/

/-- The solved containers of the system form a feed-forward network: every solved brick only feeds
bricks declared after it, each delayed input of a container of the system is an output of a solved
brick, an amount handed over by the direct phase (`F`), or a flux of a null brick (`S`). -/
structure SolverNet (net : Net K) (C S F : Finset Nat) : Prop where
  nodup : net.fluxes.Nodup
  ordered : Ordered net C S F net.blocksSolve
  handed : FreshOK net C S F
  covered : ∀ c ∈ C, c ∈ net.solverConts

theorem solver_St {net : Net K} {laws : Laws K σ} {sch : Scheme K σ} {dt : K} {s s' : Sys K σ}
    {g : Geo K} {S F : Finset Nat}
    (hw : sch.staged = true → StageOK net ∧ Settled net s.ph)
    (hnd : net.fluxes.Nodup) (hsound : Sound net g.C S F net.schedSolve)
    (hwn : ((writesSolve net).map Prod.snd).Nodup)
    (hdisj : ∀ f ∈ net.solverOuts, f ∉ F ∧ f ∉ S)
    (hfresh : FreshOK net g.C S F)
    (hgeo : GeoOK net g (writesSolve net)) (hfin : Finite' g s.ph) (hS : ∀ f ∈ S, s.ph.amt f = 0)
    (h : solve net laws dt s sch = .ok s') :
    St g s'.ph + transit g (runF net g.C F net.schedSolve) s'.ph =
      St g s.ph + transit g F s.ph + entering net g (writesSolve net) s'.ph.amt
        - leaving net g (writesSolve net) s'.ph.amt := by
  obtain ⟨ph, hb, hd⟩ := solve_does hw h
  have hfin' : Finite' g ph := fun c hc => by rw [hb.infinite]; exact hfin c hc
  have hS' : ∀ f ∈ S, ph.amt f = 0 := fun f hf => by
    rw [hb.amt f (fun ho => (hdisj f ho).2 hf)]; exact hS f hf
  have := does_balance hd hnd hfin' hfresh hsound hS' (by rwa [writes_schedSolve])
    (by rwa [writes_schedSolve])
  rw [writes_schedSolve] at this
  rw [this]
  have e1 : St g ph = St g s.ph := by
    apply St_same; intro c
    obtain ⟨e, hc, he, -⟩ := hb.cont c
    simp only [val, hc, hb.snap, he]
    ring
  have e2 : transit g F ph = transit g F s.ph := by
    unfold transit
    refine Finset.sum_congr rfl (fun f hf => ?_)
    rw [hb.amt f (fun ho => (hdisj f ho).1 hf)]
  rw [e1, e2]

theorem foldl_exch {α : Type} (g : Phys K → α → Phys K) (hg : ∀ ph a, (g ph a).exch = ph.exch) (l : List α) (ph : Phys K) :
    (l.foldl g ph).exch = ph.exch := by
  induction l generalizing ph with
  | nil => rfl
  | cons a l ih => rw [List.foldl_cons, ih, hg]

/-- Applying rates leaves the exchange counters alone. -/
theorem applyRates_exch (net : Net K) (dt : K) (k : Nat → K) (s : Sys K σ) : (applyRates net dt k s).ph.exch = s.ph.exch := by
  refine foldl_exch _ (fun ph b => ?_) _ _
  refine (foldl_exch _ (fun ph p => ?_) _ _).trans (foldl_exch (readCont net) (fun ph c => rfl) b.conts ph)
  refine foldl_exch _ (fun ph f => ?_) _ _
  rw [applyChange_eq]
  unfold runEv updateFlux
  dsimp only
  split
  · split <;> rfl
  · rfl

/-- So does committing. -/
theorem finalizeTimeStep_exch (net : Net K) (laws : Laws K σ) (s : Sys K σ) : (finalizeTimeStep net laws s).ph.exch = s.ph.exch := by
  unfold finalizeTimeStep
  induction net.solver generalizing s with
  | nil => rfl
  | cons b l ih =>
    rw [List.foldl_cons, ih]
    exact foldl_exch (fun ph c => finCont ph c.1) (fun ph c => rfl) b.conts s.ph

/-- **C06 / C07 / C15.** Water balance of the solver phase, for every solver (Euler, Heun,
Runge–Kutta 4, and the sequential solvers with any rate computation), every process law and every
state: stored volume at the end = stored volume at the start + volume handed over by the direct phase
+ volume entering through solved fluxes from outside the system − volume leaving + volume injected by exchange processes
while their rates were evaluated, up to the
end-of-step snapping, which is at most 1e-8 per unit of area when no negative content is reported. -/
theorem c06_solver_balance {net : Net K} {laws : Laws K σ} {sch : Scheme K σ} {dt : K}
    {s s' : Sys K σ} {g : Geo K} {S F : Finset Nat} (hnet : SolverNet net g.C S F)
    (hw : sch.staged = true → StageOK net ∧ Settled net s.ph)
    (hgeo : GeoOK net g (writesSolve net)) (hA : ∀ c ∈ g.C, 0 ≤ g.A c) (hfin : Finite' g s.ph)
    (hS : ∀ f ∈ S, s.ph.amt f = 0) (h : solve net laws dt s sch = .ok s') :
    stored g s'.ph = stored g s.ph + transit g F s.ph
        + entering net g (writesSolve net) s'.ph.amt - leaving net g (writesSolve net) s'.ph.amt
        + (exchanged g s'.ph - exchanged g s.ph) + (snapped g s'.ph - snapped g s.ph) ∧
    (s'.ph.logs = s.ph.logs → |snapped g s'.ph - snapped g s.ph| ≤ prec * area g) := by
  obtain ⟨hsound, hrest⟩ := hnet.ordered.solve hnet.handed
  have hwn : ((writesSolve net).map Prod.snd).Nodup := by
    rw [← blocks_writes_solve]; exact hnet.ordered.writesNodup
  have hdisj : ∀ f ∈ net.solverOuts, f ∉ F ∧ f ∉ S := fun f hf => by
    rw [solverOuts_eq] at hf; exact (hnet.ordered.known f hf).2
  have hempty : runF net g.C F net.schedSolve = ∅ := by
    rw [Finset.eq_empty_iff_forall_notMem]
    intro f hf
    have h1 := hrest f hf
    have h2 := h1.1
    simp only [tracked, into, Bool.and_eq_true] at h2
    cases ht : (net.flux f).target with
    | outside => rw [ht] at h2; simp at h2
    | cont c =>
      rw [ht] at h2
      have hc : c ∈ g.C := by simpa using h2.2
      have := hnet.covered c hc
      rw [solverConts_eq] at this
      exact h1.2 c this ht
  have hst := solver_St hw hnet.nodup hsound hwn hdisj hnet.handed hgeo hfin hS h
  obtain ⟨ph, hb, hd⟩ := solve_does hw h
  refine ⟨?_, fun hl => ?_⟩
  · rw [hempty] at hst
    rw [St_eq, St_eq] at hst
    simp only [transit, Finset.sum_empty, add_zero] at hst ⊢
    linear_combination hst
  · have hb' := snapped_bound (g := g) (ph := s.ph) (ph' := s'.ph) hA 1 (fun c => ?_)
    · rwa [one_mul] at hb'
    · have h1 := does_snap hd (by rw [hb.logs]; exact hl) c
      rw [hb.snap] at h1
      refine h1.trans (mul_le_mul_of_nonneg_right ?_ prec_nonneg)
      rw [count_fin, fins_schedSolve]
      have : net.solverConts.count c ≤ 1 := by
        rw [solverConts_eq]; exact List.nodup_iff_count_le_one.1 hnet.ordered.contsNodup c
      exact_mod_cast this

/-- **C07.** Trial stages leave no trace but the exchanged water: whatever the explicit solver, there are final rates `k`
such that the result of the step is obtained by applying `k` once to the *start-of-step* containers and committing; only the
amounts of solved fluxes, which the final application rewrites, and the static changes by exactly the water the exchange
processes injected (as counted by the exchange counter) differ. -/
theorem c07_stages_leave_only_exchange {net : Net K} {laws : Laws K σ} {sch : Scheme K σ} {dt : K}
    {s s' : Sys K σ} (hw : StageOK net) (h0 : Settled net s.ph)
    (hex : ∀ law, sch ≠ .sequential law) (h : solve net laws dt s sch = .ok s') :
    ∃ (k : Nat → K) (s0 : Sys K σ),
      (∀ c, s0.ph.cont c = { s.ph.cont c with stat := (s.ph.cont c).stat + (s'.ph.exch c - s.ph.exch c) }) ∧
      (∀ f, f ∉ net.solverOuts → s0.ph.amt f = s.ph.amt f) ∧
      s' = finalizeTimeStep net laws (applyRates net dt k s0) ∧
      (NoInject net laws → s'.ph.exch = s.ph.exch) := by
  have key : ∃ (k : Nat → K) (s0 : Sys K σ), BeforeFinal net laws s.ph s0.ph ∧
      s' = finalizeTimeStep net laws (applyRates net dt k s0) := by
    cases sch with
    | euler => exact solveEuler_final h
    | heun => exact solveHeun_final hw h0 h
    | rk4 => exact solveRK4_final hw h0 h
    | sequential law => exact absurd rfl (hex law)
  obtain ⟨k, s0, hb, hs⟩ := key
  have hx : s'.ph.exch = s0.ph.exch := by
    rw [hs, finalizeTimeStep_exch, applyRates_exch]
  refine ⟨k, s0, fun c => ?_, hb.amt, hs, fun hn => ?_⟩
  · obtain ⟨e, hc, he, -⟩ := hb.cont c
    rw [hc, hx, he, add_sub_cancel_left, add_sub_cancel]
  · funext c
    obtain ⟨e, -, he, hne⟩ := hb.cont c
    rw [hx, he, hne hn, sub_self, add_zero]

/-- **C07.** Trial stages leave no trace when no solved process injects groundwater exchange: the final rates are applied
once to exactly the start-of-step containers. -/
theorem c07_stages_leave_no_trace {net : Net K} {laws : Laws K σ} {sch : Scheme K σ} {dt : K}
    {s s' : Sys K σ} (hn : NoInject net laws) (hw : StageOK net) (h0 : Settled net s.ph)
    (hex : ∀ law, sch ≠ .sequential law) (h : solve net laws dt s sch = .ok s') :
    ∃ (k : Nat → K) (s0 : Sys K σ), s0.ph.cont = s.ph.cont ∧
      (∀ f, f ∉ net.solverOuts → s0.ph.amt f = s.ph.amt f) ∧
      s' = finalizeTimeStep net laws (applyRates net dt k s0) := by
  obtain ⟨k, s0, hc, ha, hs, hx⟩ := c07_stages_leave_only_exchange hw h0 hex h
  refine ⟨k, s0, ?_, ha, hs⟩
  funext c
  rw [hc c, hx hn, sub_self, add_zero]

/-- **C07.** The balance of C06 for the three explicit schemes. -/
theorem c07_explicit_balance_partial {net : Net K} {laws : Laws K σ} {sch : Scheme K σ}
    (_hsch : sch = .euler ∨ sch = .heun ∨ sch = .rk4) {dt : K}
    {s s' : Sys K σ} {g : Geo K} {S F : Finset Nat} (hnet : SolverNet net g.C S F)
    (hw : StageOK net) (h0 : Settled net s.ph)
    (hgeo : GeoOK net g (writesSolve net)) (hA : ∀ c ∈ g.C, 0 ≤ g.A c) (hfin : Finite' g s.ph)
    (hS : ∀ f ∈ S, s.ph.amt f = 0) (h : solve net laws dt s sch = .ok s')
    (hlog : s'.ph.logs = s.ph.logs) :
    |stored g s'.ph - (stored g s.ph + transit g F s.ph
        + entering net g (writesSolve net) s'.ph.amt - leaving net g (writesSolve net) s'.ph.amt
        + (exchanged g s'.ph - exchanged g s.ph))|
      ≤ prec * area g := by
  obtain ⟨h1, h2⟩ := c06_solver_balance hnet (fun _ => ⟨hw, h0⟩) hgeo hA hfin hS h
  rw [h1, add_sub_cancel_left]
  exact h2 hlog

/-- **C15.** The balance of C06 for a sequential solver with any rate computation. -/
theorem c15_sequential_balance {net : Net K} {laws : Laws K σ} (law : SeqLaw K σ) {dt : K}
    {s s' : Sys K σ} {g : Geo K} {S F : Finset Nat} (hnet : SolverNet net g.C S F)
    (hgeo : GeoOK net g (writesSolve net)) (hA : ∀ c ∈ g.C, 0 ≤ g.A c) (hfin : Finite' g s.ph)
    (hS : ∀ f ∈ S, s.ph.amt f = 0) (h : solveSequential net laws law dt s = .ok s')
    (hlog : s'.ph.logs = s.ph.logs) :
    |stored g s'.ph - (stored g s.ph + transit g F s.ph
        + entering net g (writesSolve net) s'.ph.amt - leaving net g (writesSolve net) s'.ph.amt
        + (exchanged g s'.ph - exchanged g s.ph))|
      ≤ prec * area g := by
  obtain ⟨h1, h2⟩ := c06_solver_balance (laws := laws) (sch := .sequential law) hnet
    (fun h => by simp [Scheme.staged] at h) hgeo hA hfin hS h
  rw [h1, add_sub_cancel_left]
  exact h2 hlog

/-! ## Direct phase (C08) -/

/-- The bricks computed directly form a feed-forward network for the containers of the system. -/
structure DirectNet (net : Net K) (C S : Finset Nat) : Prop where
  nodup : net.fluxes.Nodup
  ordered : Ordered net C S ∅ net.blocksDirect
  covered : ∀ c ∈ C, c ∈ net.blocksDirect.flatMap (·.reads)

theorem freshOK_empty (net : Net K) (C S : Finset Nat) : FreshOK net C S ∅ :=
  fun f hf => absurd hf (Finset.notMem_empty f)

/-- **C08.** Water balance of the direct phase for any set of containers computed directly (a single
brick, a unit, all of them): stored at the end = stored at the start + entering − leaving + what
exchange processes injected, up to the snapping. -/
theorem c08_direct_balance {net : Net K} {laws : Laws K σ} {dt : K}
    {s s' : Sys K σ} {g : Geo K} {S : Finset Nat} (hnet : DirectNet net g.C S)
    (hgeo : GeoOK net g (writesDirect net)) (hA : ∀ c ∈ g.C, 0 ≤ g.A c) (hfin : Finite' g s.ph)
    (hS : ∀ f ∈ S, s.ph.amt f = 0) (h : directPhase net laws dt s = .ok s') :
    stored g s'.ph = stored g s.ph
        + entering net g (writesDirect net) s'.ph.amt - leaving net g (writesDirect net) s'.ph.amt
        + (exchanged g s'.ph - exchanged g s.ph) + (snapped g s'.ph - snapped g s.ph) ∧
    (s'.ph.logs = s.ph.logs → |snapped g s'.ph - snapped g s.ph| ≤ prec * area g) := by
  obtain ⟨hsound, hrest⟩ := hnet.ordered.direct (freshOK_empty _ _ _)
  have hd := directPhase_does h
  have hwn : ((writesDirect net).map Prod.snd).Nodup := by
    rw [← blocks_writes_direct]; exact hnet.ordered.writesNodup
  have hempty : runF net g.C ∅ net.schedDirect = ∅ := by
    rw [Finset.eq_empty_iff_forall_notMem]
    intro f hf
    have h1 := hrest f hf
    have h2 := h1.1
    simp only [tracked, into, Bool.and_eq_true] at h2
    cases ht : (net.flux f).target with
    | outside => rw [ht] at h2; simp at h2
    | cont c =>
      rw [ht] at h2
      have hc : c ∈ g.C := by simpa using h2.2
      exact h1.2 c (hnet.covered c hc) ht
  have hst := does_balance hd hnet.nodup hfin (freshOK_empty _ _ _) hsound hS
    (by rwa [writes_schedDirect]) (by rwa [writes_schedDirect])
  rw [writes_schedDirect, hempty, St_eq, St_eq] at hst
  simp only [transit, Finset.sum_empty, add_zero] at hst
  refine ⟨by linear_combination hst, fun hl => ?_⟩
  have hb' := snapped_bound (g := g) (ph := s.ph) (ph' := s'.ph) hA 1 (fun c => ?_)
  · rwa [one_mul] at hb'
  · refine (does_snap hd hl c).trans (mul_le_mul_of_nonneg_right ?_ prec_nonneg)
    rw [count_fin, fins_schedDirect]
    exact_mod_cast List.nodup_iff_count_le_one.1 hnet.ordered.contsNodup c

/-! ## A whole step and a whole run (C09) -/

/-- The whole network is feed-forward for the containers of the system. -/
structure FeedForward (net : Net K) (C S : Finset Nat) : Prop where
  nodup : net.fluxes.Nodup
  ordered : Ordered net C S ∅ net.blocks
  covered : ∀ c ∈ C, c ∈ net.blocks.flatMap (·.reads)

/-- Additional structural condition for the staged solvers: direct processes draw from their own
brick. -/
def DirectOwn (net : Net K) : Prop :=
  ∀ u ∈ net.units, ∀ b ∈ u.direct, ∀ p ∈ b.procs, p.src ∈ b.conts.map (·.1)

theorem direct_keeps_dyn {net : Net K} {C S : Finset Nat} (hff : FeedForward net C S)
    (hown : DirectOwn net) {ph ph' : Phys K} (hd : Does net net.schedDirect ph ph') (c : Nat)
    (hc : c ∈ net.solverConts) : (ph'.cont c).dyn = (ph.cont c).dyn := by
  apply does_dyn_untouched hd
  have hcn := hff.ordered.contsNodup
  rw [Net.blocks, List.flatMap_append, List.nodup_append] at hcn
  have hne : c ∉ net.blocksDirect.flatMap (·.reads) := by
    intro h
    rw [solverConts_eq] at hc
    exact hcn.2.2 c h c hc rfl
  have hnb : ∀ u ∈ net.units, ∀ b ∈ u.direct.filter (!·.null), c ∉ b.conts.map (·.1) := by
    intro u hu b hb h
    apply hne
    refine List.mem_flatMap.2 ⟨b.block, ?_, h⟩
    exact List.mem_flatMap.2 ⟨u, hu, List.mem_append.2 (Or.inr (List.mem_map_of_mem hb))⟩
  intro sh hsh
  simp only [Net.schedDirect, List.mem_flatMap, HUnit.sched, List.mem_append] at hsh
  obtain ⟨u, hu, hsh⟩ := hsh
  rcases hsh with ⟨sp, _, hsh⟩ | ⟨b, hb, hsh⟩
  · obtain ⟨f, _, rfl⟩ := List.mem_map.1 hsh; rfl
  · have h1 := hnb u hu b hb
    have hb' : b ∈ u.direct := (List.mem_filter.1 hb).1
    simp only [Brick.schedDirect, Brick.schedRead, Brick.schedFin, Proc.schedOut, List.mem_append,
      List.mem_map, List.mem_flatMap, List.mem_cons] at hsh
    rcases hsh with (⟨q, hq, rfl⟩ | ⟨p, hp, rfl | ⟨f, _, rfl⟩⟩) | ⟨q, hq, rfl⟩
    · have : q.1 ≠ c := fun e => h1 (e ▸ List.mem_map_of_mem hq)
      simp [Sh.touches, this]
    · rfl
    · have : p.src ≠ c := fun e => h1 (e ▸ hown u hu b hb' p hp)
      simp [Sh.touches, this]
    · have : q.1 ≠ c := fun e => h1 (e ▸ List.mem_map_of_mem hq)
      simp [Sh.touches, this]

/-- Everything that is invariant from one step to the next. -/
structure Ready (net : Net K) (g : Geo K) (S : Finset Nat) (ph : Phys K) : Prop where
  finite : Finite' g ph
  stuck : ∀ f ∈ S, ph.amt f = 0
  settled : Settled net ph

theorem step_balance {net : Net K} {laws : Laws K σ} {sch : Scheme K σ} {dt : K}
    {s s' : Sys K σ} {g : Geo K} {S : Finset Nat} (hff : FeedForward net g.C S)
    (hw : sch.staged = true → StageOK net) (hown : DirectOwn net)
    (hgeo : GeoOK net g (writes net)) (hr : Ready net g S s.ph)
    (h : processTimeStep net laws sch dt s = .ok s') :
    Ready net g S s'.ph ∧ s.ph.logs ≤ s'.ph.logs ∧
    stored g s'.ph = stored g s.ph
        + entering net g (writes net) s'.ph.amt - leaving net g (writes net) s'.ph.amt
        + (exchanged g s'.ph - exchanged g s.ph) + (snapped g s'.ph - snapped g s.ph) ∧
    (s'.ph.logs = s.ph.logs → ∀ c, |s'.ph.snap c - s.ph.snap c| ≤ prec) := by
  unfold processTimeStep at h
  cases h1 : directPhase net laws dt s with
  | error e => rw [h1] at h; simp [bind, Except.bind] at h
  | ok s1 =>
  rw [h1] at h
  simp only [bind, Except.bind] at h
  have hd1 := directPhase_does h1
  -- soundness of the whole schedule
  have hall := Ordered.sound net.blocks (net.listsDirect ++ net.solver.map Brick.schedSolve)
    ∅ (forall2_append (follows_blocksDirect net) (follows_blocksSolve net)) hff.ordered
    (freshOK_empty _ _ _)
  rw [List.flatten_append, listsDirect_flatten, flatten_map', Sound.append] at hall
  obtain ⟨⟨hs1, hs2'⟩, hrest⟩ := hall
  set F1 := runF net g.C ∅ net.schedDirect with hF1
  have hs2 : Sound net g.C S F1 net.schedSolve := by
    rw [Net.schedSolve, Sound.append]; exact ⟨hs2', fins_sound _ _ _ _ _⟩
  have hempty : runF net g.C F1 net.schedSolve = ∅ := by
    have happ : ∀ (F : Finset Nat) (a b : List Sh), runF net g.C F (a ++ b) = runF net g.C (runF net g.C F a) b := by
      intro F a b; simp [runF, List.foldl_append]
    rw [Net.schedSolve, happ, fins_runF]
    rw [happ] at hrest
    rw [Finset.eq_empty_iff_forall_notMem]
    intro f hf
    have h1 := hrest f hf
    have h2 := h1.1
    simp only [tracked, into, Bool.and_eq_true] at h2
    cases ht : (net.flux f).target with
    | outside => rw [ht] at h2; simp at h2
    | cont c =>
      rw [ht] at h2
      have hc : c ∈ g.C := by simpa using h2.2
      exact h1.2 c (hff.covered c hc) ht
  have hwn := hff.ordered.writesNodup
  rw [Net.blocks, List.flatMap_append, blocks_writes_direct, blocks_writes_solve, List.nodup_append] at hwn
  have hknown : ∀ f ∈ net.solverOuts, f ∉ S := by
    intro f hf
    rw [solverOuts_eq] at hf
    exact (hff.ordered.known f (by rw [Net.blocks, List.flatMap_append]; exact List.mem_append.2 (Or.inr hf))).2.2
  have hknownD : ∀ f ∈ (writesDirect net).map Prod.snd, f ∉ S := by
    intro f hf
    rw [← blocks_writes_direct] at hf
    exact (hff.ordered.known f (by rw [Net.blocks, List.flatMap_append]; exact List.mem_append.2 (Or.inl hf))).2.2
  have hgeo1 : GeoOK net g (writesDirect net) :=
    ⟨hgeo.target, fun a f hm => hgeo.conserve a f (List.mem_append.2 (Or.inl hm))⟩
  have hgeo2 : GeoOK net g (writesSolve net) :=
    ⟨hgeo.target, fun a f hm => hgeo.conserve a f (List.mem_append.2 (Or.inr hm))⟩
  have hfresh1 : FreshOK net g.C S F1 := FreshOK.run _ _ (freshOK_empty _ _ _) hs1
  -- fluxes in transit after the direct phase are not solved fluxes
  have hF1disj : ∀ f ∈ net.solverOuts, f ∉ F1 := by
    intro f hf hf1
    have horig : ∀ (l : List Sh) (F : Finset Nat), f ∈ runF net g.C F l → f ∈ F ∨ f ∈ (writesOf l).map Prod.snd := by
      intro l
      induction l with
      | nil => intro F h; exact Or.inl h
      | cons sh l ihl =>
        intro F hh
        have h' : f ∈ runF net g.C (nextF net g.C F sh) l := hh
        rcases ihl _ h' with h2 | h2
        · cases sh with
          | ext f0 | out src f0 =>
            simp only [nextF] at h2; split at h2
            · rcases Finset.mem_insert.1 h2 with h3 | h3
              · right; simp [writesOf, Sh.write?, h3]
              · exact Or.inl h3
            · exact Or.inl h2
          | read c st => exact Or.inl (Finset.mem_filter.1 h2).1
          | inj c => exact Or.inl h2
          | fin c => exact Or.inl h2
        · right
          simp only [writesOf, List.filterMap_cons] at h2 ⊢
          cases sh.write? with
          | none => exact h2
          | some q => simp only [List.map_cons, List.mem_cons]; exact Or.inr h2
    rcases horig _ _ hf1 with h2 | h2
    · exact absurd h2 (Finset.notMem_empty f)
    · rw [writes_schedDirect] at h2
      rw [solverOuts_eq, blocks_writes_solve] at hf
      exact hwn.2.2 f h2 f hf rfl
  have hfin1 : Finite' g s1.ph := fun c hc => by rw [does_infinite hd1]; exact hr.finite c hc
  have hS1 : ∀ f ∈ S, s1.ph.amt f = 0 := fun f hf => by
    rw [does_amt hd1 f (by rw [writes_schedDirect]; exact fun hm => hknownD f hm hf)]
    exact hr.stuck f hf
  have hset1 : Settled net s1.ph := fun c hc => by
    rw [direct_keeps_dyn hff hown hd1 c hc]; exact hr.settled c hc
  have hb1 := does_balance hd1 hff.nodup hr.finite (freshOK_empty _ _ _) hs1 hr.stuck
    (by rwa [writes_schedDirect]) (by rw [writes_schedDirect]; exact hwn.1)
  rw [writes_schedDirect, ← hF1] at hb1
  have hst : sch.staged = true → StageOK net ∧ Settled net s1.ph := fun hs => ⟨hw hs, hset1⟩
  have hb2 := solver_St hst hff.nodup hs2 hwn.2.1 (fun f hf => ⟨hF1disj f hf, hknown f hf⟩) hfresh1
    hgeo2 hfin1 hS1 h
  rw [hempty] at hb2
  obtain ⟨ph, hbf, hd2⟩ := solve_does hst h
  -- direct amounts are unchanged by the solver
  have hkeep : ∀ q ∈ writesDirect net, s'.ph.amt q.2 = s1.ph.amt q.2 := by
    intro q hq
    have hq' : q.2 ∉ (writesSolve net).map Prod.snd := fun hm =>
      hwn.2.2 q.2 (List.mem_map_of_mem hq) q.2 hm rfl
    rw [does_amt hd2 q.2 (by rwa [writes_schedSolve]), hbf.amt q.2 (by
      rw [solverOuts_eq, blocks_writes_solve]; exact hq')]
  have hent : entering net g (writesDirect net) s1.ph.amt = entering net g (writesDirect net) s'.ph.amt := by
    unfold entering
    congr 1
    apply List.map_congr_left
    intro q hq; simp only [hkeep q hq]
  have hlea : leaving net g (writesDirect net) s1.ph.amt = leaving net g (writesDirect net) s'.ph.amt := by
    unfold leaving
    congr 1
    apply List.map_congr_left
    intro q hq; simp only [hkeep q hq]
  rw [hent, hlea] at hb1
  have hlogs1 := does_logs hd1
  have hlogs2 := does_logs hd2
  rw [hbf.logs] at hlogs2
  refine ⟨⟨?_, ?_, ?_⟩, hlogs1.trans hlogs2, ?_, ?_⟩
  · intro c hc
    rw [does_infinite hd2, hbf.infinite]; exact hfin1 c hc
  · intro f hf
    have hns : f ∉ net.solverOuts := fun ho => hknown f ho hf
    rw [does_amt hd2 f (by rw [writes_schedSolve, ← blocks_writes_solve, ← solverOuts_eq]; exact hns),
      hbf.amt f hns]
    exact hS1 f hf
  · exact settled_after hd2 (fun c hc _ => by rw [hbf.dyn]; exact hset1 c hc)
  · rw [St_eq, St_eq] at hb1 hb2
    simp only [transit, Finset.sum_empty, add_zero] at hb1 hb2
    simp only [Spec.writes, entering, leaving, List.map_append, List.sum_append] at hb1 hb2 ⊢
    linear_combination hb1 + hb2
  · intro hl c
    have e1 : s1.ph.logs = s.ph.logs := by omega
    have e2 : s'.ph.logs = ph.logs := by rw [hbf.logs]; omega
    have b1 := does_snap hd1 e1 c
    have b2 := does_snap hd2 e2 c
    rw [count_fin, fins_schedDirect] at b1
    rw [count_fin, fins_schedSolve, hbf.snap] at b2
    have hcn := hff.ordered.contsNodup
    rw [Net.blocks, List.flatMap_append, ← solverConts_eq] at hcn
    have hcount := List.nodup_iff_count_le_one.1 hcn c
    rw [List.count_append] at hcount
    have hcK : ((net.blocksDirect.flatMap (·.reads)).count c : K) + (net.solverConts.count c : K) ≤ 1 := by
      exact_mod_cast hcount
    have htri := abs_sub_le (s'.ph.snap c) (s1.ph.snap c) (s.ph.snap c)
    have hp : (0 : K) ≤ prec := prec_nonneg
    have := mul_le_mul_of_nonneg_right hcK hp
    rw [add_mul, one_mul] at this
    linarith

/-- **C09 (one step).** Water balance of a time step, direct phase and solver together. -/
theorem c09_step_balance_partial {net : Net K} {laws : Laws K σ} {sch : Scheme K σ} {dt : K}
    {s s' : Sys K σ} {g : Geo K} {S : Finset Nat} (hff : FeedForward net g.C S)
    (hw : sch.staged = true → StageOK net) (hown : DirectOwn net)
    (hgeo : GeoOK net g (writes net)) (hA : ∀ c ∈ g.C, 0 ≤ g.A c) (hr : Ready net g S s.ph)
    (h : processTimeStep net laws sch dt s = .ok s') (hlog : s'.ph.logs = s.ph.logs) :
    |stored g s'.ph - (stored g s.ph
        + entering net g (writes net) s'.ph.amt - leaving net g (writes net) s'.ph.amt
        + (exchanged g s'.ph - exchanged g s.ph))| ≤ prec * area g := by
  obtain ⟨-, -, h1, h2⟩ := step_balance hff hw hown hgeo hr h
  rw [h1, add_sub_cancel_left]
  have := snapped_bound (g := g) (ph := s.ph) (ph' := s'.ph) hA 1 (fun c => by
    rw [one_mul]; exact h2 hlog c)
  rwa [one_mul] at this

/-- **C09.** Water balance of a whole simulation of `n` steps: the change of stored volume equals the
cumulated recorded inflows minus the cumulated recorded outflows (outlet, atmosphere) plus the
cumulated groundwater exchange, with an error of at most `n * 1e-8` per unit of area, as long as no
negative content is reported.  `ticks` is whatever happens to forcing and parameters between steps. -/
theorem c09_run_balance_partial {net : Net K} {laws : Laws K σ} {sch : Scheme K σ} {dt : K} {tick : σ → σ}
    {g : Geo K} {S : Finset Nat} (hff : FeedForward net g.C S)
    (hw : sch.staged = true → StageOK net) (hown : DirectOwn net)
    (hgeo : GeoOK net g (writes net)) (hA : ∀ c ∈ g.C, 0 ≤ g.A c) :
    ∀ (n : Nat) (s s' : Sys K σ) (recs : List (Phys K)), Ready net g S s.ph →
    runSteps net laws sch dt tick n s = .ok (recs, s') → s'.ph.logs = s.ph.logs →
    recs.length = n ∧
    |stored g s'.ph - (stored g s.ph
        + (recs.map (fun r => entering net g (writes net) r.amt)).sum
        - (recs.map (fun r => leaving net g (writes net) r.amt)).sum
        + (exchanged g s'.ph - exchanged g s.ph))| ≤ n * prec * area g := by
  have mono : ∀ (n : Nat) (s s' : Sys K σ) (recs : List (Phys K)), Ready net g S s.ph →
      runSteps net laws sch dt tick n s = .ok (recs, s') → s.ph.logs ≤ s'.ph.logs := by
    intro n
    induction n with
    | zero =>
      intro s s' recs _ h
      simp only [runSteps, Except.ok.injEq, Prod.mk.injEq] at h
      rw [h.2]
    | succ n ih =>
      intro s s' recs hr h
      unfold runSteps at h
      cases h1 : processTimeStep net laws sch dt s with
      | error e => rw [h1] at h; simp [bind, Except.bind] at h
      | ok s1 =>
        rw [h1] at h
        simp only [bind, Except.bind] at h
        obtain ⟨hr1, hl1, -, -⟩ := step_balance hff hw hown hgeo hr h1
        cases h2 : runSteps net laws sch dt tick n { s1 with hid := tick s1.hid } with
        | error e => rw [h2] at h; simp at h
        | ok q =>
          rw [h2] at h
          simp only [pure, Except.pure, Except.ok.injEq, Prod.mk.injEq] at h
          have := ih { s1 with hid := tick s1.hid } q.2 q.1 hr1 h2
          rw [← h.2]
          exact hl1.trans this
  intro n
  induction n with
  | zero =>
    intro s s' recs _ h _
    simp only [runSteps, Except.ok.injEq, Prod.mk.injEq] at h
    obtain ⟨rfl, rfl⟩ := h
    simp
  | succ n ih =>
    intro s s' recs hr h hlog
    unfold runSteps at h
    cases h1 : processTimeStep net laws sch dt s with
    | error e => rw [h1] at h; simp [bind, Except.bind] at h
    | ok s1 =>
      rw [h1] at h
      simp only [bind, Except.bind] at h
      obtain ⟨hr1, hl1, hb, hsn⟩ := step_balance hff hw hown hgeo hr h1
      cases h2 : runSteps net laws sch dt tick n { s1 with hid := tick s1.hid } with
      | error e => rw [h2] at h; simp at h
      | ok q =>
        rw [h2] at h
        simp only [pure, Except.pure, Except.ok.injEq, Prod.mk.injEq] at h
        obtain ⟨rfl, rfl⟩ := h
        have hm := mono n { s1 with hid := tick s1.hid } q.2 q.1 hr1 h2
        simp only at hm
        have hI := ih { s1 with hid := tick s1.hid } q.2 q.1 hr1 h2 (by simp only; omega)
        simp only at hI
        refine ⟨by simp [hI.1], ?_⟩
        have hS1 := snapped_bound (g := g) (ph := s.ph) (ph' := s1.ph) hA 1 (fun c => by
          rw [one_mul]; exact hsn (by omega) c)
        rw [one_mul] at hS1
        rw [List.map_cons, List.map_cons, List.sum_cons, List.sum_cons]
        have e : stored g q.2.ph - (stored g s.ph
              + (entering net g (writes net) s1.ph.amt + (q.1.map (fun r => entering net g (writes net) r.amt)).sum)
              - (leaving net g (writes net) s1.ph.amt + (q.1.map (fun r => leaving net g (writes net) r.amt)).sum)
              + (exchanged g q.2.ph - exchanged g s.ph)) =
            (stored g q.2.ph - (stored g s1.ph
              + (q.1.map (fun r => entering net g (writes net) r.amt)).sum
              - (q.1.map (fun r => leaving net g (writes net) r.amt)).sum
              + (exchanged g q.2.ph - exchanged g s1.ph)))
            + (snapped g s1.ph - snapped g s.ph) := by
          rw [hb]; ring
        rw [e]
        refine (abs_add_le _ _).trans ?_
        push_cast
        have := add_le_add hI.2 hS1
        refine this.trans (le_of_eq ?_)
        ring

/-- The outlet of a basin of area `A`: the registered outlet fluxes are distinct, they are fluxes leaving a storage of the
system, and their amounts are expressed over the area of the basin. -/
structure Spec.OutletOK (net : Net K) (g : Geo K) (A : K) : Prop where
  nodup : net.outlet.Nodup
  leaves : ∀ f ∈ net.outlet, ∃ src ∈ g.C, (some src, f) ∈ writes net
  outside : ∀ f ∈ net.outlet, (net.flux f).target = .outside
  flux : ∀ f ∈ net.outlet, (net.flux f).inst = false
  area : ∀ f ∈ net.outlet, g.tA f = A

/-- Volume leaving elsewhere than through the outlet (evapotranspiration, sublimation). -/
def Spec.lost (net : Net K) (g : Geo K) (amt : Nat → K) : K :=
  leaving net g ((writes net).filter fun q => decide (q.2 ∉ net.outlet)) amt

theorem leaving_outlet {net : Net K} {g : Geo K} {A : K} (ho : OutletOK net g A)
    (hnd : ((writes net).map Prod.snd).Nodup) (ph : Phys K) :
    leaving net g (writes net) ph.amt = A * outletDischarge net ph + lost net g ph.amt := by
  have split : ∀ w : List (Option Nat × Nat), leaving net g w ph.amt =
      leaving net g (w.filter fun q => decide (q.2 ∈ net.outlet)) ph.amt
      + leaving net g (w.filter fun q => decide (q.2 ∉ net.outlet)) ph.amt := by
    intro w
    unfold leaving
    induction w with
    | nil => simp
    | cons q w ih =>
      by_cases hq : q.2 ∈ net.outlet
      · simp only [List.map_cons, List.sum_cons, List.filter_cons, hq, decide_true, if_true, not_true_eq_false,
          decide_false, Bool.false_eq_true, if_false]
        rw [ih]; ring
      · simp only [List.map_cons, List.sum_cons, List.filter_cons, hq, decide_true, if_true, not_false_eq_true,
          decide_false, Bool.false_eq_true, if_false]
        rw [ih]; ring
  rw [split, lost]
  congr 1
  set w := (writes net).filter fun q => decide (q.2 ∈ net.outlet) with hw
  have hperm : (w.map Prod.snd).Perm net.outlet := by
    refine (List.perm_ext_iff_of_nodup ?_ ho.nodup).mpr fun f => ?_
    · exact hnd.sublist (List.Sublist.map _ List.filter_sublist)
    · constructor
      · intro hf
        obtain ⟨q, hq, rfl⟩ := List.mem_map.mp hf
        exact of_decide_eq_true (List.mem_filter.mp hq).2
      · intro hf
        obtain ⟨src, -, hm⟩ := ho.leaves f hf
        exact List.mem_map.mpr ⟨_, List.mem_filter.mpr ⟨hm, decide_eq_true hf⟩, rfl⟩
  have hval : ∀ q ∈ w, (if from' g.C q.1 && !into net g.C q.2 then g.tA q.2 * ph.amt q.2 else 0)
      = A * getAmount net ph q.2 := by
    intro q hq
    obtain ⟨hq1, hq2⟩ := List.mem_filter.mp hq
    have hf := of_decide_eq_true hq2
    obtain ⟨src, hs, hm⟩ := ho.leaves q.2 hf
    have hqe : q = (some src, q.2) := List.inj_on_of_nodup_map hnd hq1 hm rfl
    have h1 : from' g.C q.1 = true := by rw [hqe]; exact decide_eq_true hs
    have h2 : into net g.C q.2 = false := by unfold into; rw [ho.outside _ hf]
    rw [h1, h2, ho.area _ hf]
    unfold getAmount
    rw [ho.flux _ hf]
    simp
  unfold leaving outletDischarge
  rw [List.map_congr_left hval, List.sum_map_mul_left]
  congr 1
  rw [← (hperm.map (getAmount net ph)).sum_eq, List.map_map]
  rfl

/-- **C09 (with the reported discharge).** As the model reports it: cumulated inputs, minus the cumulated outlet discharge
times the basin area, minus what was lost elsewhere (evapotranspiration), equal the change of storage up to the snapping. -/
theorem c09_discharge_balance_partial {net : Net K} {laws : Laws K σ} {sch : Scheme K σ} {dt : K} {tick : σ → σ}
    {g : Geo K} {S : Finset Nat} {A : K} (hff : FeedForward net g.C S)
    (hw : sch.staged = true → StageOK net) (hown : DirectOwn net)
    (hgeo : GeoOK net g (writes net)) (hA : ∀ c ∈ g.C, 0 ≤ g.A c) (ho : OutletOK net g A)
    (n : Nat) (s s' : Sys K σ) (recs : List (Phys K)) (hr : Ready net g S s.ph)
    (h : runSteps net laws sch dt tick n s = .ok (recs, s')) (hlog : s'.ph.logs = s.ph.logs) :
    |stored g s'.ph - stored g s.ph
        - ((recs.map (fun r => entering net g (writes net) r.amt)).sum
          - A * (recs.map (outletDischarge net)).sum
          - (recs.map (fun r => lost net g r.amt)).sum
          + (exchanged g s'.ph - exchanged g s.ph))| ≤ n * prec * area g := by
  have := (c09_run_balance_partial hff hw hown hgeo hA n s s' recs hr h hlog).2
  have hnd : ((writes net).map Prod.snd).Nodup := by
    rw [writes, List.map_append, ← blocks_writes_direct, ← blocks_writes_solve, ← List.flatMap_append]
    exact hff.ordered.writesNodup
  have he : (recs.map (fun r => leaving net g (writes net) r.amt)).sum =
      A * (recs.map (outletDischarge net)).sum + (recs.map (fun r => lost net g r.amt)).sum := by
    rw [← List.sum_map_mul_left, ← List.sum_map_add]
    exact congrArg List.sum (List.map_congr_left fun r _ => leaving_outlet ho hnd r)
  rw [he] at this
  refine le_trans (le_of_eq ?_) this
  congr 1
  ring

end HB
