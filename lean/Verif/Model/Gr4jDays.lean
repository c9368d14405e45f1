import Verif.Model.Gr4jUnit

/-!
# A run of GR4J units

The whole direct phase and the run of `Model/Gr4jUnit.lean` units, computed day by day.
-/

set_option linter.unusedSectionVars false

namespace HB

noncomputable section

variable {R : Type}

/-- State of a unit between days: level of the production store, water in the container of the routing, state of the routing. -/
structure GrSt (R : Type) where
  S : ℝ
  V : ℝ
  r : R

/-- Water reaching the unit hydrographs on a day with precipitation `P` and potential evapotranspiration `E`. -/
def dayPR (X1 P E : ℝ) (a : GrSt R) : ℝ := grPR X1 a.S (grPn P E) (grEn P E)

/-- Discharge of the unit. -/
def dayQ (rt : Router R) (X1 P E : ℝ) (a : GrSt R) : ℝ := grQ rt a.V a.r (dayPR X1 P E a)

/-- A day. -/
def dayNext (rt : Router R) (X1 P E : ℝ) (a : GrSt R) : GrSt R :=
  ⟨grS X1 a.S (grPn P E) (grEn P E), grV rt a.V a.r (dayPR X1 P E a), rt.next a.r (dayPR X1 P E a)⟩

/-- The state before day `t`. -/
def dayRun (rt : Router R) (X1 : ℝ) (P E : ℕ → ℝ) (a : GrSt R) : ℕ → GrSt R
  | 0 => a
  | t + 1 => dayNext rt X1 (P t) (E t) (dayRun rt X1 P E a t)

/-- The unit `u`, with these numbers, is in that state. -/
structure InState (neg : Bool) (L : GrIds) (u : ℕ) (X1 : ℝ) (a : GrSt R) (s : Sys ℝ (GrHid R)) : Prop where
  ground : ∃ i, s.ph.cont L.cg = still 0 i none
  store : ∃ i, s.ph.cont L.cs = still a.S i (some X1)
  uh : ∃ i, s.ph.cont L.cr = ⟨a.V, 0, 0, i, none, false, neg⟩
  pet : s.hid.pet u = none
  st : s.hid.st u = a.r

/-- What a day asks of the weather and of the state. -/
structure DayOK (rt : Router R) (X1 P E : ℝ) (a : GrSt R) : Prop where
  cap : 1 ≤ X1
  store : 0 ≤ a.S ∧ a.S ≤ X1
  held : rt.neg = false → 0 ≤ a.V
  rain : 0 ≤ P
  demand : 0 ≤ E
  small : X1 + P ≤ 10000
  want : 0 ≤ rt.want a.r (dayPR X1 P E a) ∧ rt.want a.r (dayPR X1 P E a) ≤ 10000

theorem grPn_bounds {P E : ℝ} (hP : 0 ≤ P) (hE : 0 ≤ E) : 0 ≤ grPn P E ∧ grPn P E ≤ P := by
  obtain ⟨h1, h2⟩ := grEi_bounds hP hE
  refine ⟨cut_nonneg _, ?_⟩
  have := cut_le (x := P - grEi P E) (by linarith)
  rw [grPn]
  linarith

theorem dayNext_ok {rt : Router R} {X1 P E : ℝ} {a : GrSt R} (h : DayOK rt X1 P E a) :
    0 ≤ (dayNext rt X1 P E a).S ∧ (dayNext rt X1 P E a).S ≤ X1 ∧ (rt.neg = false → 0 ≤ (dayNext rt X1 P E a).V) := by
  obtain ⟨h1, h2⟩ := grS_bounds (En := grEn P E) h.cap h.store.1 h.store.2 (grPn_bounds h.rain h.demand).1
  refine ⟨h1, h2, fun hneg => ?_⟩
  change 0 ≤ grV rt a.V a.r _
  rw [grV, hneg, if_neg Bool.false_ne_true]
  exact cut_nonneg _

section
variable {net : Net ℝ} {laws : Laws ℝ (GrHid R)} {rt : Router R} {L : GrIds} {u : ℕ} {P E : ℕ → ℝ}

/-- The two splitters bring the precipitation to the ground. -/
theorem splitters_step (hl : GrLay net L) (hw : GrWorks net laws rt L u P E) (s : Sys ℝ (GrHid R)) :
    ∃ s', L.unit.splitters.foldl (runSplitter net laws) s = s' ∧ s'.ph.cont = s.ph.cont ∧ s'.ph.amt L.fg = P s.hid.time ∧
      (∀ f, f ≠ L.fr → f ≠ L.fg → s'.ph.amt f = s.ph.amt f) ∧ s'.hid = s.hid := by
  refine ⟨_, rfl, ?_⟩
  have hu : ∀ (ph : Phys ℝ) (f : ℕ) (x : ℝ), (net.flux f).inst = false → (net.flux f).frac = 1 →
      updateFlux net ph f x = { ph with amt := upd ph.amt f x } := by
    intro ph f x h1 h2
    unfold updateFlux FluxSpec.scale
    simp [h1, h2]
  simp only [GrIds.unit, List.foldl_cons, List.foldl_nil, runSplitter, hu _ _ _ hl.fr.1 hl.fr.2, hu _ _ _ hl.fg.1 hl.fg.2.1,
    (hw.s0 _ _).2, (hw.s1 _ _).2, (hw.s0 _ _).1, (hw.s1 _ _).1]
  refine ⟨trivial, ?_, ?_, trivial⟩
  · rw [upd_same', upd_same']
  · intro f h1 h2
    rw [upd_ne' _ _ h2, upd_ne' _ _ h1]

/-- A day of a unit. -/
theorem unit_step (hl : GrLay net L) (hw : GrWorks net laws rt L u P E) {X1 : ℝ} {a : GrSt R} (s : Sys ℝ (GrHid R)) (hs : InState rt.neg L u X1 a s)
    (ho : DayOK rt X1 (P s.hid.time) (E s.hid.time) a) :
    ∃ s', directUnit net laws 1 s L.unit = .ok s' ∧
      (∃ i, s'.ph.cont L.cg = still 0 i none) ∧
      (∃ i, s'.ph.cont L.cs = still (dayNext rt X1 (P s.hid.time) (E s.hid.time) a).S i (some X1)) ∧
      (∃ i, s'.ph.cont L.cr = ⟨(dayNext rt X1 (P s.hid.time) (E s.hid.time) a).V, 0, 0, i, none, false, rt.neg⟩) ∧
      (∀ c, c ∉ L.conts → s'.ph.cont c = s.ph.cont c) ∧
      s'.ph.amt L.fq = (net.flux L.fq).scale (dayQ rt X1 (P s.hid.time) (E s.hid.time) a) ∧
      (∀ f, f ∉ L.fluxes → s'.ph.amt f = s.ph.amt f) ∧
      s'.hid.time = s.hid.time ∧ s'.hid.st = upd s.hid.st u (dayNext rt X1 (P s.hid.time) (E s.hid.time) a).r ∧
      (∀ v, v ≠ u → s'.hid.pet v = s.hid.pet v) := by
  have hn := hl.nodup
  simp only [GrIds.fluxes, List.nodup_cons, List.mem_cons, List.not_mem_nil, or_false, not_or] at hn
  have hcn := hl.cnodup
  simp only [GrIds.conts, List.nodup_cons, List.mem_cons, List.not_mem_nil, or_false, not_or] at hcn
  obtain ⟨hg1, -, -⟩ := hcn
  have hcs : L.cs ≠ L.cr := by
    have := hl.cnodup
    simp only [GrIds.conts, List.nodup_cons, List.mem_cons, List.not_mem_nil, or_false, not_or] at this
    exact this.2.1
  obtain ⟨ig, hg⟩ := hs.ground
  obtain ⟨is, hst⟩ := hs.store
  obtain ⟨ir, huh⟩ := hs.uh
  set p := P s.hid.time with hp
  set e := E s.hid.time with he
  obtain ⟨s0, h0, c0, a0, f0, i0⟩ := splitters_step hl hw s
  have hd : s0.hid.demand E u = e := by rw [i0, GrHid.demand, hs.pet]; rfl
  obtain ⟨s1, e1, g1, g2, g3, g4, g5, g6, g7, g8, g9⟩ := ground_step hl hw s0 (p := p) (e := e) (ig := ig) (by rw [c0]; exact hg) a0 hd ho.rain
    (by linarith [ho.cap, ho.small]) ho.demand
  obtain ⟨n0, n1⟩ := grPn_bounds ho.rain ho.demand
  obtain ⟨s2, e2, k1, k2, k3, k4, k5, k6⟩ := store_step hl hw s1 (X1 := X1) (S := a.S) (pn := grPn p e) (en := grEn p e) (is := is)
    (by rw [g2, c0, hst]) g4 g6 ho.cap ho.store.1 ho.store.2 n0 (by linarith [ho.small])
  have hr2 : s2.hid.st u = a.r := by rw [k6, g8, i0]; exact hs.st
  have hpr := grPR_bounds (En := grEn p e) ho.cap ho.store.1 ho.store.2 n0
  obtain ⟨s3, e3, q1, q2, q3, q4, q5⟩ := uh_step hl hw s2 (V := a.V) (pr := grPR X1 a.S (grPn p e) (grEn p e)) (ir := ir)
    (by rw [k2 _ (Ne.symm hcs), g3 _ (Ne.symm hg1.2) (Ne.symm hcs), c0]; exact huh) k3 k5 ho.held hpr.1
    (by rw [hr2]; exact ho.want.1) (by rw [hr2]; exact ho.want.2)
  rw [hr2] at q1 q3 q5
  have hstep : directUnit net laws 1 s L.unit = .ok s3 := by
    unfold directUnit
    rw [h0]
    have : (L.unit.direct.filter (!·.null)) = [L.ground, L.store, L.uh] := rfl
    rw [this]
    simp only [List.foldlM_cons, List.foldlM_nil, bind, Except.bind, pure, Except.pure, e1, e2, e3]
  refine ⟨s3, hstep, ⟨ig, ?_⟩, ⟨is, ?_⟩, ⟨ir, q1⟩, ?_, ?_, ?_, ?_, ?_, ?_⟩
  · rw [q2 _ hg1.2, k2 _ hg1.1, g1]
  · rw [q2 _ hcs]; exact k1
  · intro c hc
    simp only [GrIds.conts, List.mem_cons, List.not_mem_nil, or_false, not_or] at hc
    rw [q2 _ hc.2.2, k2 _ hc.2.1, g3 _ hc.1 hc.2.1, c0]
  · exact q3
  · intro f hf
    simp only [GrIds.fluxes, List.mem_cons, List.not_mem_nil, or_false, not_or] at hf
    obtain ⟨a1, a2, a3, a4, a5, a6, a7⟩ := hf
    rw [q4 _ a7, k4 _ a5 a6, g5 _ a3 a4, f0 _ a1 a2]
  · rw [q5, k6]
    change s1.hid.time = _
    rw [g7, i0]
  · rw [q5, k6]
    change upd s1.hid.st u _ = _
    rw [g8, i0]
    rfl
  · intro v hv
    rw [q5, k6]
    change s1.hid.pet v = _
    rw [g9 v hv, i0]

end

/-! ## All units -/

section
variable {net : Net ℝ} {laws : Laws ℝ (GrHid R)} {rt : Router R} {N : ℕ} {L : ℕ → GrIds} {P E : ℕ → ℕ → ℝ} {X1 : ℝ}

/-- A model made of such units: `N` units, nothing solved, the outlet collects the discharges. -/
structure GrNet (net : Net ℝ) (laws : Laws ℝ (GrHid R)) (rt : Router R) (N : ℕ) (L : ℕ → GrIds) (P E : ℕ → ℕ → ℝ) : Prop where
  units : net.units = (List.range N).map fun u => (L u).unit
  solver : net.solver = []
  lay : ∀ u < N, GrLay net (L u)
  works : ∀ u < N, GrWorks net laws rt (L u) u (P u) (E u)
  fluxes : ∀ u < N, ∀ v < N, u ≠ v → ∀ f ∈ (L u).fluxes, f ∉ (L v).fluxes
  conts : ∀ u < N, ∀ v < N, u ≠ v → ∀ c ∈ (L u).conts, c ∉ (L v).conts
  outlet : net.outlet = (List.range N).map fun u => (L u).fq

/-- The direct phase over the first units. -/
theorem units_step (hn : GrNet net laws rt N L P E) {a : ℕ → GrSt R} (s : Sys ℝ (GrHid R)) (hs : ∀ u < N, InState rt.neg (L u) u X1 (a u) s)
    (ho : ∀ u < N, DayOK rt X1 (P u s.hid.time) (E u s.hid.time) (a u)) : ∀ k ≤ N,
    ∃ s', ((List.range k).map fun u => (L u).unit).foldlM (directUnit net laws 1) s = .ok s' ∧ s'.hid.time = s.hid.time ∧
      (∀ u < k, (∃ i, s'.ph.cont (L u).cg = still 0 i none) ∧
        (∃ i, s'.ph.cont (L u).cs = still (dayNext rt X1 (P u s.hid.time) (E u s.hid.time) (a u)).S i (some X1)) ∧
        (∃ i, s'.ph.cont (L u).cr = ⟨(dayNext rt X1 (P u s.hid.time) (E u s.hid.time) (a u)).V, 0, 0, i, none, false, rt.neg⟩) ∧
        s'.ph.amt (L u).fq = (net.flux (L u).fq).scale (dayQ rt X1 (P u s.hid.time) (E u s.hid.time) (a u)) ∧
        s'.hid.st u = (dayNext rt X1 (P u s.hid.time) (E u s.hid.time) (a u)).r) ∧
      (∀ u, k ≤ u → u < N → InState rt.neg (L u) u X1 (a u) s') := by
  intro k
  induction k with
  | zero =>
    intro _
    exact ⟨s, rfl, rfl, (fun u hu => absurd hu (Nat.not_lt_zero u)), fun u _ hu => hs u hu⟩
  | succ k ih =>
    intro hk
    obtain ⟨s1, e1, t1, d1, r1⟩ := ih (by omega)
    have hkN : k < N := by omega
    obtain ⟨s2, e2, g1, g2, g3, g4, g5, g6, g7, g8, g9⟩ := unit_step (hn.lay k hkN) (hn.works k hkN) s1 (r1 k (le_refl k) hkN)
      (by rw [t1]; exact ho k hkN)
    rw [t1] at g2 g3 g5 g8
    refine ⟨s2, ?_, by rw [g7, t1], ?_, ?_⟩
    · rw [List.range_succ, List.map_append, List.foldlM_append, e1]
      simp only [bind, Except.bind, List.map_cons, List.map_nil, List.foldlM_cons, List.foldlM_nil, pure, Except.pure, e2]
    · intro u hu
      by_cases h : u = k
      · subst h
        exact ⟨g1, g2, g3, g5, by rw [g8, upd_same']⟩
      · obtain ⟨d1, d2, d3, d4, d5⟩ := d1 u (by omega)
        have hc : ∀ c ∈ (L u).conts, s2.ph.cont c = s1.ph.cont c := fun c hc => g4 c (hn.conts u (by omega) k hkN h c hc)
        refine ⟨?_, ?_, ?_, ?_, by rw [g8, upd_ne' _ _ h, d5]⟩
        · rw [hc _ (by simp [GrIds.conts])]; exact d1
        · rw [hc _ (by simp [GrIds.conts])]; exact d2
        · rw [hc _ (by simp [GrIds.conts])]; exact d3
        · rw [g6 _ (hn.fluxes u (by omega) k hkN h _ (by simp [GrIds.fluxes]))]; exact d4
    · intro u h1 h2
      have h : u ≠ k := by omega
      have r := r1 u (by omega) h2
      have hc : ∀ c ∈ (L u).conts, s2.ph.cont c = s1.ph.cont c := fun c hc => g4 c (hn.conts u h2 k hkN h c hc)
      constructor
      · rw [hc _ (by simp [GrIds.conts])]; exact r.ground
      · rw [hc _ (by simp [GrIds.conts])]; exact r.store
      · rw [hc _ (by simp [GrIds.conts])]; exact r.uh
      · rw [g9 u h]; exact r.pet
      · rw [g8, upd_ne' _ _ h]; exact r.st

/-- Between days: the next time step, and the demands are those of the forcing again (HydroUnit.cpp:190-194). -/
def grTick (h : GrHid R) : GrHid R := { h with time := h.time + 1, pet := fun _ => none }

/-- Without solved bricks the solvers leave the containers and fluxes as they are. -/
theorem solve_nothing (hz : net.solver = []) (sch : Scheme ℝ (GrHid R)) (s : Sys ℝ (GrHid R)) :
    ∃ s', solve net laws 1 s sch = .ok s' ∧ s'.ph = s.ph ∧ s'.hid = s.hid := by
  have hso : net.solverOuts = [] := by simp [Net.solverOuts, hz]
  have hsc : net.solverConts = [] := by simp [Net.solverConts, hz]
  have hev : ∀ s : Sys ℝ (GrHid R), evaluate net laws s = (fun _ => 0, s) := by
    intro s
    unfold evaluate
    rw [hz]
    rfl
  have hmd : ∀ (g : ℝ → ℝ) (s : Sys ℝ (GrHid R)), mapDyn net g s = s := by
    intro g s
    unfold mapDyn
    simp [hsc]
  have hap : ∀ (k : ℕ → ℝ) (s : Sys ℝ (GrHid R)), applyRates net 1 k s = s := by
    intro k s
    unfold applyRates
    rw [hz]
    rfl
  have hfi : ∀ (s : Sys ℝ (GrHid R)), finalizeTimeStep net laws s = s := by
    intro s
    unfold finalizeTimeStep
    rw [hz]
    rfl
  have hcr : ∀ (k : ℕ → ℝ) (s : Sys ℝ (GrHid R)), ∃ k' , constrainRates net 1 k s = .ok (k', s) := by
    intro k s
    unfold constrainRates linkRates
    rw [hso]
    have hen : ∀ n, enforce net 1 n s = .ok s := by
      intro n
      induction n with
      | zero => rfl
      | succ n ih =>
        unfold enforce sweep
        rw [hz]
        simp [bind, Except.bind, pure, Except.pure, stable, hso]
    simp only [List.foldl_nil]
    rw [hen]
    exact ⟨_, rfl⟩
  cases sch with
  | euler =>
    unfold solve solveEuler evaluateConstrained
    rw [hev]
    obtain ⟨k', hk⟩ := hcr (fun _ => 0) s
    simp only [hk, bind, Except.bind, pure, Except.pure, hap, hfi]
    exact ⟨s, rfl, rfl, rfl⟩
  | heun =>
    unfold solve solveHeun evaluateConstrained resetState
    rw [hev]
    obtain ⟨k', hk⟩ := hcr (fun _ => 0) s
    simp only [hk, bind, Except.bind, pure, Except.pure, hap, hfi, hev, hmd]
    obtain ⟨k'', hk⟩ := hcr (fun f => (k' f + 0) / 2) s
    simp only [hk, hap, hfi]
    exact ⟨s, rfl, rfl, rfl⟩
  | rk4 =>
    unfold solve solveRK4 evaluateConstrained resetState halveState
    rw [hev]
    obtain ⟨k', hk⟩ := hcr (fun _ => 0) s
    simp only [hk, bind, Except.bind, pure, Except.pure, hap, hfi, hev, hmd]
    obtain ⟨k'', hk⟩ := hcr (fun f => (k' f + 2 * k' f + 2 * k' f + 0) / 6) s
    simp only [hk, hap, hfi]
    exact ⟨s, rfl, rfl, rfl⟩
  | sequential law =>
    unfold solve solveSequential
    rw [hz]
    simp only [List.foldlM_nil, bind, Except.bind, pure, Except.pure, hfi]
    exact ⟨s, rfl, rfl, rfl⟩

/-- **The run of a model made of such units**: with every solver it goes through, the units follow the daily recursion, and the
discharge at the outlet is the sum of their discharges. -/
theorem days_run (hn : GrNet net laws rt N L P E) (sch : Scheme ℝ (GrHid R)) (b : ℕ → GrSt R) (T : ℕ)
    (ho : ∀ u < N, ∀ t < T, DayOK rt X1 (P u t) (E u t) (dayRun rt X1 (P u) (E u) (b u) t)) : ∀ (n t : ℕ), t + n ≤ T → ∀ s : Sys ℝ (GrHid R),
    s.hid.time = t → (∀ u < N, InState rt.neg (L u) u X1 (dayRun rt X1 (P u) (E u) (b u) t) s) →
    ∃ recs s', runSteps net laws sch 1 grTick n s = .ok (recs, s') ∧ s'.hid.time = t + n ∧
      (∀ u < N, InState rt.neg (L u) u X1 (dayRun rt X1 (P u) (E u) (b u) (t + n)) s') ∧
      recs.map (outletDischarge net) = (List.range n).map fun i =>
        ((List.range N).map fun u => (net.flux (L u).fq).scale (dayQ rt X1 (P u (t + i)) (E u (t + i)) (dayRun rt X1 (P u) (E u) (b u) (t + i)))).sum := by
  intro n
  induction n with
  | zero =>
    intro t _ s ht hs
    exact ⟨[], s, rfl, ht, hs, rfl⟩
  | succ n ih =>
    intro t hT s ht hs
    obtain ⟨s1, e1, t1, d1, -⟩ := units_step hn s hs (by rw [ht]; exact fun u hu => ho u hu t (by omega)) N (le_refl N)
    rw [ht] at d1 t1
    obtain ⟨s2, e2, p2, h2⟩ := solve_nothing (laws := laws) hn.solver sch s1
    have hstep : processTimeStep net laws sch 1 s = .ok s2 := by
      unfold processTimeStep directPhase
      rw [hn.units, e1]
      exact e2
    obtain ⟨recs, s', hr, hti, hin, hq⟩ := ih (t + 1) (by omega) { s2 with hid := grTick s2.hid } (by
      change s2.hid.time + 1 = _
      rw [h2, t1]) (by
      intro u hu
      obtain ⟨d1, d2, d3, -, d5⟩ := d1 u hu
      constructor
      · rw [p2]; exact d1
      · rw [p2]; exact d2
      · rw [p2]; exact d3
      · rfl
      · change s2.hid.st u = _
        rw [h2]
        exact d5)
    have e : ∀ i, t + 1 + i = t + (i + 1) := by intro i; omega
    refine ⟨s2.ph :: recs, s', ?_, by rw [hti, e], ?_, ?_⟩
    · unfold runSteps
      simp only [hstep, bind, Except.bind, hr, pure, Except.pure]
    · intro u hu
      rw [← e]
      exact hin u hu
    · rw [List.range_succ_eq_map, List.map_cons, List.map_cons, List.map_map, hq]
      congr 1
      · unfold outletDischarge
        rw [hn.outlet, List.map_map]
        congr 1
        apply List.map_congr_left
        intro u hu
        rw [List.mem_range] at hu
        rw [Function.comp, getAmount, if_neg (by rw [(hn.lay u hu).fq]; simp), p2, (d1 u hu).2.2.2.1]
        rfl
      · apply List.map_congr_left
        intro i _
        rw [Function.comp, e]

end

end

end HB
