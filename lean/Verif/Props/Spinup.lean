import Verif.Props.Forcing
import Verif.Spec.Reset

/-! # C43: spin-up leaves clock, calendar actions and extents untouched -/

set_option linter.unusedSectionVars false

namespace HB

section
variable {K W A P R : Type} [Field K] [LinearOrder K] [IsStrictOrderedRing K] [FloorRing K]

theorem spinLoop_worlds {c : RunCfg K W A P R} {l0 : List (DSeries K)} : ∀ (n i : ℕ) {s s' : RunSt K W A P R},
    s.series = shiftAll i l0 → s.over = (fun _ _ => none) → spinLoop c n s = .ok s' →
    ∃ ws : ℕ → W, ws 0 = s.world ∧ ws n = s'.world ∧ ∀ j < n, ∃ o evs,
      (c.proc (ws j)).exec (baseRead (shiftAll (i + j) l0)) (fun _ _ => none) = some ((true, ws (j + 1)), o, evs) := by
  intro n
  induction n with
  | zero => intro i s s' _ _ h; cases h; exact ⟨fun _ => s.world, rfl, rfl, by omega⟩
  | succ n ih =>
    intro i s s' hs ho h
    obtain ⟨s1, h1, h2⟩ := Out.then_ok h
    obtain ⟨w, o, evs, he, hb, rfl⟩ := spinStep_ok h1
    obtain ⟨ws, w0, wn, hw⟩ := ih (i + 1) (by simp only; rw [(advAll_true hb).1, hs, shiftAll_shiftAll]) rfl h2
    refine ⟨fun j => if j = 0 then s.world else ws (j - 1), by simp, by simpa using wn, ?_⟩
    intro j hj
    cases j with
    | zero =>
      refine ⟨o, evs, ?_⟩
      rw [ho, hs] at he
      simp only [if_true, add_zero, Nat.reduceAdd, Nat.one_ne_zero, if_false, Nat.sub_self, w0]
      exact he
    | succ j =>
      obtain ⟨o, evs, he⟩ := hw j (by omega)
      refine ⟨o, evs, ?_⟩
      have e : i + 1 + j = i + (j + 1) := by omega
      rw [e] at he
      simpa using he

/-- **C43.** For every model, forcing, action set and number of spin-up steps: a spin-up (after the series were positioned
at the start date) records nothing, leaves the calendar actions and the dated parameters as they were, and its only effect
is that of the first steps of the model: step `i` reads the entry of step `i` of the period and nothing but the step's
physics acts on the world.  Then the clock is back at the start date, the series are positioned as before and the extents
are restored. -/
theorem c43_spinup (c : RunCfg K W A P R) (hspin : 0 < c.spin) (s s1 s2 : RunSt K W A P R) (hd : s.date = c.start)
    (ho : s.over = fun _ _ => none) (h1 : initSeries s = .ok s1) (h2 : spinup c s1 = .ok s2) :
    (s2.date = c.start ∧ s2.acts = s.acts ∧ s2.pars = s.pars ∧ s2.cursor = s.cursor ∧ s2.rowsOut = s.rowsOut ∧
      s2.initial = s.initial ∧ s2.series = s1.series ∧ s2.over = fun _ _ => none) ∧
    ∃ ws : ℕ → W, ws 0 = s.world ∧ s2.world = c.restore (ws c.spin) ∧ ∀ i < c.spin, ∃ o evs,
      (c.proc (ws i)).exec (seriesValue c.start s.series i) (fun _ _ => none) = some ((true, ws (i + 1)), o, evs) := by
  obtain ⟨hs1, hb⟩ := initSeries_ok h1
  rw [hd] at hb
  obtain ⟨hb1, hb2⟩ := initAll_true hb
  have hser : s1.series = atAll c.start s.series := by rw [hs1]; simp only; rw [hd, hb1]
  obtain ⟨e1, e2, -⟩ := spinup_series (l := s.series) (s := s1) (by rw [hs1]; exact hd) hb2 hser (by rw [hs1]; exact ho) h2
  obtain ⟨f1, f2, f3, f4, f5, f6⟩ := spinup_ok h2
  refine ⟨⟨f6 (by rw [hs1]; exact hd), by rw [f1, hs1], by rw [f2, hs1], by rw [f3, hs1], by rw [f4, hs1],
    by rw [f5, hs1], by rw [e1, hser], e2⟩, ?_⟩
  unfold spinup at h2
  rw [if_pos hspin] at h2
  obtain ⟨s3, h3, h4⟩ := Out.then_ok h2
  obtain ⟨ws, w0, wn, hw⟩ := spinLoop_worlds (l0 := atAll c.start s.series) c.spin 0
    (by rw [shiftAll_zero]; exact hser) (by rw [hs1]; exact ho) h3
  unfold rewind at h4
  obtain ⟨rfl, -⟩ := initSeries_ok h4
  refine ⟨ws, by rw [w0, hs1], by simp only; rw [wn], ?_⟩
  intro i hi
  obtain ⟨o, evs, he⟩ := hw i hi
  rw [zero_add, baseRead_seriesValue] at he
  exact ⟨o, evs, he⟩

end

section
variable {K A P R : Type} [Field K] [LinearOrder K] [IsStrictOrderedRing K] [FloorRing K]

theorem BrickMem.setFrac_config (b : BrickMem K) (hb : b.isCover = true) (x : K) : (b.setFrac x).config = b.config := by
  have hk : b.kind = .landCover ∨ b.kind = .glacier := by simpa [BrickMem.isCover] using hb
  unfold BrickMem.config BrickMem.setFrac
  simp only [if_pos hk, BrickCfg.mk.injEq, List.map_map, true_and]
  apply List.map_congr_left
  intro p _
  simp only [Function.comp, ProcMem.config, List.map_map, Prod.mk.injEq, and_true]
  apply List.map_congr_left
  intro f _
  simp only [Function.comp, OutMem.config]
  split <;> simp_all

theorem World.restoreExtents_config (w : World K) : w.restoreExtents.config = w.config := by
  unfold World.config World.restoreExtents
  simp only [Prod.mk.injEq, true_and, and_true, List.map_map]
  apply List.map_congr_left
  intro u _
  simp only [Function.comp, List.map_map]
  apply List.map_congr_left
  intro b _
  simp only [Function.comp]
  split
  · rename_i h; exact BrickMem.setFrac_config b h _
  · rfl

/-- Declared extents: every land cover of every unit has its initial extent. -/
def World.AtInitialExtents (w : World K) : Prop := ∀ u ∈ w.units, ∀ b ∈ u, b.isCover = true → b.frac = b.initFrac

/-- The initial extents of the land covers, unit by unit. -/
def World.initExtents (w : World K) : List (List K) := w.units.map (List.map fun b => b.initFrac)

theorem initExtents_of_config {w w' : World K} (h : w.config = w'.config) : w.initExtents = w'.initExtents := by
  unfold World.config at h
  simp only [Prod.mk.injEq] at h
  have := congrArg (List.map (List.map fun c : BrickCfg K => c.initFrac)) h.2.1
  simpa [World.initExtents, List.map_map, Function.comp_def, BrickMem.config] using this

/-- **C43 (extents).** After a spin-up of any length, for any model whose steps keep the configuration of the components,
every land cover has its initial extent again, the initial extents are those declared before, and configuration is
unchanged. -/
theorem c43_extents (c : RunCfg K (World K) A P R) (hspin : 0 < c.spin)
    (hres : c.restore = World.restoreExtents) (hproc : ∀ w, (c.proc w).Ensures fun r => r.2.config = w.config)
    (s s1 s2 : RunSt K (World K) A P R) (hd : s.date = c.start) (ho : s.over = fun _ _ => none)
    (h1 : initSeries s = .ok s1) (h2 : spinup c s1 = .ok s2) :
    s2.world.AtInitialExtents ∧ s2.world.initExtents = s.world.initExtents ∧ s2.world.config = s.world.config := by
  obtain ⟨-, ws, w0, hw2, hw⟩ := c43_spinup c hspin s s1 s2 hd ho h1 h2
  have hcfg : ∀ i ≤ c.spin, (ws i).config = s.world.config := by
    intro i
    induction i with
    | zero => intro _; rw [w0]
    | succ i ih =>
      intro hi
      obtain ⟨o, evs, he⟩ := hw i (by omega)
      have := exec_ensures (hproc (ws i)) he
      rw [← ih (by omega)]; exact this
  have hc2 : s2.world.config = s.world.config := by
    rw [hw2, hres, World.restoreExtents_config, hcfg _ le_rfl]
  refine ⟨?_, initExtents_of_config hc2, hc2⟩
  rw [hw2, hres]
  intro u hu b hb hcov
  simp only [World.restoreExtents, List.mem_map] at hu
  obtain ⟨u0, _, rfl⟩ := hu
  rw [List.mem_map] at hb
  obtain ⟨b0, _, rfl⟩ := hb
  split
  · rfl
  · rename_i hn
    rw [if_neg hn] at hcov
    exact absurd hcov hn

end

/-! ## Witness -/

/-- One unit with a glacier of initial extent 0.4 and a ground of 0.6. -/
def spinWorld : World ℚ :=
  { basin := []
    units := [[⟨.glacier, ⟨0, 0, 0, 0⟩, ⟨1000, 0, 0, 1000⟩, 2 / 5, 2 / 5, [⟨[⟨0, true, 2 / 5⟩], .stateless⟩]⟩,
      ⟨.landCover, ⟨5, 0, 0, 5⟩, ⟨0, 0, 0, 0⟩, 3 / 5, 3 / 5, []⟩]]
    outlet := [0] }

/-- A step which melts 10 mm of ice and records the outlet as the precipitation; every action shrinks the glacier. -/
def spinCfg : RunCfg ℚ (World ℚ) ℕ ℕ ℚ where
  start := 58851
  stop := 58852
  dt := 1
  rnd := fun x => x
  rows := 2
  spin := 2
  proc := fun w => .read 1 .precipitation fun x => .ret (true,
    { w with
      units := w.units.map (List.map fun b => if b.kind = .glacier then { b with second.content := b.second.content - 10 } else b)
      outlet := w.outlet.map fun _ => x })
  par := fun _ p w => (p + 1, w)
  act := fun _ a w => (a + 1, { w with units := w.units.map (List.map fun b =>
    if b.kind = .glacier then b.setFrac (b.frac / 2) else b) })
  restore := World.restoreExtents
  record := fun w => w.outlet.sum

example : (0 < spinCfg.spin) ∧ spinCfg.restore = World.restoreExtents ∧
    (∀ w, (spinCfg.proc w).Ensures fun r => r.2.config = w.config) := by
  refine ⟨by decide, rfl, ?_⟩
  intro w x
  simp only [Prog.Ensures, World.config, Prod.mk.injEq, true_and, List.map_map, List.length_map, and_true]
  apply List.map_congr_left
  intro u _
  simp only [Function.comp, List.map_map]
  apply List.map_congr_left
  intro b _
  simp only [Function.comp]
  split
  · rename_i h; simp [BrickMem.config, h]
  · rfl

/-- The model's state before the run. -/
def spinSt : RunSt ℚ (World ℚ) ℕ ℕ ℚ where
  date := 58851
  world := spinWorld
  acts := 0
  pars := 0
  series := [⟨.precipitation, [(1, ⟨58849, 58853, 1, .day, [100, 101, 102, 103, 104], 0⟩)]⟩]
  over := fun _ _ => none
  cursor := 0
  initial := none
  rowsOut := []
  reads := []

/-- Final state of a completed run. -/
def Out.done {S : Type} (x : Out S) : Option S :=
  match x with
  | .ok s => some s
  | _ => none

/-- The run of that model after two steps of spin-up: two rows, with the values of their dates; the actions fired only in
the run (twice, for the two increments), and the ice lost the melt of four steps. -/
example : (run spinCfg 10 spinSt).done.map (fun s => s.rowsOut) = some [(0, 58851, 102), (1, 58852, 103)] ∧
    (run spinCfg 10 spinSt).done.map (fun s => (s.acts, s.pars)) = some (2, 2) ∧
    (run spinCfg 10 spinSt).done.map (fun s => s.world.units.map (List.map fun b => (b.frac, b.second.content))) =
      some [[(1 / 10, 960), (3 / 5, 0)]] := by decide +kernel

end HB
