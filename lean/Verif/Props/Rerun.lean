import Verif.Props.Spinup

/-! # C44: re-running after a reset -/

set_option linter.unusedSectionVars false

namespace HB

/-! ## Components -/

section
variable {K : Type} [Field K]

theorem map_of_map {α β γ : Type} {f : α → β} {g : α → γ} : ∀ {l l' : List α}, l.map f = l'.map f →
    (∀ a ∈ l, ∀ b ∈ l', f a = f b → g a = g b) → l.map g = l'.map g := by
  intro l
  induction l with
  | nil => intro l' h _; cases l' <;> simp_all
  | cons a l ih =>
    intro l' h hg
    cases l' with
    | nil => simp at h
    | cons b l' =>
      simp only [List.map_cons, List.cons.injEq] at h ⊢
      exact ⟨hg a (by simp) b (by simp) h.1, ih h.2 fun x hx y hy => hg x (by simp [hx]) y (by simp [hy])⟩

theorem map_zero_eq {l l' : List K} (h : l.length = l'.length) : l.map (fun _ => (0 : K)) = l'.map fun _ => 0 := by
  rw [List.map_const', List.map_const', h]

theorem PState.reset_of_shape {a b : PState K} (h : a.shape = b.shape) : a.reset = b.reset := by
  cases a <;> cases b <;> simp [PState.shape] at h <;> simp only [PState.reset] <;>
    first
      | rfl
      | rw [map_zero_eq h.1, map_zero_eq h.2]
      | rw [map_zero_eq h]

theorem StoreMem.reset_of_initial {a b : StoreMem K} (h : a.initial = b.initial) : a.reset = b.reset := by
  simp [StoreMem.reset, h]

/-- The reset output fluxes of a land cover depend only on its configuration. -/
theorem cover_procs {b b' : BrickMem K} {x : K} (h : b.procs.map ProcMem.config = b'.procs.map ProcMem.config) :
    (b.resetPlain.setFrac x).procs = (b'.resetPlain.setFrac x).procs := by
  unfold BrickMem.setFrac BrickMem.resetPlain
  simp only [List.map_map]
  refine map_of_map h ?_
  intro p _ p' _ hc
  simp only [ProcMem.config, Prod.mk.injEq] at hc
  simp only [Function.comp, ProcMem.reset, List.map_map, ProcMem.mk.injEq]
  refine ⟨map_of_map hc.1 ?_, PState.reset_of_shape hc.2⟩
  intro f _ f' _ hf
  simp only [OutMem.config, Prod.mk.injEq] at hf
  simp only [Function.comp, OutMem.reset]
  obtain ⟨h1, h2⟩ := hf
  by_cases hw : f'.weighted = true
  · have hw' : f.weighted = true := h1.trans hw
    simp [hw, hw']
  · have hw' : ¬ f.weighted = true := by rw [h1]; exact hw
    simp only [hw, hw', if_false] at h2 ⊢
    simp only [Bool.not_eq_true] at hw hw'
    simp at h2
    simp [hw, hw', h2]

theorem plain_procs : ∀ {l l' : List (ProcMem K)}, l.map ProcMem.config = l'.map ProcMem.config →
    (l.map fun p => p.outs.map fun f => f.fracLC) = (l'.map fun p => p.outs.map fun f => f.fracLC) →
    l.map ProcMem.reset = l'.map ProcMem.reset := by
  intro l
  induction l with
  | nil => intro l' h _; cases l' <;> simp_all
  | cons p l ih =>
    intro l' h hw
    cases l' with
    | nil => simp at h
    | cons p' l' =>
      simp only [List.map_cons, List.cons.injEq] at h hw ⊢
      refine ⟨?_, ih h.2 hw.2⟩
      have hc := h.1
      simp only [ProcMem.config, Prod.mk.injEq] at hc
      simp only [ProcMem.reset, ProcMem.mk.injEq]
      refine ⟨?_, PState.reset_of_shape hc.2⟩
      have key : ∀ {m m' : List (OutMem K)}, m.map OutMem.config = m'.map OutMem.config →
          (m.map fun f => f.fracLC) = (m'.map fun f => f.fracLC) → m.map OutMem.reset = m'.map OutMem.reset := by
        intro m
        induction m with
        | nil => intro m' h _; cases m' <;> simp_all
        | cons f m ih =>
          intro m' h hw
          cases m' with
          | nil => simp at h
          | cons f' m' =>
            simp only [List.map_cons, List.cons.injEq] at h hw ⊢
            refine ⟨?_, ih h.2 hw.2⟩
            have := h.1
            simp only [OutMem.config, Prod.mk.injEq] at this
            simp [OutMem.reset, this.1, hw.1]
      exact key hc.1 hw.1

/-- A brick that is not a snowpack comes back from `Reset` in a state that depends only on its configuration. -/
theorem BrickMem.reset_of_config {b b' : BrickMem K} (h : b.config = b'.config) (hk : b.kind ≠ .snowpack) :
    b.reset = b'.reset := by
  unfold BrickMem.config at h
  simp only [BrickCfg.mk.injEq] at h
  obtain ⟨h1, h2, h3, h4, h5, h6, h7, h8⟩ := h
  rw [← h1] at h5 h6 h7
  unfold BrickMem.reset
  rw [← h1]
  cases hkk : b.kind with
  | plain =>
    simp only [hkk] at h5 h6 h7
    simp at h5 h6 h7
    have := plain_procs h8 h7
    simp only [BrickMem.resetPlain, BrickMem.mk.injEq]
    exact ⟨h1, StoreMem.reset_of_initial h2, h6, h5, h4, this⟩
  | landCover =>
    simp only [hkk] at h6
    simp at h6
    have := cover_procs (x := b'.initFrac) h8
    simp only [h4]
    unfold BrickMem.setFrac BrickMem.resetPlain at this ⊢
    simp only [BrickMem.mk.injEq]
    exact ⟨h1, StoreMem.reset_of_initial h2, h6, trivial, h4, this⟩
  | glacier =>
    have := cover_procs (x := b'.initFrac) h8
    simp only [h4]
    unfold BrickMem.setFrac BrickMem.resetPlain at this ⊢
    simp only [BrickMem.mk.injEq]
    exact ⟨h1, StoreMem.reset_of_initial h2, StoreMem.reset_of_initial h3, trivial, h4, this⟩
  | snowpack => exact absurd hkk hk

/-- Snowpacks: the reset state agrees exactly if, besides the configuration, the process states and output fluxes left by
the previous run agree. -/
theorem snowpack_reset_iff {b b' : BrickMem K} (hk : b.kind = .snowpack) (hc : b.config = b'.config) :
    b.reset = b'.reset ↔ b.procs = b'.procs := by
  have h := hc
  unfold BrickMem.config at h
  simp only [BrickCfg.mk.injEq] at h
  obtain ⟨h1, h2, h3, h4, h5, -⟩ := h
  rw [← h1, hk] at h5
  simp at h5
  unfold BrickMem.reset
  rw [← h1, hk]
  simp only [BrickMem.mk.injEq]
  constructor
  · exact fun h => h.2.2.2.2.2
  · intro h
    exact ⟨trivial, StoreMem.reset_of_initial h2, StoreMem.reset_of_initial h3, h5, h4, h⟩

/-- Models without snowpack: `Reset` always leads to the same state. -/
theorem World.reset_of_config {w w' : World K} (h : w.config = w'.config)
    (hn : ∀ b ∈ w.bricks, b.kind ≠ .snowpack) : w.reset = w'.reset := by
  unfold World.config at h
  simp only [Prod.mk.injEq] at h
  unfold World.reset
  simp only [World.mk.injEq]
  refine ⟨map_of_map h.1 ?_, map_of_map h.2.1 ?_, map_zero_eq h.2.2⟩
  · intro b hb b' _ hc
    exact BrickMem.reset_of_config hc (hn b (by simp [World.bricks, hb]))
  · intro u hu u' _ hc
    refine map_of_map hc ?_
    intro b hb b' _ hc
    refine BrickMem.reset_of_config hc (hn b ?_)
    simp only [World.bricks, List.mem_append, List.mem_flatten]
    exact .inr ⟨u, hu, hb⟩

/-- Left over after a reset: the processes of the snowpacks, unit by unit. -/
def World.leftover (w : World K) : List (List (List (ProcMem K))) :=
  (w.basin :: w.units).map (List.map fun b => if b.kind = .snowpack then b.procs else [])

theorem bricks_reset_eq : ∀ {l l' : List (BrickMem K)}, l.map BrickMem.config = l'.map BrickMem.config →
    (l.map fun b => if b.kind = .snowpack then b.procs else []) =
      (l'.map fun b => if b.kind = .snowpack then b.procs else []) → l.map BrickMem.reset = l'.map BrickMem.reset := by
  intro l
  induction l with
  | nil => intro l' h _; cases l' <;> simp_all
  | cons b l ih =>
    intro l' h hp
    cases l' with
    | nil => simp at h
    | cons b' l' =>
      simp only [List.map_cons, List.cons.injEq] at h hp ⊢
      refine ⟨?_, ih h.2 hp.2⟩
      by_cases hk : b.kind = .snowpack
      · have hk' : b'.kind = .snowpack := by
          have := congrArg BrickCfg.kind h.1
          simp only [BrickMem.config] at this
          rw [← this, hk]
        rw [snowpack_reset_iff hk h.1]
        simpa [hk, hk'] using hp.1
      · exact BrickMem.reset_of_config h.1 hk

/-- The state after `Reset` depends only on the configuration and on what the previous run left in the snowpacks'
processes. -/
theorem World.reset_of_config_leftover {w w' : World K} (h : w.config = w'.config) (hp : w.leftover = w'.leftover) :
    w.reset = w'.reset := by
  unfold World.config at h
  unfold World.leftover at hp
  simp only [Prod.mk.injEq, List.map_cons, List.cons.injEq] at h hp
  unfold World.reset
  simp only [World.mk.injEq]
  refine ⟨bricks_reset_eq h.1 hp.1, ?_, map_zero_eq h.2.2⟩
  have key : ∀ {l l' : List (List (BrickMem K))}, l.map (List.map BrickMem.config) = l'.map (List.map BrickMem.config) →
      l.map (List.map fun b => if b.kind = .snowpack then b.procs else []) =
        l'.map (List.map fun b => if b.kind = .snowpack then b.procs else []) →
      l.map (List.map BrickMem.reset) = l'.map (List.map BrickMem.reset) := by
    intro l
    induction l with
    | nil => intro l' h _; cases l' <;> simp_all
    | cons u l ih =>
      intro l' h hp
      cases l' with
      | nil => simp at h
      | cons u' l' =>
        simp only [List.map_cons, List.cons.injEq] at h hp ⊢
        exact ⟨bricks_reset_eq h.1 hp.1, ih h.2 hp.2⟩
  exact key h.2.1 hp.2

end

/-! ## The run only depends on its starting state -/

section
variable {K W A P R : Type} [Field K] [LinearOrder K] [IsStrictOrderedRing K] [FloorRing K]

/-- The same state with logs `r`, `e` prepended. -/
def withLog (r : List (ℕ × K × R)) (e : List (List (FEv K))) (ini : Option R) (s : RunSt K W A P R) : RunSt K W A P R :=
  { s with rowsOut := r ++ s.rowsOut, reads := e ++ s.reads, initial := s.initial.or ini }

def Out.map {S : Type} (f : S → S) : Out S → Out S
  | .ok s => .ok (f s)
  | .fail w s => .fail w (f s)
  | .ubRead => .ubRead
  | .ubRow => .ubRow
  | .fuel => .fuel

theorem Out.then_map {S : Type} (f : S → S) (x : Out S) (g : S → Out S) (h : ∀ s, g (f s) = (g s).map f) :
    (x.map f).then g = (x.then g).map f := by
  cases x <;> simp [Out.map, Out.then, Out.bind, h]

variable (r : List (ℕ × K × R)) (e : List (List (FEv K))) (ini : Option R)

theorem procStep_withLog (c : RunCfg K W A P R) (s : RunSt K W A P R) :
    procStep c (withLog r e ini s) = (procStep c s).map (withLog r e ini) := by
  unfold procStep withLog
  simp only
  cases Prog.exec (baseRead s.series) (c.proc s.world) s.over with
  | none => rfl
  | some q => simp only; split <;> simp [Out.map]

theorem recordRow_withLog (c : RunCfg K W A P R) (s : RunSt K W A P R) :
    recordRow c (withLog r e ini s) = (recordRow c s).map (withLog r e ini) := by
  unfold recordRow withLog
  simp only
  split <;> simp [Out.map]

theorem updateForcing_withLog (s : RunSt K W A P R) :
    updateForcing (withLog r e ini s) = (updateForcing s).map (withLog r e ini) := by
  unfold updateForcing withLog
  simp only
  split <;> simp [Out.map]

theorem initSeries_withLog (s : RunSt K W A P R) :
    initSeries (withLog r e ini s) = (initSeries s).map (withLog r e ini) := by
  unfold initSeries withLog
  simp only
  split <;> simp [Out.map]

theorem mainStep_withLog (c : RunCfg K W A P R) (s : RunSt K W A P R) :
    mainStep c (withLog r e ini s) = (mainStep c s).map (withLog r e ini) := by
  unfold mainStep
  rw [procStep_withLog, Out.then_map _ _ _ (recordRow_withLog r e ini c), Out.then_map]
  intro s
  exact updateForcing_withLog r e ini { incrementTime c s with cursor := s.cursor + 1 }

theorem spinStep_withLog (c : RunCfg K W A P R) (s : RunSt K W A P R) :
    spinStep c (withLog r e ini s) = (spinStep c s).map (withLog r e ini) := by
  unfold spinStep
  rw [procStep_withLog, Out.then_map]
  intro s
  exact updateForcing_withLog r e ini (incrementTimeDetached c s)

theorem mainLoop_withLog (c : RunCfg K W A P R) : ∀ (n : ℕ) (s : RunSt K W A P R),
    mainLoop c n (withLog r e ini s) = (mainLoop c n s).map (withLog r e ini) := by
  intro n
  induction n with
  | zero => intro s; rfl
  | succ n ih =>
    intro s
    unfold mainLoop
    simp only [mainStep_withLog]
    have : (withLog r e ini s).date = s.date := rfl
    rw [this]
    split
    · rfl
    · exact Out.then_map _ _ _ ih

theorem spinLoop_withLog (c : RunCfg K W A P R) : ∀ (n : ℕ) (s : RunSt K W A P R),
    spinLoop c n (withLog r e ini s) = (spinLoop c n s).map (withLog r e ini) := by
  intro n
  induction n with
  | zero => intro s; rfl
  | succ n ih =>
    intro s
    unfold spinLoop
    rw [spinStep_withLog, Out.then_map _ _ _ ih]

theorem spinup_withLog (c : RunCfg K W A P R) (s : RunSt K W A P R) :
    spinup c (withLog r e ini s) = (spinup c s).map (withLog r e ini) := by
  unfold spinup
  split
  · rw [spinLoop_withLog, Out.then_map]
    intro s
    exact initSeries_withLog r e ini { s with date := c.start, world := c.restore s.world }
  · rfl

theorem run_withLog (c : RunCfg K W A P R) (n : ℕ) (s : RunSt K W A P R) :
    run c n (withLog r e ini s) = (run c n s).map (withLog r e ini) := by
  unfold run
  rw [initSeries_withLog, Out.then_map _ _ _ (spinup_withLog r e ini c), Out.then_map]
  intro s
  have : saveInitial c (withLog r e ini s) = withLog r e ini (saveInitial c s) := by
    simp [saveInitial, withLog]
  rw [this, mainLoop_withLog]

/-- The state with empty logs. -/
def bareLog (s : RunSt K W A P R) : RunSt K W A P R := { s with rowsOut := [], reads := [], initial := none }

theorem withLog_bare (s : RunSt K W A P R) : withLog s.rowsOut s.reads s.initial (bareLog s) = s := by
  simp [withLog, bareLog]

/-- The first processed step only sees the world through the step's program. -/
theorem mainLoop_world {c : RunCfg K W A P R} {s : RunSt K W A P R} {w : W} (hw : c.proc s.world = c.proc w)
    (hd : s.date ≤ c.stop) (n : ℕ) : mainLoop c n { s with world := w } = mainLoop c n s := by
  cases n with
  | zero => rfl
  | succ n =>
    unfold mainLoop
    simp only [not_lt.2 hd, if_false]
    have : mainStep c { s with world := w } = mainStep c s := by
      unfold mainStep procStep
      simp only
      rw [hw]
    rw [this]

theorem spinLoop_world {c : RunCfg K W A P R} {s : RunSt K W A P R} {w : W} (hw : c.proc s.world = c.proc w) (n : ℕ) :
    spinLoop c (n + 1) { s with world := w } = spinLoop c (n + 1) s := by
  unfold spinLoop
  have : spinStep c { s with world := w } = spinStep c s := by
    unfold spinStep procStep
    simp only
    rw [hw]
  rw [this]

/-- Two runs from the same clock, actions, parameters and series (up to their positions), with no override pending, from
worlds on which the first step does the same: same rows. -/
theorem rerun_core {c : RunCfg K W A P R} (hse : c.start ≤ c.stop) {fuel k : ℕ} {s1 s1' s2 : RunSt K W A P R}
    (hd1 : s1.date = c.start) (hd2 : s2.date = c.start) (hc : s2.cursor = s1.cursor) (ha : s2.acts = s1.acts)
    (hp : s2.pars = s1.pars) (ho1 : s1.over = fun _ _ => none) (ho2 : s2.over = fun _ _ => none)
    (hser : s2.series = shiftAll k (atAll c.start s1.series)) (hw : c.proc s2.world = c.proc s1.world)
    (h : run c fuel s1 = .ok s1') :
    ∃ rows s2', s1'.rowsOut = s1.rowsOut ++ rows ∧ run c fuel s2 = .ok s2' ∧ s2'.rowsOut = s2.rowsOut ++ rows ∧
      s2'.world = s1'.world ∧ s2'.cursor = s1'.cursor := by
  obtain ⟨hset, -⟩ := run_reads hd1 ho1 h
  -- states after positioning the series, logs removed
  have i1 : initSeries (bareLog s1) = .ok { bareLog s1 with series := atAll c.start s1.series } := by
    have := initSeries_eq (s := bareLog s1) (by rw [show (bareLog s1).date = c.start from hd1]; exact hset)
    rw [this]
    simp [bareLog, hd1]
  have hset2 : ∀ t ∈ s2.series, ∀ e ∈ t.data, (e.2.setCursor c.start).2 = true := by
    rw [hser]
    intro t ht e he
    rw [shiftAll, List.mem_map] at ht
    obtain ⟨t0, ht0, rfl⟩ := ht
    rw [atAll, List.mem_map] at ht0
    obtain ⟨t1, ht1, rfl⟩ := ht0
    simp only [DSeries.shift, DSeries.at, List.mem_map, List.map_map] at he
    obtain ⟨e1, he1, rfl⟩ := he
    simp only [Function.comp]
    obtain ⟨g1, g2, g3, g4, g5⟩ := RegSeries.at_fields c.start e1.2
    have : (e1.2.at c.start).shift k = { e1.2 with cursor := (e1.2.at c.start).cursor + k } := by
      unfold RegSeries.shift; rw [g1, g2, g3, g4, g5]
    rw [this]
    exact (RegSeries.at_cursor c.start e1.2 _ (hset t1 ht1 e1 he1)).2
  have i2 : initSeries (bareLog s2) = .ok { bareLog s2 with series := atAll c.start s1.series } := by
    have := initSeries_eq (s := bareLog s2) (by rw [show (bareLog s2).date = c.start from hd2]; exact hset2)
    rw [this]
    have e : atAll (bareLog s2).date (bareLog s2).series = atAll c.start s1.series := by
      rw [show (bareLog s2).date = c.start from hd2, show (bareLog s2).series = s2.series from rfl, hser,
        atAll_shiftAll_atAll hset]
    rw [e]
  have hstate : ({ bareLog s2 with series := atAll c.start s1.series } : RunSt K W A P R) =
      { ({ bareLog s1 with series := atAll c.start s1.series } : RunSt K W A P R) with world := s2.world } := by
    simp [bareLog, hd1, hd2, hc, ha, hp, ho1, ho2]
  -- the two bare runs
  have hbare1 : run c fuel s1 = (run c fuel (bareLog s1)).map (withLog s1.rowsOut s1.reads s1.initial) := by
    rw [← run_withLog, withLog_bare]
  have hbare2 : run c fuel s2 = (run c fuel (bareLog s2)).map (withLog s2.rowsOut s2.reads s2.initial) := by
    rw [← run_withLog, withLog_bare]
  set z1 : RunSt K W A P R := { bareLog s1 with series := atAll c.start s1.series } with hz1
  have hz1w : z1.world = s1.world := rfl
  have hz1d : z1.date = c.start := hd1
  -- equality of the bare runs up to the initial values
  have hrun : ∃ q1 q2, run c fuel (bareLog s1) = .ok q1 ∧ run c fuel (bareLog s2) = .ok q2 ∧ q1.rowsOut = q2.rowsOut ∧
      q1.world = q2.world ∧ q1.cursor = q2.cursor := by
    rw [hbare1] at h
    obtain ⟨q1, hq1⟩ : ∃ q1, run c fuel (bareLog s1) = .ok q1 := by
      cases hx : run c fuel (bareLog s1) <;> rw [hx] at h <;> simp [Out.map] at h
      exact ⟨_, rfl⟩
    refine ⟨q1, ?_⟩
    have hq := hq1
    unfold run at hq ⊢
    rw [i1] at hq
    rw [i1, i2, hstate]
    simp only [Out.ok_then] at hq ⊢
    by_cases hs : c.spin > 0
    · obtain ⟨m, hm⟩ : ∃ m, c.spin = m + 1 := ⟨c.spin - 1, by omega⟩
      have : spinup c { z1 with world := s2.world } = spinup c z1 := by
        unfold spinup
        rw [if_pos hs, if_pos hs, hm, spinLoop_world (s := z1) (w := s2.world) (by rw [hz1w, hw])]
      rw [this]
      exact ⟨q1, hq, hq, rfl, rfl, rfl⟩
    · unfold spinup at hq ⊢
      rw [if_neg hs, Out.ok_then] at hq
      rw [if_neg hs, if_neg hs, Out.ok_then, Out.ok_then]
      have e1 : saveInitial c { z1 with world := s2.world } =
          withLog [] [] (some (c.record s2.world)) { z1 with world := s2.world, initial := none } := by
        simp [saveInitial, withLog]
      have e2 : saveInitial c z1 = withLog [] [] (some (c.record z1.world)) { z1 with initial := none } := by
        simp [saveInitial, withLog]
      rw [e1, mainLoop_withLog]
      have e3 : mainLoop c fuel ({ z1 with world := s2.world, initial := none } : RunSt K W A P R) =
          mainLoop c fuel { z1 with initial := none } :=
        mainLoop_world (s := { z1 with initial := none }) (w := s2.world) (by simp only; rw [hz1w, hw])
          (by simp only; rw [hz1d]; exact hse) fuel
      rw [e3]
      rw [e2, mainLoop_withLog] at hq ⊢
      cases hx : mainLoop c fuel { z1 with initial := none } with
      | ok q =>
        rw [hx] at hq
        simp only [Out.map, Out.ok.injEq] at hq ⊢
        exact ⟨_, hq, rfl, by rw [← hq]; rfl, by rw [← hq]; rfl, by rw [← hq]; rfl⟩
      | fail _ _ => rw [hx] at hq; simp [Out.map] at hq
      | ubRead => rw [hx] at hq; simp [Out.map] at hq
      | ubRow => rw [hx] at hq; simp [Out.map] at hq
      | fuel => rw [hx] at hq; simp [Out.map] at hq
  obtain ⟨q1, q2, hq1, hq2, hrows, hww, hcc⟩ := hrun
  rw [hbare1, hq1] at h
  simp only [Out.map, Out.ok.injEq] at h
  rw [hq2] at hbare2
  refine ⟨q1.rowsOut, _, by rw [← h]; rfl, hbare2, by simp [withLog, hrows], ?_, ?_⟩
  · rw [← h]; simp [withLog, hww]
  · rw [← h]; simp [withLog, hcc]

end

/-! ## C44 -/

section
variable {K A P R : Type} [Field K] [LinearOrder K] [IsStrictOrderedRing K] [FloorRing K]

/-- What is preserved along a run of a model whose steps and actions keep the configuration. -/
theorem run_invariant {c : RunCfg K (World K) A P R} {resetActs : A → A}
    (hproc : ∀ w, (c.proc w).Ensures fun r => r.2.config = w.config)
    (hact : ∀ d a w, resetActs (c.act d a w).1 = resetActs a ∧ (c.act d a w).2.config = w.config)
    (hpar : ∀ d p w, c.par d p w = (p, w)) (hres : c.restore = World.restoreExtents) {fuel : ℕ}
    {s s' : RunSt K (World K) A P R} (h : run c fuel s = .ok s') :
    s'.world.config = s.world.config ∧ resetActs s'.acts = resetActs s.acts ∧ s'.pars = s.pars := by
  have hspin : ∀ (n : ℕ) {s s' : RunSt K (World K) A P R}, spinLoop c n s = .ok s' →
      s'.world.config = s.world.config ∧ resetActs s'.acts = resetActs s.acts ∧ s'.pars = s.pars := by
    intro n
    induction n with
    | zero => intro s s' h; cases h; simp
    | succ n ih =>
      intro s s' h
      obtain ⟨s1, h1, h2⟩ := Out.then_ok h
      obtain ⟨w, o, evs, he, -, rfl⟩ := spinStep_ok h1
      obtain ⟨a, b, d⟩ := ih h2
      have hq := exec_ensures (hproc s.world) he
      exact ⟨a.trans hq, b, d⟩
  have hmain : ∀ (n : ℕ) {s s' : RunSt K (World K) A P R}, mainLoop c n s = .ok s' →
      s'.world.config = s.world.config ∧ resetActs s'.acts = resetActs s.acts ∧ s'.pars = s.pars := by
    intro n
    induction n with
    | zero => intro s s' h; cases h
    | succ n ih =>
      intro s s' h
      unfold mainLoop at h
      split at h
      · cases h; simp
      · obtain ⟨s1, h1, h2⟩ := Out.then_ok h
        obtain ⟨w, o, evs, he, -, -, -, -, -, -, -, -, -, e1, e2, e3⟩ := mainStep_ok h1
        obtain ⟨a, b, d⟩ := ih h2
        rw [hpar] at e1 e2 e3
        refine ⟨?_, ?_, d.trans e1⟩
        · have hq := exec_ensures (hproc s.world) he
          rw [a, e3, (hact _ _ _).2]; exact hq
        · rw [b, e2, (hact _ _ _).1]
  obtain ⟨s2, h2, h3⟩ := Out.then_ok h
  obtain ⟨s1, h1, h2⟩ := Out.then_ok h2
  obtain ⟨hs1, -⟩ := initSeries_ok h1
  have h4 : s2.world.config = s1.world.config ∧ resetActs s2.acts = resetActs s1.acts ∧ s2.pars = s1.pars := by
    unfold spinup at h2
    split at h2
    · obtain ⟨s3, h3, h4⟩ := Out.then_ok h2
      obtain ⟨a, b, d⟩ := hspin _ h3
      unfold rewind at h4
      obtain ⟨rfl, -⟩ := initSeries_ok h4
      refine ⟨?_, b, d⟩
      simp only
      rw [hres, World.restoreExtents_config, a]
    · cases h2; simp
  obtain ⟨a, b, d⟩ := hmain _ h3
  refine ⟨?_, ?_, ?_⟩
  · rw [a]; simp only [saveInitial]; rw [h4.1, hs1]
  · rw [b]; simp only [saveInitial]; rw [h4.2.1, hs1]
  · rw [d]; simp only [saveInitial]; rw [h4.2.2, hs1]

theorem World.reset_config (w : World K) : w.reset.config = w.config := by
  have hb : ∀ b : BrickMem K, b.reset.config = b.config := by
    intro b
    have hp : ∀ l : List (ProcMem K), (l.map ProcMem.reset).map ProcMem.config = l.map ProcMem.config := by
      intro l
      rw [List.map_map]
      apply List.map_congr_left
      intro p _
      simp only [Function.comp, ProcMem.config, ProcMem.reset, List.map_map, Prod.mk.injEq]
      refine ⟨?_, ?_⟩
      · apply List.map_congr_left
        intro f _
        rfl
      · cases p.st <;> simp [PState.reset, PState.shape]
    have hw : ∀ l : List (ProcMem K), ((l.map ProcMem.reset).map fun p => p.outs.map fun f => f.fracLC) =
        l.map fun p => p.outs.map fun f => f.fracLC := by
      intro l
      rw [List.map_map]
      apply List.map_congr_left
      intro p _
      simp [Function.comp, ProcMem.reset, OutMem.reset]
    have hplain : b.resetPlain.config = b.config := by
      unfold BrickMem.resetPlain BrickMem.config
      simp [StoreMem.reset, hp, hw]
    unfold BrickMem.reset
    split
    · exact hplain
    · rename_i hk
      rw [BrickMem.setFrac_config _ (by simp [BrickMem.isCover, BrickMem.resetPlain, hk]), hplain]
    · rename_i hk
      have : ({ b.resetPlain.setFrac b.initFrac with second := b.second.reset } : BrickMem K).config =
          (b.resetPlain.setFrac b.initFrac).config := by
        unfold BrickMem.config BrickMem.setFrac BrickMem.resetPlain
        simp [hk, StoreMem.reset]
      rw [this, BrickMem.setFrac_config _ (by simp [BrickMem.isCover, BrickMem.resetPlain, hk]), hplain]
    · rename_i hk
      unfold BrickMem.config
      simp [hk, StoreMem.reset]
  unfold World.config World.reset
  simp only [List.map_map, List.length_map, Prod.mk.injEq, and_true]
  refine ⟨?_, ?_⟩
  · apply List.map_congr_left; intro b _; exact hb b
  · apply List.map_congr_left
    intro u _
    simp only [Function.comp, List.map_map]
    apply List.map_congr_left; intro b _; exact hb b

/-- Registered calendar actions come back from `Reset` as they were, whatever fired in between. -/
theorem actMgr_reset_update {D : Type} [LinearOrder D] (m : ActMgr D) (d : D) : (m.dateUpdate d).reset = m.reset := by
  unfold ActMgr.dateUpdate
  have key : ∀ (l : List (D × ℕ)) (m : ActMgr D), (ActMgr.applyDue d l m).reset = m.reset := by
    intro l
    induction l with
    | nil => intro m; rfl
    | cons e l ih =>
      intro m
      obtain ⟨x, a⟩ := e
      unfold ActMgr.applyDue
      split
      · rw [ih]; rfl
      · rfl
  exact key _ m

/-- **C44 (models without state in the snowpacks).** For every model, forcing, action set, run length and spin-up: if steps
and actions keep the configuration of the components, there are no dated parameters (this code base never registers any),
and the first step does not depend on what the previous run left in the snowpacks' processes (their internal variables
and output fluxes, the only things `Reset` does not restore), then run, reset, run gives exactly the rows of the first
run.  Missing for the full property: snowpack processes with memory, where it is false, see `c44_cemaneige_differs`. -/
theorem c44_rerun_partial (c : RunCfg K (World K) A P R) (resetActs : A → A)
    (hidem : ∀ a, resetActs (resetActs a) = resetActs a) (hse : c.start ≤ c.stop)
    (hproc : ∀ w, (c.proc w).Ensures fun r => r.2.config = w.config)
    (hact : ∀ d a w, resetActs (c.act d a w).1 = resetActs a ∧ (c.act d a w).2.config = w.config)
    (hpar : ∀ d p w, c.par d p w = (p, w)) (hres : c.restore = World.restoreExtents)
    (hleft : ∀ w w' : World K, w.config = w'.config → c.proc w.reset = c.proc w'.reset)
    (fuel : ℕ) (s s1 s1' s2 : RunSt K (World K) A P R) (ho : s.over = fun _ _ => none)
    (h1 : s1 = resetRun c resetActs World.reset s) (hrun : run c fuel s1 = .ok s1')
    (h2 : s2 = resetRun c resetActs World.reset s1') :
    ∃ rows s2', s1'.rowsOut = s1.rowsOut ++ rows ∧ run c fuel s2 = .ok s2' ∧ s2'.rowsOut = s2.rowsOut ++ rows := by
  obtain ⟨i1, i2, i3⟩ := run_invariant hproc hact hpar hres hrun
  have hd1 : s1.date = c.start := by rw [h1]; rfl
  have ho1 : s1.over = fun _ _ => none := by rw [h1]; exact ho
  obtain ⟨-, ls, lm, -, -, -, -, -, ho1', hser⟩ := run_reads hd1 ho1 hrun
  have hA : s2.acts = s1.acts := by
    rw [h2]; simp only [resetRun]; rw [i2, h1]; simp only [resetRun]; exact hidem _
  have hW : c.proc s2.world = c.proc s1.world := by
    rw [h2]
    simp only [resetRun]
    have : s1.world = s.world.reset := by rw [h1]; rfl
    rw [this]
    apply hleft
    rw [i1, this, World.reset_config]
  obtain ⟨rows, s2', r1, r2, r3, -⟩ := rerun_core (k := lm.length) hse hd1 (by rw [h2]; rfl)
    (by rw [h2, h1]; rfl) hA (by rw [h2]; simp only [resetRun]; exact i3) ho1 (by rw [h2]; exact ho1')
    (by rw [h2]; exact hser) hW hrun
  exact ⟨rows, s2', r1, r2, r3⟩

/-- **C44 for models without snowpack**: no condition on how steps use the state. -/
theorem c44_rerun_without_snowpack_partial (c : RunCfg K (World K) A P R) (resetActs : A → A)
    (hidem : ∀ a, resetActs (resetActs a) = resetActs a) (hse : c.start ≤ c.stop)
    (hproc : ∀ w, (c.proc w).Ensures fun r => r.2.config = w.config)
    (hact : ∀ d a w, resetActs (c.act d a w).1 = resetActs a ∧ (c.act d a w).2.config = w.config)
    (hpar : ∀ d p w, c.par d p w = (p, w)) (hres : c.restore = World.restoreExtents)
    (fuel : ℕ) (s s1 s1' s2 : RunSt K (World K) A P R) (hn : ∀ b ∈ s.world.bricks, b.kind ≠ .snowpack)
    (ho : s.over = fun _ _ => none)
    (h1 : s1 = resetRun c resetActs World.reset s) (hrun : run c fuel s1 = .ok s1')
    (h2 : s2 = resetRun c resetActs World.reset s1') :
    ∃ rows s2', s1'.rowsOut = s1.rowsOut ++ rows ∧ run c fuel s2 = .ok s2' ∧ s2'.rowsOut = s2.rowsOut ++ rows := by
  obtain ⟨i1, i2, i3⟩ := run_invariant hproc hact hpar hres hrun
  have hd1 : s1.date = c.start := by rw [h1]; rfl
  have ho1 : s1.over = fun _ _ => none := by rw [h1]; exact ho
  obtain ⟨-, ls, lm, -, -, -, -, -, ho1', hser⟩ := run_reads hd1 ho1 hrun
  have hA : s2.acts = s1.acts := by
    rw [h2]; simp only [resetRun]; rw [i2, h1]; simp only [resetRun]; exact hidem _
  have hW : c.proc s2.world = c.proc s1.world := by
    rw [h2]
    simp only [resetRun]
    have : s1.world = s.world.reset := by rw [h1]; rfl
    rw [this]
    congr 1
    exact (World.reset_of_config (by rw [i1, this, World.reset_config]) hn).symm
  obtain ⟨rows, s2', r1, r2, r3, -⟩ := rerun_core (k := lm.length) hse hd1 (by rw [h2]; rfl)
    (by rw [h2, h1]; rfl) hA (by rw [h2]; simp only [resetRun]; exact i3) ho1 (by rw [h2]; exact ho1')
    (by rw [h2]; exact hser) hW hrun
  exact ⟨rows, s2', r1, r2, r3⟩

end

/-! ## Witnesses -/

/-- The glacier model of C43 with shrinking actions meets the hypotheses. -/
def rerunCfg : RunCfg ℚ (World ℚ) (ActMgr ℚ) Unit ℚ where
  start := 58851
  stop := 58852
  dt := 1
  rnd := fun x => x
  rows := 2
  spin := 2
  proc := spinCfg.proc
  par := fun _ p w => (p, w)
  act := fun d a w => (a.dateUpdate d, { w with units := w.units.map (List.map fun b =>
    if b.isCover then b.setFrac (b.frac / 2) else b) })
  restore := World.restoreExtents
  record := fun w => w.outlet.sum + ((w.units.flatten.map fun b => b.second.content * b.frac).sum)

example : (∀ m : ActMgr ℚ, m.reset.reset = m.reset) ∧
    (∀ d a w, ((rerunCfg.act d a w).1).reset = a.reset ∧ (rerunCfg.act d a w).2.config = w.config) ∧
    (∀ d p w, rerunCfg.par d p w = (p, w)) ∧ (∀ b ∈ spinWorld.bricks, b.kind ≠ .snowpack) := by
  refine ⟨fun _ => rfl, ?_, fun _ _ _ => rfl, by decide +kernel⟩
  intro d a w
  refine ⟨actMgr_reset_update a d, ?_⟩
  simp only [rerunCfg, World.config, Prod.mk.injEq, true_and, List.map_map, and_true]
  apply List.map_congr_left
  intro u _
  simp only [Function.comp, List.map_map]
  apply List.map_congr_left
  intro b _
  simp only [Function.comp]
  split
  · rename_i h; exact BrickMem.setFrac_config b h _
  · rfl

/-- A snowpack with CemaNeige melt: the step of ProcessMeltCemaNeige.cpp:63-92 with cold content factor 1/2, melting
temperature 0, factor 3 and full snow cover; the temperature is the forcing.  The melt is recorded. -/
def cemaWorld : World ℚ :=
  { basin := []
    units := [[⟨.snowpack, ⟨0, 0, 0, 0⟩, ⟨500, 0, 0, 500⟩, 1, 1, [⟨[⟨0, false, 1⟩], .cemaNeige 0⟩]⟩]]
    outlet := [0] }

/-- Thermal state and melt of one step. -/
def cemaStep (T cold : ℚ) : ℚ × ℚ :=
  let g := min 0 (1 / 2 * cold + (1 - 1 / 2) * T)
  (g, if g < 0 ∨ T ≤ 0 then 0 else 3 * T)

def cemaBrick (T : ℚ) (b : BrickMem ℚ) : BrickMem ℚ :=
  match b.procs with
  | [⟨_, .cemaNeige cold⟩] =>
    { b with second.content := b.second.content - (cemaStep T cold).2,
             procs := [⟨[⟨(cemaStep T cold).2, false, 1⟩], .cemaNeige (cemaStep T cold).1⟩] }
  | _ => b

def cemaCfg : RunCfg ℚ (World ℚ) Unit Unit ℚ where
  start := 58849
  stop := 58850
  dt := 1
  rnd := fun x => x
  rows := 2
  spin := 0
  proc := fun w => .read 1 .temperature fun T => .ret (true, { w with units := w.units.map (List.map (cemaBrick T)) })
  par := fun _ p w => (p, w)
  act := fun _ a w => (a, w)
  restore := World.restoreExtents
  record := fun w => (w.units.flatten.map fun b => (b.procs.map fun p => (p.outs.map fun f => f.amount).sum).sum).sum

/-- Temperatures: 4 °C on the first day, -10 °C on the second. -/
def cemaSt : RunSt ℚ (World ℚ) Unit Unit ℚ where
  date := 58849
  world := cemaWorld
  acts := ()
  pars := ()
  series := [⟨.temperature, [(1, ⟨58849, 58850, 1, .day, [4, -10], 0⟩)]⟩]
  over := fun _ _ => none
  cursor := 0
  initial := none
  rowsOut := []
  reads := []

/-- **C44 is false with a CemaNeige snowpack.** First run: 12 mm melt on the first day.  After a reset the snowpack still
has the cold content of the end of the first run, and the same forcing melts nothing on the first day. -/
theorem c44_cemaneige_differs :
    (run cemaCfg 10 (resetRun cemaCfg id World.reset cemaSt)).done.map (fun s => s.rowsOut) =
      some [(0, 58849, 12), (1, 58850, 0)] ∧
    ((run cemaCfg 10 (resetRun cemaCfg id World.reset cemaSt)).done.bind
      fun s => (run cemaCfg 10 (resetRun cemaCfg id World.reset { s with rowsOut := [] })).done.map (fun s => s.rowsOut)) =
      some [(0, 58849, 0), (1, 58850, 0)] := by decide +kernel

end HB
