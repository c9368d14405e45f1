import Verif.Model.Network

/-!
# Traces of elementary water movements

Every function of the time step changes the physical state through five elementary operations.  This
file shows that each function's effect is the run of a trace whose *schedule* (which operation on
which container or flux, in which order) depends only on the structure of the network, never on the
rates: the rates only determine the numbers carried by the trace.
-/

namespace HB

set_option linter.unusedSectionVars false

/-- Shapes of the elementary operations. -/
inductive Sh
  | ext (f : Nat) | inj (c : Nat) | read (c : Nat) (st : Bool) | out (src f : Nat) | fin (c : Nat)
  deriving DecidableEq, Repr

variable {K σ : Type} [Field K] [LinearOrder K] [IsStrictOrderedRing K]

/-- Effect of one elementary operation. -/
def runEv (net : Net K) (ph : Phys K) : Sh × K → Phys K
  | (.ext f, x) => updateFlux net ph f x
  | (.inj c, x) => injCont ph c x
  | (.read c st, _) => readCont net ph (c, st)
  | (.out src f, x) =>
    let ph := updateFlux net ph f x
    { ph with cont := upd ph.cont src ((ph.cont src).subDyn x) }
  | (.fin c, _) => finCont ph c

/-- Effect of a trace. -/
def runTr (net : Net K) (ph : Phys K) (tr : List (Sh × K)) : Phys K := tr.foldl (runEv net) ph

/-- `ph'` is reached from `ph` by a trace with the given schedule. -/
def Does (net : Net K) (sched : List Sh) (ph ph' : Phys K) : Prop :=
  ∃ tr : List (Sh × K), tr.map Prod.fst = sched ∧ runTr net ph tr = ph'

theorem Does.nil (net : Net K) (ph : Phys K) : Does net [] ph ph := ⟨[], rfl, rfl⟩

theorem Does.append {net : Net K} {s1 s2 : List Sh} {p0 p1 p2 : Phys K}
    (h1 : Does net s1 p0 p1) (h2 : Does net s2 p1 p2) : Does net (s1 ++ s2) p0 p2 := by
  obtain ⟨t1, ht1, hr1⟩ := h1
  obtain ⟨t2, ht2, hr2⟩ := h2
  refine ⟨t1 ++ t2, by simp [ht1, ht2], ?_⟩
  simp only [runTr, List.foldl_append] at *
  rw [hr1, hr2]

theorem Does.single (net : Net K) (sh : Sh) (x : K) (ph : Phys K) :
    Does net [sh] ph (runEv net ph (sh, x)) := ⟨[(sh, x)], rfl, rfl⟩

theorem Does.foldl {α : Type} {net : Net K} (sch : α → List Sh) (g : Phys K → α → Phys K)
    (h : ∀ ph a, Does net (sch a) ph (g ph a)) (l : List α) (ph : Phys K) :
    Does net (l.flatMap sch) ph (l.foldl g ph) := by
  induction l generalizing ph with
  | nil => exact Does.nil net ph
  | cons a l ih => exact (h ph a).append (ih _)

theorem Does.foldlS {α : Type} {net : Net K} (sch : α → List Sh) (g : Sys K σ → α → Sys K σ)
    (h : ∀ s a, Does net (sch a) s.ph (g s a).ph) (l : List α) (s : Sys K σ) :
    Does net (l.flatMap sch) s.ph (l.foldl g s).ph := by
  induction l generalizing s with
  | nil => exact Does.nil net s.ph
  | cons a l ih => exact (h s a).append (ih _)

theorem Does.foldlM {α : Type} {net : Net K} (sch : α → List Sh)
    (g : Sys K σ → α → Except Err (Sys K σ)) (l : List α)
    (h : ∀ s s', ∀ a ∈ l, g s a = .ok s' → Does net (sch a) s.ph s'.ph) (s s' : Sys K σ)
    (hs : l.foldlM g s = .ok s') : Does net (l.flatMap sch) s.ph s'.ph := by
  induction l generalizing s with
  | nil =>
    simp only [List.foldlM_nil, pure, Except.pure, Except.ok.injEq] at hs
    subst hs; exact Does.nil net _
  | cons a l ih =>
    rw [List.foldlM_cons] at hs
    cases hg : g s a with
    | error e => rw [hg] at hs; simp [bind, Except.bind] at hs
    | ok s1 =>
      rw [hg] at hs
      exact (h s s1 a (by simp) hg).append
        (ih (fun s s' b hb => h s s' b (by simp [hb])) s1 hs)

/-! ## Elementary facts -/

theorem flatMap_single {α β : Type*} (g : α → β) (l : List α) :
    l.flatMap (fun a => [g a]) = l.map g := by
  induction l with
  | nil => rfl
  | cons a l ih => simp [ih]

theorem upd_self {α : Type*} (f : Nat → α) (i : Nat) : upd f i (f i) = f := by
  funext j; simp only [upd]; split <;> simp_all

theorem upd_same {α : Type*} (f : Nat → α) (i : Nat) (v : α) : upd f i v i = v := by simp [upd]

theorem upd_ne {α : Type*} (f : Nat → α) {i j : Nat} (v : α) (h : j ≠ i) : upd f i v j = f j := by
  simp [upd, h]

theorem subDyn_zero (c : Cont K) : c.subDyn 0 = c := by
  unfold Cont.subDyn; split <;> simp

theorem addStat_zero (c : Cont K) : c.addStat 0 = c := by
  unfold Cont.addStat; split <;> simp

theorem injCont_zero (ph : Phys K) (c : Nat) : injCont ph c 0 = ph := by
  unfold injCont; simp [addStat_zero, upd_self]

/-! ## Schedules of the code -/

/-- Schedule of `UpdateContentFromInputs`. -/
def Brick.schedRead (b : Brick) : List Sh := b.conts.map (fun c => Sh.read c.1 c.2)
/-- Schedule of applying the rates of a process. -/
def Proc.schedOut (p : Proc) : List Sh := p.outs.map (Sh.out p.src)
/-- Schedule of applying the rates of a brick. -/
def Brick.schedOut (b : Brick) : List Sh := b.procs.flatMap Proc.schedOut
/-- Schedule of `Finalize`. -/
def Brick.schedFin (b : Brick) : List Sh := b.conts.map (fun c => Sh.fin c.1)
/-- Schedule of a brick computed directly. -/
def Brick.schedDirect (b : Brick) : List Sh :=
  b.schedRead ++ b.procs.flatMap (fun p => Sh.inj p.src :: p.schedOut) ++ b.schedFin
/-- Schedule of the direct phase of a unit. -/
def HUnit.sched (u : HUnit) : List Sh :=
  u.splitters.flatMap (fun sp => sp.2.map Sh.ext) ++ (u.direct.filter (!·.null)).flatMap Brick.schedDirect
/-- Schedule of the direct phase. -/
def Net.schedDirect (net : Net K) : List Sh := net.units.flatMap HUnit.sched
/-- Schedule of a brick in the solver: what its processes inject, booking, applying. -/
def Brick.schedSolve (b : Brick) : List Sh := b.procs.map (fun p => Sh.inj p.src) ++ (b.schedRead ++ b.schedOut)
/-- Schedule of the (final pass of the) solver. -/
def Net.schedSolve (net : Net K) : List Sh :=
  net.solver.flatMap Brick.schedSolve ++ net.solver.flatMap Brick.schedFin
/-- Schedule of a time step. -/
def Net.sched (net : Net K) : List Sh := net.schedDirect ++ net.schedSolve

/-! ## The functions follow their schedule -/

theorem readInputs_does (net : Net K) (b : Brick) (ph : Phys K) :
    Does net b.schedRead ph (readInputs net b ph) := by
  have := Does.foldl (net := net) (fun c : Nat × Bool => [Sh.read c.1 c.2]) (readCont net)
    (fun ph a => Does.single net _ 0 ph) b.conts ph
  simpa [Brick.schedRead, readInputs, flatMap_single] using this

theorem applyChange_eq (net : Net K) (dt : K) (src f : Nat) (rate : K) (ph : Phys K) :
    applyChange net dt src f rate ph = runEv net ph (.out src f, vol dt rate) := by
  unfold applyChange vol runEv
  dsimp only
  generalize (if rate < 0 then 0 else rate) = r
  by_cases h : greaterThan r 0 prec = true
  · simp only [h, if_true]
  · simp only [h]; simp [subDyn_zero, upd_self]

theorem applyProc_does (net : Net K) (dt : K) (p : Proc) (k : Nat → K) (ph : Phys K) :
    Does net p.schedOut ph (p.outs.foldl (fun ph f => applyChange net dt p.src f (k f) ph) ph) := by
  have := Does.foldl (net := net) (fun f : Nat => [Sh.out p.src f])
    (fun ph f => applyChange net dt p.src f (k f) ph)
    (fun ph a => by rw [applyChange_eq]; exact Does.single net _ _ ph) p.outs ph
  simpa [Proc.schedOut, flatMap_single] using this

theorem finConts_does (net : Net K) (b : Brick) (ph : Phys K) :
    Does net b.schedFin ph (b.conts.foldl (fun ph c => finCont ph c.1) ph) := by
  have := Does.foldl (net := net) (fun c : Nat × Bool => [Sh.fin c.1]) (fun ph c => finCont ph c.1)
    (fun ph a => Does.single net _ 0 ph) b.conts ph
  simpa [Brick.schedFin, flatMap_single] using this

theorem finBrick_does (net : Net K) (laws : Laws K σ) (b : Brick) (s : Sys K σ) :
    Does net b.schedFin s.ph (finBrick laws b s).ph := finConts_does net b s.ph

theorem constrainCont_ph {net : Net K} {dt : K} {b : Brick} {s s' : Sys K σ} {c : Nat}
    (h : constrainCont net dt b s c = .ok s') : s'.ph = s.ph ∧ s'.hid = s.hid := by
  unfold constrainCont at h
  dsimp only at h
  cases ha : applyConstraints (s.ph.cont c) dt ((b.outsOf c).map s.rate)
      ((net.ovf c).bind (fun f => (b.outsOf c).findIdx? (· = f)))
      ((net.inputs c).map (inflowOf net s)) with
  | error e => rw [ha] at h; simp [bind, Except.bind] at h
  | ok oi =>
    rw [ha] at h
    simp only [bind, Except.bind, pure, Except.pure, Except.ok.injEq] at h
    subst h; exact ⟨rfl, rfl⟩

theorem foldlM_ph {α : Type} (g : Sys K σ → α → Except Err (Sys K σ))
    (hg : ∀ s s' a, g s a = .ok s' → s'.ph = s.ph ∧ s'.hid = s.hid) (l : List α) (s s' : Sys K σ)
    (h : l.foldlM g s = .ok s') : s'.ph = s.ph ∧ s'.hid = s.hid := by
  induction l generalizing s with
  | nil => simp only [List.foldlM_nil, pure, Except.pure, Except.ok.injEq] at h; subst h; exact ⟨rfl, rfl⟩
  | cons a l ih =>
    rw [List.foldlM_cons] at h
    cases hga : g s a with
    | error e => rw [hga] at h; simp [bind, Except.bind] at h
    | ok s1 =>
      rw [hga] at h
      have h1 := hg _ _ _ hga
      have h2 := ih s1 h
      exact ⟨h2.1.trans h1.1, h2.2.trans h1.2⟩

theorem sweep_ph {net : Net K} {dt : K} {s s' : Sys K σ} (h : sweep net dt s = .ok s') :
    s'.ph = s.ph ∧ s'.hid = s.hid :=
  foldlM_ph _ (fun _ _ _ hb => foldlM_ph _ (fun _ _ _ hc => constrainCont_ph hc) _ _ _ hb) _ _ _ h

theorem enforce_ph {net : Net K} {dt : K} {n : Nat} {s s' : Sys K σ}
    (h : enforce net dt n s = .ok s') : s'.ph = s.ph ∧ s'.hid = s.hid := by
  induction n generalizing s with
  | zero => simp only [enforce, Except.ok.injEq] at h; subst h; exact ⟨rfl, rfl⟩
  | succ n ih =>
    unfold enforce at h
    cases hw : sweep net dt s with
    | error e => rw [hw] at h; simp [bind, Except.bind] at h
    | ok s1 =>
      rw [hw] at h
      have h1 := sweep_ph hw
      simp only [bind, Except.bind] at h
      split at h
      · simp only [pure, Except.pure, Except.ok.injEq] at h; subst h; exact h1
      · have h2 := ih h
        exact ⟨h2.1.trans h1.1, h2.2.trans h1.2⟩

theorem constrainRates_ph {net : Net K} {dt : K} {k : Nat → K} {s : Sys K σ}
    {r : (Nat → K) × Sys K σ} (h : constrainRates net dt k s = .ok r) :
    r.2.ph = s.ph ∧ r.2.hid = s.hid := by
  unfold constrainRates at h
  cases hw : enforce net dt 10 (linkRates net.isOvf net.solverOuts k s) with
  | error e => rw [hw] at h; simp [bind, Except.bind] at h
  | ok s1 =>
    rw [hw] at h
    simp only [bind, Except.bind, pure, Except.pure, Except.ok.injEq] at h
    subst h
    have := enforce_ph hw
    exact this

theorem directProc_does {net : Net K} {laws : Laws K σ} {dt : K} {b : Brick} {p : Proc}
    {s s' : Sys K σ} (h : directProc net laws dt b s p = .ok s') :
    Does net (Sh.inj p.src :: p.schedOut) s.ph s'.ph := by
  unfold directProc callRates at h
  dsimp only at h
  set x := (laws.rates p.pid s.hid s.ph).2.1 with hx
  generalize hs1 : ({ ph := injCont s.ph p.src x, rate := _, hid := _ } : Sys K σ) = s1 at h
  cases hc : constrainCont net dt b s1 p.src with
  | error e => rw [hc] at h; simp [bind, Except.bind] at h
  | ok s2 =>
    rw [hc] at h
    simp only [bind, Except.bind, pure, Except.pure, Except.ok.injEq] at h
    subst h
    have hph := (constrainCont_ph hc).1
    have h1 : s1.ph = injCont s.ph p.src x := by rw [← hs1]
    have e : Does net [Sh.inj p.src] s.ph s2.ph := by
      rw [hph, h1]; exact Does.single net _ x _
    exact e.append (applyProc_does net dt p _ _)

theorem directBrick_does {net : Net K} {laws : Laws K σ} {dt : K} {b : Brick}
    {s s' : Sys K σ} (h : directBrick net laws dt s b = .ok s') :
    Does net b.schedDirect s.ph s'.ph := by
  unfold directBrick at h
  dsimp only at h
  generalize hs1 : ({ ph := readInputs net b s.ph, rate := _, hid := _ } : Sys K σ) = s1 at h
  cases hc : b.procs.foldlM (directProc net laws dt b) s1 with
  | error e => rw [hc] at h; simp [bind, Except.bind] at h
  | ok s2 =>
    rw [hc] at h
    simp only [bind, Except.bind, pure, Except.pure, Except.ok.injEq] at h
    subst h
    have h1 : s1.ph = readInputs net b s.ph := by rw [← hs1]
    have e1 : Does net b.schedRead s.ph s1.ph := by rw [h1]; exact readInputs_does _ _ _
    have e2 := Does.foldlM (net := net) (fun p => Sh.inj p.src :: p.schedOut) _ b.procs
      (fun s s' p _ hp => directProc_does hp) s1 s2 hc
    exact (e1.append e2).append (finBrick_does net laws b s2)

theorem runSplitter_does (net : Net K) (laws : Laws K σ) (s : Sys K σ) (sp : Nat × List Nat) :
    Does net (sp.2.map Sh.ext) s.ph (runSplitter net laws s sp).ph := by
  have := Does.foldl (net := net) (fun f : Nat => [Sh.ext f])
    (fun ph f => updateFlux net ph f ((laws.split sp.1 s.hid s.ph).1 f))
    (fun ph a => Does.single net (.ext a) _ ph) sp.2 s.ph
  simpa [runSplitter, flatMap_single] using this

theorem directUnit_does {net : Net K} {laws : Laws K σ} {dt : K} {u : HUnit}
    {s s' : Sys K σ} (h : directUnit net laws dt s u = .ok s') :
    Does net u.sched s.ph s'.ph := by
  unfold directUnit at h
  have e1 := Does.foldlS (net := net) (fun sp : Nat × List Nat => sp.2.map Sh.ext)
    (runSplitter net laws) (fun s sp => runSplitter_does net laws s sp) u.splitters s
  have e2 := Does.foldlM (net := net) Brick.schedDirect _ (u.direct.filter (!·.null))
      (fun s s' p _ hp => directBrick_does hp) _ s' h
  exact e1.append e2

theorem directPhase_does {net : Net K} {laws : Laws K σ} {dt : K}
    {s s' : Sys K σ} (h : directPhase net laws dt s = .ok s') :
    Does net net.schedDirect s.ph s'.ph :=
  Does.foldlM (net := net) HUnit.sched _ net.units (fun _ _ _ _ hp => directUnit_does hp) s s' h

theorem applyBrick_does (net : Net K) (dt : K) (k : Nat → K) (ph : Phys K) (b : Brick) :
    Does net b.schedSolve ph (applyBrick net dt k ph b) := by
  have e : Does net (b.procs.map fun p => Sh.inj p.src) ph ph := by
    refine ⟨b.procs.map fun p => (Sh.inj p.src, 0), by simp, ?_⟩
    unfold runTr
    induction b.procs with
    | nil => rfl
    | cons p l ih => rw [List.map_cons, List.foldl_cons, runEv, injCont_zero]; exact ih
  refine e.append ((readInputs_does net b ph).append ?_)
  exact Does.foldl (net := net) Proc.schedOut _ (fun ph p => applyProc_does net dt p k ph) b.procs _

theorem applyRates_does (net : Net K) (dt : K) (k : Nat → K) (s : Sys K σ) :
    Does net (net.solver.flatMap Brick.schedSolve) s.ph (applyRates net dt k s).ph :=
  Does.foldl (net := net) _ _ (fun ph b => applyBrick_does net dt k ph b) net.solver s.ph

theorem finalizeTimeStep_does (net : Net K) (laws : Laws K σ) (s : Sys K σ) :
    Does net (net.solver.flatMap Brick.schedFin) s.ph (finalizeTimeStep net laws s).ph :=
  Does.foldlS (net := net) _ _ (fun s b => finBrick_does net laws b s) net.solver s

theorem finalPass_does (net : Net K) (laws : Laws K σ) (dt : K) (k : Nat → K) (s : Sys K σ) :
    Does net net.schedSolve s.ph (finalizeTimeStep net laws (applyRates net dt k s)).ph :=
  (applyRates_does net dt k s).append (finalizeTimeStep_does net laws _)

/-! ## Evaluation of the rates -/

/-- No solved process injects water into its own container while its rates are evaluated. -/
def NoInject (net : Net K) (laws : Laws K σ) : Prop :=
  ∀ b ∈ net.solver, ∀ p ∈ b.procs, ∀ h ph, (laws.rates p.pid h ph).2.1 = 0

theorem evaluate_ph (net : Net K) (laws : Laws K σ) (hn : NoInject net laws) (s : Sys K σ) :
    (evaluate net laws s).2.ph = s.ph := by
  unfold evaluate
  have key : ∀ (l : List Proc), (∀ p ∈ l, ∀ h ph, (laws.rates p.pid h ph).2.1 = 0) →
      ∀ ks : (Nat → K) × Sys K σ,
      (l.foldl (fun ks p =>
        let (r, s) := callRates laws p ks.2
        (fun f => if f ∈ p.outs then r f else ks.1 f, s)) ks).2.ph = ks.2.ph := by
    intro l
    induction l with
    | nil => intro _ ks; rfl
    | cons p l ih =>
      intro hl ks
      rw [List.foldl_cons, ih (fun q hq => hl q (by simp [hq]))]
      simp only [callRates, hl p (by simp)]
      exact injCont_zero _ _
  apply key
  intro p hp
  rw [List.mem_flatMap] at hp
  obtain ⟨b, hb, hp⟩ := hp
  exact hn b hb p hp

theorem evaluateConstrained_ph {net : Net K} {laws : Laws K σ} (hn : NoInject net laws) {dt : K}
    {s : Sys K σ} {r : (Nat → K) × Sys K σ} (h : evaluateConstrained net laws dt s = .ok r) :
    r.2.ph = s.ph := by
  unfold evaluateConstrained at h
  have h1 := (constrainRates_ph h).1
  have h2 := evaluate_ph net laws hn s
  exact h1.trans h2

/-! ## Trial stages leave no trace in the containers -/

/-- Structural conditions on the solved bricks: their inputs are booked in the dynamic change, their
processes draw from their own containers and none of their fluxes is instantaneous (true of the
storages built by ModelBuilder unless a solved process is declared with an instantaneous output). -/
structure StageOK (net : Net K) : Prop where
  dynamic : ∀ b ∈ net.solver, ∀ c ∈ b.conts, c.2 = false
  own : ∀ b ∈ net.solver, ∀ p ∈ b.procs, p.src ∈ b.conts.map (·.1)
  notInst : ∀ f ∈ net.solverOuts, (net.flux f).inst = false

/-- Overwrite the dynamic and the static change. -/
def Cont.setDyn (c : Cont K) (d e : K) : Cont K := { c with dyn := d, stat := e }

theorem Cont.addDyn_setDyn (c : Cont K) (d e x : K) :
    (c.setDyn d e).addDyn x = c.setDyn (if c.infinite then d else d + x) e := by
  unfold addDyn setDyn; dsimp only; split <;> rfl

theorem Cont.subDyn_setDyn (c : Cont K) (d e x : K) :
    (c.setDyn d e).subDyn x = c.setDyn (if c.infinite then d else d - x) e := by
  unfold subDyn setDyn; dsimp only; split <;> rfl

theorem Cont.addStat_setDyn (c : Cont K) (d e x : K) :
    (c.setDyn d e).addStat x = c.setDyn d (if c.infinite then e else e + x) := by
  unfold addStat setDyn; dsimp only; split <;> rfl

theorem Cont.setDyn_dyn (c : Cont K) : c.setDyn c.dyn c.stat = c := rfl

/-- `ph` differs from `ph0` only by the dynamic changes of the solved containers, the amounts of the solved fluxes, and
the water injected by exchange processes while their rates were evaluated (booked in the static change of a container and
in its exchange counter).  Without injecting processes the static changes are those of `ph0`. -/
structure StageRel (net : Net K) (laws : Laws K σ) (ph0 ph : Phys K) : Prop where
  cont : ∀ c, ∃ d e, ph.cont c = (ph0.cont c).setDyn d e ∧
    (c ∉ net.solverConts → d = (ph0.cont c).dyn) ∧ ph.exch c = ph0.exch c + (e - (ph0.cont c).stat) ∧
    (NoInject net laws → e = (ph0.cont c).stat)
  amt : ∀ f, f ∉ net.solverOuts → ph.amt f = ph0.amt f
  logs : ph.logs = ph0.logs
  snap : ph.snap = ph0.snap

theorem StageRel.refl (net : Net K) (laws : Laws K σ) (ph : Phys K) : StageRel net laws ph ph :=
  ⟨fun c => ⟨(ph.cont c).dyn, (ph.cont c).stat, rfl, fun _ => rfl, by simp, fun _ => rfl⟩, fun _ _ => rfl, rfl, rfl⟩

theorem StageRel.injCont {net : Net K} {laws : Laws K σ} {ph0 ph : Phys K} (h : StageRel net laws ph0 ph) (c : Nat) {x : K}
    (hx : NoInject net laws → x = 0) : StageRel net laws ph0 (injCont ph c x) := by
  refine ⟨fun c' => ?_, h.amt, h.logs, h.snap⟩
  obtain ⟨d, e, hd, hd', he, hn⟩ := h.cont c'
  by_cases hcc : c' = c
  · subst hcc
    refine ⟨d, if (ph0.cont c').infinite then e else e + x, ?_, hd', ?_, fun hni => ?_⟩
    · simp only [HB.injCont, upd_same, hd]
      exact Cont.addStat_setDyn (ph0.cont c') d e x
    · simp only [HB.injCont, upd_same, hd]
      have e1 : ((ph0.cont c').setDyn d e).addStat x = (ph0.cont c').setDyn d (if (ph0.cont c').infinite then e else e + x) :=
        Cont.addStat_setDyn (ph0.cont c') d e x
      rw [e1, he]
      simp only [Cont.setDyn]
      ring
    · rw [hn hni, hx hni]; split <;> simp
  · exact ⟨d, e, by simp [HB.injCont, upd_ne _ _ hcc, hd], hd', by simp [HB.injCont, upd_ne _ _ hcc, he], hn⟩

theorem StageRel.evaluate {net : Net K} {laws : Laws K σ} {ph0 : Phys K} {s : Sys K σ} (h : StageRel net laws ph0 s.ph) :
    StageRel net laws ph0 (evaluate net laws s).2.ph := by
  unfold HB.evaluate
  have key : ∀ (l : List Proc), (NoInject net laws → ∀ p ∈ l, ∀ h ph, (laws.rates p.pid h ph).2.1 = 0) →
      ∀ ks : (Nat → K) × Sys K σ, StageRel net laws ph0 ks.2.ph →
      StageRel net laws ph0 (l.foldl (fun ks p =>
        let (r, s) := callRates laws p ks.2
        (fun f => if f ∈ p.outs then r f else ks.1 f, s)) ks).2.ph := by
    intro l
    induction l with
    | nil => intro _ ks h; exact h
    | cons p l ih =>
      intro hl ks hk
      rw [List.foldl_cons]
      refine ih (fun hn q hq => hl hn q (by simp [hq])) _ ?_
      exact hk.injCont p.src (fun hn => hl hn p (by simp) _ _)
  apply key
  · intro hn p hp
    rw [List.mem_flatMap] at hp
    obtain ⟨b, hb, hp⟩ := hp
    exact hn b hb p hp
  · exact h

theorem StageRel.constrainRates {net : Net K} {laws : Laws K σ} {ph0 : Phys K} {s : Sys K σ} {dt : K} {k : Nat → K}
    (h : StageRel net laws ph0 s.ph) {r : (Nat → K) × Sys K σ} (hr : constrainRates net dt k s = .ok r) :
    StageRel net laws ph0 r.2.ph := by
  rw [(constrainRates_ph hr).1]; exact h

theorem StageRel.evaluateConstrained {net : Net K} {laws : Laws K σ} {ph0 : Phys K} {s : Sys K σ} {dt : K}
    (h : StageRel net laws ph0 s.ph) {r : (Nat → K) × Sys K σ} (hr : evaluateConstrained net laws dt s = .ok r) :
    StageRel net laws ph0 r.2.ph := by
  unfold HB.evaluateConstrained at hr
  exact h.evaluate.constrainRates hr

theorem StageRel.readCont {net : Net K} {laws : Laws K σ} {ph0 ph : Phys K} (h : StageRel net laws ph0 ph) {c : Nat}
    (hc : c ∈ net.solverConts) : StageRel net laws ph0 (readCont net ph (c, false)) := by
  refine ⟨fun c' => ?_, h.amt, h.logs, h.snap⟩
  obtain ⟨d, e, hd, hd', he, hn⟩ := h.cont c'
  by_cases hcc : c' = c
  · subst hcc
    refine ⟨if (ph0.cont c').infinite then d else d + sumIncoming net ph c', e, ?_, fun hn => absurd hc hn, he, hn⟩
    · simp only [HB.readCont, upd_same, Bool.false_eq_true, if_false, hd]
      exact Cont.addDyn_setDyn (ph0.cont c') d e (sumIncoming net ph c')
  · exact ⟨d, e, by simp [HB.readCont, upd_ne _ _ hcc, hd], hd', he, hn⟩

theorem StageRel.applyChange {net : Net K} {laws : Laws K σ} {ph0 ph : Phys K} (h : StageRel net laws ph0 ph) {dt : K}
    {src f : Nat} {r : K} (hc : src ∈ net.solverConts) (hf : f ∈ net.solverOuts)
    (hi : (net.flux f).inst = false) : StageRel net laws ph0 (applyChange net dt src f r ph) := by
  rw [applyChange_eq]
  simp only [runEv, updateFlux, hi]
  refine ⟨fun c' => ?_, fun f' hf' => ?_, h.logs, h.snap⟩
  · obtain ⟨d, e, hd, hd', he, hn⟩ := h.cont c'
    by_cases hcc : c' = src
    · subst hcc
      refine ⟨if (ph0.cont c').infinite then d else d - vol dt r, e, ?_, fun hn => absurd hc hn, he, hn⟩
      simp only [Bool.false_eq_true, if_false, upd_same, hd]
      exact Cont.subDyn_setDyn (ph0.cont c') d e (vol dt r)
    · exact ⟨d, e, by simp [upd_ne _ _ hcc, hd], hd', he, hn⟩
  · have : f' ≠ f := fun e => hf' (e ▸ hf)
    simp [upd_ne _ _ this, h.amt f' hf']

theorem StageRel.foldl {α : Type} {net : Net K} {laws : Laws K σ} {ph0 : Phys K} (g : Phys K → α → Phys K)
    (l : List α) (hg : ∀ ph, ∀ a ∈ l, StageRel net laws ph0 ph → StageRel net laws ph0 (g ph a)) (ph : Phys K)
    (h : StageRel net laws ph0 ph) : StageRel net laws ph0 (l.foldl g ph) := by
  induction l generalizing ph with
  | nil => exact h
  | cons a l ih =>
    exact ih (fun ph b hb => hg ph b (by simp [hb])) _ (hg ph a (by simp) h)

theorem StageRel.applyRates {net : Net K} {laws : Laws K σ} (hw : StageOK net) {ph0 : Phys K} {s : Sys K σ}
    (h : StageRel net laws ph0 s.ph) (dt : K) (k : Nat → K) :
    StageRel net laws ph0 (applyRates net dt k s).ph := by
  refine StageRel.foldl _ net.solver (fun ph b hb h => ?_) _ h
  have hmem : ∀ c ∈ b.conts.map (·.1), c ∈ net.solverConts := fun c hc =>
    List.mem_flatMap.2 ⟨b, hb, hc⟩
  refine StageRel.foldl _ b.procs (fun ph p hp h => ?_) _ ?_
  · refine StageRel.foldl _ p.outs (fun ph f hf h => ?_) _ h
    have hf' : f ∈ net.solverOuts :=
      List.mem_flatMap.2 ⟨b, hb, List.mem_flatMap.2 ⟨p, hp, hf⟩⟩
    exact h.applyChange (hmem _ (hw.own b hb p hp)) hf' (hw.notInst f hf')
  · refine StageRel.foldl _ b.conts (fun ph c hc h => ?_) _ h
    have : c = (c.1, false) := by ext <;> simp [hw.dynamic b hb c hc]
    rw [this]
    exact h.readCont (hmem _ (List.mem_map_of_mem hc))

theorem StageRel.mapDyn {net : Net K} {laws : Laws K σ} {ph0 : Phys K} {s : Sys K σ} (h : StageRel net laws ph0 s.ph)
    (g : K → K) : StageRel net laws ph0 (mapDyn net g s).ph := by
  refine ⟨fun c => ?_, h.amt, h.logs, h.snap⟩
  obtain ⟨d, e, hd, hd', he, hn⟩ := h.cont c
  by_cases hc : c ∈ net.solverConts
  · refine ⟨g d, e, ?_, fun hn => absurd hc hn, he, hn⟩
    simp only [HB.mapDyn, hc, if_true, hd]
    rfl
  · exact ⟨d, e, by simp [HB.mapDyn, hc, hd], hd', he, hn⟩

/-- The solved containers carry no pending dynamic change (true after every `Finalize`). -/
def Settled (net : Net K) (ph : Phys K) : Prop := ∀ c ∈ net.solverConts, (ph.cont c).dyn = 0

/-- The state handed to the final pass of a solver: the containers and counters of the start of the step, except for the
water injected by exchange processes during the evaluations (booked in the static change of a container and in its exchange
counter), and the amounts of the start of the step, except those of the solved fluxes. -/
structure BeforeFinal (net : Net K) (laws : Laws K σ) (ph0 ph : Phys K) : Prop where
  cont : ∀ c, ∃ e, ph.cont c = { ph0.cont c with stat := e } ∧ ph.exch c = ph0.exch c + (e - (ph0.cont c).stat) ∧
    (NoInject net laws → e = (ph0.cont c).stat)
  amt : ∀ f, f ∉ net.solverOuts → ph.amt f = ph0.amt f
  logs : ph.logs = ph0.logs
  snap : ph.snap = ph0.snap

theorem BeforeFinal.refl (net : Net K) (laws : Laws K σ) (ph : Phys K) : BeforeFinal net laws ph ph :=
  ⟨fun c => ⟨(ph.cont c).stat, rfl, by simp, fun _ => rfl⟩, fun _ _ => rfl, rfl, rfl⟩

theorem BeforeFinal.still {net : Net K} {laws : Laws K σ} {ph0 ph : Phys K} (h : BeforeFinal net laws ph0 ph)
    (hn : NoInject net laws) : ph.cont = ph0.cont := by
  funext c
  obtain ⟨e, hc, -, he⟩ := h.cont c
  rw [hc, he hn]

theorem BeforeFinal.infinite {net : Net K} {laws : Laws K σ} {ph0 ph : Phys K} (h : BeforeFinal net laws ph0 ph) (c : Nat) :
    (ph.cont c).infinite = (ph0.cont c).infinite := by
  obtain ⟨e, hc, -, -⟩ := h.cont c
  rw [hc]

theorem BeforeFinal.dyn {net : Net K} {laws : Laws K σ} {ph0 ph : Phys K} (h : BeforeFinal net laws ph0 ph) (c : Nat) :
    (ph.cont c).dyn = (ph0.cont c).dyn := by
  obtain ⟨e, hc, -, -⟩ := h.cont c
  rw [hc]

theorem StageRel.beforeFinal {net : Net K} {laws : Laws K σ} {ph0 : Phys K} {s : Sys K σ} (h : StageRel net laws ph0 s.ph)
    (h0 : Settled net ph0) : BeforeFinal net laws ph0 (resetState net s).ph := by
  refine ⟨fun c => ?_, (h.mapDyn _).amt, h.logs, h.snap⟩
  obtain ⟨d, e, hd, hd', he, hn⟩ := h.cont c
  refine ⟨e, ?_, he, hn⟩
  by_cases hc : c ∈ net.solverConts
  · have := h0 c hc
    simp only [resetState, HB.mapDyn, hc, if_true, hd, Cont.setDyn]
    rw [this]
  · simp [resetState, HB.mapDyn, hc, hd, hd' hc, Cont.setDyn]

/-- Without trial stages nothing but the injected water changes before the final pass. -/
theorem BeforeFinal.evaluate {net : Net K} {laws : Laws K σ} {ph0 : Phys K} {s : Sys K σ} (h : BeforeFinal net laws ph0 s.ph) :
    BeforeFinal net laws ph0 (evaluate net laws s).2.ph := by
  unfold HB.evaluate
  have inj : ∀ (ph : Phys K) (c : Nat) (x : K), BeforeFinal net laws ph0 ph → (NoInject net laws → x = 0) →
      BeforeFinal net laws ph0 (injCont ph c x) := by
    intro ph c x h hx
    refine ⟨fun c' => ?_, h.amt, h.logs, h.snap⟩
    obtain ⟨e, hd, he, hn⟩ := h.cont c'
    by_cases hcc : c' = c
    · subst hcc
      refine ⟨if (ph0.cont c').infinite then e else e + x, ?_, ?_, fun hni => ?_⟩
      · simp only [HB.injCont, upd_same, hd, Cont.addStat]; split <;> rfl
      · simp only [HB.injCont, upd_same, hd, he, Cont.addStat]
        split <;> dsimp only <;> ring
      · rw [hn hni, hx hni]; split <;> simp
    · exact ⟨e, by simp [HB.injCont, upd_ne _ _ hcc, hd], by simp [HB.injCont, upd_ne _ _ hcc, he], hn⟩
  have key : ∀ (l : List Proc), (NoInject net laws → ∀ p ∈ l, ∀ h ph, (laws.rates p.pid h ph).2.1 = 0) →
      ∀ ks : (Nat → K) × Sys K σ, BeforeFinal net laws ph0 ks.2.ph →
      BeforeFinal net laws ph0 (l.foldl (fun ks p =>
        let (r, s) := callRates laws p ks.2
        (fun f => if f ∈ p.outs then r f else ks.1 f, s)) ks).2.ph := by
    intro l
    induction l with
    | nil => intro _ ks h; exact h
    | cons p l ih =>
      intro hl ks hk
      rw [List.foldl_cons]
      refine ih (fun hn q hq => hl hn q (by simp [hq])) _ ?_
      exact inj _ p.src _ hk (fun hn => hl hn p (by simp) _ _)
  apply key
  · intro hn p hp
    rw [List.mem_flatMap] at hp
    obtain ⟨b, hb, hp⟩ := hp
    exact hn b hb p hp
  · exact h

theorem solveEuler_final {net : Net K} {laws : Laws K σ} {dt : K}
    {s s' : Sys K σ} (h : solveEuler net laws dt s = .ok s') :
    ∃ (k : Nat → K) (s0 : Sys K σ), BeforeFinal net laws s.ph s0.ph ∧
      s' = finalizeTimeStep net laws (applyRates net dt k s0) := by
  unfold solveEuler at h
  cases h1 : evaluateConstrained net laws dt s with
  | error e => rw [h1] at h; simp [bind, Except.bind] at h
  | ok r =>
    rw [h1] at h
    simp only [bind, Except.bind, pure, Except.pure, Except.ok.injEq] at h
    subst h
    refine ⟨r.1, r.2, ?_, rfl⟩
    unfold evaluateConstrained at h1
    rw [(constrainRates_ph h1).1]
    exact (BeforeFinal.refl net laws s.ph).evaluate

theorem solveHeun_final {net : Net K} {laws : Laws K σ} (hw : StageOK net) {dt : K} {s s' : Sys K σ} (h0 : Settled net s.ph)
    (h : solveHeun net laws dt s = .ok s') :
    ∃ (k : Nat → K) (s0 : Sys K σ), BeforeFinal net laws s.ph s0.ph ∧
      s' = finalizeTimeStep net laws (applyRates net dt k s0) := by
  unfold solveHeun at h
  cases h1 : evaluateConstrained net laws dt s with
  | error e => rw [h1] at h; simp [bind, Except.bind] at h
  | ok r1 =>
    rw [h1] at h
    simp only [bind, Except.bind] at h
    have e1 : StageRel net laws s.ph r1.2.ph := (StageRel.refl net laws s.ph).evaluateConstrained h1
    have e2 := e1.applyRates hw dt r1.1
    have e3 : StageRel net laws s.ph (evaluate net laws (applyRates net dt r1.1 r1.2)).2.ph := e2.evaluate
    cases h4 : constrainRates net dt
        (fun f => (r1.1 f + (evaluate net laws (applyRates net dt r1.1 r1.2)).1 f) / 2)
        (resetState net (evaluate net laws (applyRates net dt r1.1 r1.2)).2) with
    | error e => rw [h4] at h; simp at h
    | ok r2 =>
      rw [h4] at h
      simp only [pure, Except.pure, Except.ok.injEq] at h
      subst h
      refine ⟨r2.1, r2.2, ?_, rfl⟩
      rw [(constrainRates_ph h4).1]
      exact e3.beforeFinal h0

theorem solveRK4_final {net : Net K} {laws : Laws K σ} (hw : StageOK net) {dt : K} {s s' : Sys K σ} (h0 : Settled net s.ph)
    (h : solveRK4 net laws dt s = .ok s') :
    ∃ (k : Nat → K) (s0 : Sys K σ), BeforeFinal net laws s.ph s0.ph ∧
      s' = finalizeTimeStep net laws (applyRates net dt k s0) := by
  unfold solveRK4 at h
  cases h1 : evaluateConstrained net laws dt s with
  | error e => rw [h1] at h; simp [bind, Except.bind] at h
  | ok r1 =>
    rw [h1] at h
    simp only [bind, Except.bind] at h
    have e1 : StageRel net laws s.ph r1.2.ph := (StageRel.refl net laws s.ph).evaluateConstrained h1
    have e2 := (e1.applyRates hw dt r1.1).mapDyn (fun x => x * (1 / 2))
    generalize hsa : halveState net (applyRates net dt r1.1 r1.2) = sa at h
    have e2' : StageRel net laws s.ph sa.ph := by rw [← hsa]; exact e2
    have e3 : StageRel net laws s.ph (resetState net (evaluate net laws sa).2).ph := e2'.evaluate.mapDyn _
    cases h4 : constrainRates net dt (evaluate net laws sa).1
        (resetState net (evaluate net laws sa).2) with
    | error e => rw [h4] at h; simp at h
    | ok r2 =>
      rw [h4] at h
      simp only at h
      have e4 : StageRel net laws s.ph r2.2.ph := by rw [(constrainRates_ph h4).1]; exact e3
      have e5 := (e4.applyRates hw dt r2.1).mapDyn (fun x => x * (1 / 2))
      generalize hsb : halveState net (applyRates net dt r2.1 r2.2) = sb at h
      have e5' : StageRel net laws s.ph sb.ph := by rw [← hsb]; exact e5
      have e6 : StageRel net laws s.ph (resetState net (evaluate net laws sb).2).ph := e5'.evaluate.mapDyn _
      cases h5 : constrainRates net dt (evaluate net laws sb).1
          (resetState net (evaluate net laws sb).2) with
      | error e => rw [h5] at h; simp at h
      | ok r3 =>
        rw [h5] at h
        simp only at h
        have e7 : StageRel net laws s.ph r3.2.ph := by rw [(constrainRates_ph h5).1]; exact e6
        have e8 := e7.applyRates hw dt r3.1
        generalize hsc : applyRates net dt r3.1 r3.2 = sc at h
        have e8' : StageRel net laws s.ph sc.ph := by rw [← hsc]; exact e8
        have e9 : StageRel net laws s.ph (evaluate net laws sc).2.ph := e8'.evaluate
        cases h6 : constrainRates net dt
            (fun f => (r1.1 f + 2 * r2.1 f + 2 * r3.1 f + (evaluate net laws sc).1 f) / 6)
            (resetState net (evaluate net laws sc).2) with
        | error e => rw [h6] at h; simp at h
        | ok r4 =>
          rw [h6] at h
          simp only [pure, Except.pure, Except.ok.injEq] at h
          subst h
          refine ⟨r4.1, r4.2, ?_, rfl⟩
          rw [(constrainRates_ph h6).1]
          exact e9.beforeFinal h0

theorem seqBrick_does {net : Net K} {law : SeqLaw K σ} {dt : K} {b : Brick} {s s' : Sys K σ}
    (h : seqBrick net law dt s b = .ok s') :
    Does net b.schedSolve s.ph s'.ph := by
  unfold seqBrick at h
  dsimp only at h
  generalize (law b dt _ _ s.hid s.ph).2.1 = x at h
  generalize hs1 : ({ ph := _, rate := _, hid := _ } : Sys K σ) = s1 at h
  cases hc : (b.conts.map (·.1)).foldlM (constrainCont net dt b) s1 with
  | error e => rw [hc] at h; simp [bind, Except.bind] at h
  | ok s2 =>
    rw [hc] at h
    simp only [bind, Except.bind, pure, Except.pure, Except.ok.injEq] at h
    subst h
    have e := (foldlM_ph _ (fun _ _ _ hc => constrainCont_ph hc) _ _ _ hc).1
    have h1 : s1.ph = b.procs.foldl (fun ph p => injCont ph p.src (x p.pid)) s.ph := by rw [← hs1]
    have hi : Does net (b.procs.map fun p => Sh.inj p.src) s.ph s1.ph := by
      rw [h1]
      have := Does.foldl (net := net) (fun p : Proc => [Sh.inj p.src]) (fun ph p => injCont ph p.src (x p.pid))
        (fun ph p => Does.single net (.inj p.src) (x p.pid) ph) b.procs s.ph
      simpa [flatMap_single] using this
    rw [← e] at hi
    refine hi.append ((readInputs_does net b s2.ph).append ?_)
    exact Does.foldl (net := net) Proc.schedOut _ (fun ph p => applyProc_does net dt p _ ph) b.procs _

theorem solveSequential_does {net : Net K} {laws : Laws K σ} {law : SeqLaw K σ} {dt : K}
    {s s' : Sys K σ} (h : solveSequential net laws law dt s = .ok s') :
    Does net net.schedSolve s.ph s'.ph := by
  unfold solveSequential at h
  cases hc : net.solver.foldlM (seqBrick net law dt) s with
  | error e => rw [hc] at h; simp [bind, Except.bind] at h
  | ok s2 =>
    rw [hc] at h
    simp only [bind, Except.bind, pure, Except.pure, Except.ok.injEq] at h
    subst h
    exact (Does.foldlM (net := net) _ _ net.solver (fun _ _ _ _ hp => seqBrick_does hp) s s2 hc).append
      (finalizeTimeStep_does net laws s2)

/-- Does the scheme run trial stages before its final pass? -/
def Scheme.staged : Scheme K σ → Bool
  | .heun | .rk4 => true
  | _ => false

theorem final_does {net : Net K} {laws : Laws K σ} {dt : K} {s s' : Sys K σ}
    (h : ∃ (k : Nat → K) (s0 : Sys K σ), BeforeFinal net laws s.ph s0.ph ∧ s' = finalizeTimeStep net laws (applyRates net dt k s0)) :
    ∃ ph, BeforeFinal net laws s.ph ph ∧ Does net net.schedSolve ph s'.ph := by
  obtain ⟨k, s0, hb, rfl⟩ := h
  exact ⟨s0.ph, hb, finalPass_does net laws dt k s0⟩

/-- Every solver: the final pass starts from the start-of-step containers (plus the injected water) and follows the static
schedule. -/
theorem solve_does {net : Net K} {laws : Laws K σ} {sch : Scheme K σ}
    {dt : K} {s s' : Sys K σ} (hw : sch.staged = true → StageOK net ∧ Settled net s.ph)
    (h : solve net laws dt s sch = .ok s') :
    ∃ ph, BeforeFinal net laws s.ph ph ∧ Does net net.schedSolve ph s'.ph := by
  cases sch with
  | euler => exact final_does (solveEuler_final h)
  | heun => exact final_does (solveHeun_final (hw rfl).1 (hw rfl).2 h)
  | rk4 => exact final_does (solveRK4_final (hw rfl).1 (hw rfl).2 h)
  | sequential law => exact ⟨s.ph, BeforeFinal.refl _ _ _, solveSequential_does h⟩

end HB
