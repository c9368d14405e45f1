import Verif.Spec.Exchange
import Verif.Props.Balance
import Verif.Props.PredefinedExamples

/-!
# C69: groundwater exchange
-/

set_option linter.unusedSectionVars false

namespace HB

open HB.Wire

variable {K σ : Type} [Field K] [LinearOrder K] [IsStrictOrderedRing K]

/-- From `ph` to `ph'` the exchange counter of `c` grows by `d` (by nothing if `c` is inexhaustible). -/
def Adds (c : ℕ) (d : K) (ph ph' : Phys K) : Prop :=
  (ph'.cont c).infinite = (ph.cont c).infinite ∧ ph'.exch c = ph.exch c + if (ph.cont c).infinite then 0 else d

namespace Adds

theorem refl (c : ℕ) (ph : Phys K) : Adds c 0 ph ph := ⟨rfl, by simp⟩

theorem trans {c : ℕ} {d e : K} {p q r : Phys K} (h1 : Adds c d p q) (h2 : Adds c e q r) : Adds c (d + e) p r := by
  refine ⟨h2.1.trans h1.1, ?_⟩
  rw [h2.2, h1.2, h1.1]
  split <;> ring

theorem zero {c : ℕ} {d : K} {p q r : Phys K} (h1 : Adds c d p q) (h2 : Adds c 0 q r) : Adds c d p r := by
  have := h1.trans h2
  rwa [add_zero] at this

theorem inj (c : ℕ) (ph : Phys K) (src : ℕ) (x : K) : Adds c (if src = c then x else 0) ph (injCont ph src x) := by
  by_cases h : src = c
  · subst h
    refine ⟨?_, ?_⟩
    · simp only [injCont, upd_same, Cont.addStat]; split <;> rfl
    · simp only [injCont, upd_same, Cont.addStat, if_true]
      split <;> ring
  · exact ⟨by simp [injCont, upd_ne _ _ (Ne.symm h)], by simp [injCont, upd_ne _ _ (Ne.symm h), h]⟩

/-- A schedule without injections. -/
theorem of_does {net : Net K} {l : List Sh} {p p' : Phys K} (hl : ∀ sh ∈ l, ∀ c, sh ≠ Sh.inj c) (hd : Does net l p p') (c : ℕ) :
    Adds c 0 p p' := by
  refine ⟨does_infinite hd c, ?_⟩
  obtain ⟨tr, rfl, rfl⟩ := hd
  induction tr generalizing p with
  | nil => simp [runTr]
  | cons ev tr ih =>
    obtain ⟨sh, x⟩ := ev
    have e : runTr net p ((sh, x) :: tr) = runTr net (runEv net p (sh, x)) tr := rfl
    have hi := ih (p := runEv net p (sh, x)) (fun a ha => hl a (by simp at ha ⊢; exact Or.inr ha))
    rw [e, hi]
    have hu : ∀ f, (updateFlux net p f x).exch = p.exch := by
      intro f; unfold updateFlux; dsimp only; split
      · split <;> rfl
      · rfl
    have hx : (runEv net p (sh, x)).exch = p.exch := by
      cases sh with
      | ext f => exact hu f
      | out src f => exact hu f
      | read c st => rfl
      | inj c => exact absurd rfl (hl (.inj c) (by simp) c)
      | fin c => rfl
    rw [hx]
    simp

theorem applyRates (net : Net K) (dt : K) (k : ℕ → K) (s : Sys K σ) (c : ℕ) : Adds c 0 s.ph (applyRates net dt k s).ph := by
  refine ⟨does_infinite (applyRates_does net dt k s) c, ?_⟩
  rw [applyRates_exch]; simp

theorem finalize (net : Net K) (laws : Laws K σ) (s : Sys K σ) (c : ℕ) : Adds c 0 s.ph (finalizeTimeStep net laws s).ph := by
  refine ⟨does_infinite (finalizeTimeStep_does net laws s) c, ?_⟩
  rw [finalizeTimeStep_exch]; simp

theorem mapDyn (net : Net K) (g : K → K) (s : Sys K σ) (c : ℕ) : Adds c 0 s.ph (mapDyn net g s).ph := by
  refine ⟨?_, by simp [HB.mapDyn]⟩
  simp only [HB.mapDyn]; split <;> rfl

theorem constrainRates {net : Net K} {dt : K} {k : ℕ → K} {s : Sys K σ} {r : (ℕ → K) × Sys K σ} (h : constrainRates net dt k s = .ok r)
    (c : ℕ) : Adds c 0 s.ph r.2.ph := by rw [(constrainRates_ph h).1]; exact refl c _

theorem evaluate {net : Net K} {laws : Laws K σ} {x : ℕ → K}
    (hx : ∀ p ∈ Spec.solvedProcs net, ∀ h ph, (laws.rates p.pid h ph).2.1 = x p.pid) (s : Sys K σ) (c : ℕ) :
    Adds c (Spec.addedTo (Spec.solvedProcs net) x c) s.ph (evaluate net laws s).2.ph := by
  unfold HB.evaluate
  have key : ∀ (l : List Proc), (∀ p ∈ l, ∀ h ph, (laws.rates p.pid h ph).2.1 = x p.pid) →
      ∀ ks : (ℕ → K) × Sys K σ, Adds c (Spec.addedTo l x c) ks.2.ph
        (l.foldl (fun ks p =>
          let (r, s) := callRates laws p ks.2
          (fun f => if f ∈ p.outs then r f else ks.1 f, s)) ks).2.ph := by
    intro l
    induction l with
    | nil => intro _ ks; exact refl c _
    | cons p l ih =>
      intro hl ks
      rw [List.foldl_cons]
      have h1 : Adds c (if p.src = c then x p.pid else 0) ks.2.ph (callRates laws p ks.2).2.ph := by
        rw [← hl p (by simp) ks.2.hid ks.2.ph]; exact inj c _ _ _
      exact h1.trans (ih (fun q hq => hl q (by simp [hq])) _)
  exact key _ hx _

end Adds

theorem solve_adds {net : Net K} {laws : Laws K σ} {x : ℕ → K}
    (hx : ∀ p ∈ Spec.solvedProcs net, ∀ h ph, (laws.rates p.pid h ph).2.1 = x p.pid) {sch : Scheme K σ} {n : ℕ}
    (hs : Spec.evaluations sch = some n) {dt : K} {s s' : Sys K σ} (h : solve net laws dt s sch = .ok s') (c : ℕ) :
    Adds c (n * Spec.addedTo (Spec.solvedProcs net) x c) s.ph s'.ph := by
  have ev := fun s => Adds.evaluate (net := net) hx (s := s) c
  have evc : ∀ (s : Sys K σ) r, evaluateConstrained net laws dt s = .ok r →
      Adds c (Spec.addedTo (Spec.solvedProcs net) x c) s.ph r.2.ph := fun s r hr => by
    unfold evaluateConstrained at hr
    exact (ev s).zero (Adds.constrainRates hr c)
  cases sch with
  | euler =>
    cases hs
    simp only [solve, solveEuler] at h
    cases h1 : evaluateConstrained net laws dt s with
    | error e => rw [h1] at h; simp [bind, Except.bind] at h
    | ok r =>
      rw [h1] at h
      simp only [bind, Except.bind, pure, Except.pure, Except.ok.injEq] at h
      subst h
      have := ((evc s r h1).zero (Adds.applyRates net dt r.1 r.2 c)).zero (Adds.finalize net laws _ c)
      simpa using this
  | heun =>
    cases hs
    simp only [solve, solveHeun] at h
    cases h1 : evaluateConstrained net laws dt s with
    | error e => rw [h1] at h; simp [bind, Except.bind] at h
    | ok r1 =>
      rw [h1] at h
      simp only [bind, Except.bind] at h
      have e1 := (evc s r1 h1).zero (Adds.applyRates net dt r1.1 r1.2 c)
      have e2 := (e1.trans (ev _)).zero (Adds.mapDyn net (fun _ => 0) _ c)
      cases h4 : constrainRates net dt
          (fun f => (r1.1 f + (evaluate net laws (applyRates net dt r1.1 r1.2)).1 f) / 2)
          (resetState net (evaluate net laws (applyRates net dt r1.1 r1.2)).2) with
      | error e => rw [h4] at h; simp at h
      | ok r2 =>
        rw [h4] at h
        simp only [pure, Except.pure, Except.ok.injEq] at h
        subst h
        have := ((e2.zero (Adds.constrainRates h4 c)).zero (Adds.applyRates net dt r2.1 r2.2 c)).zero (Adds.finalize net laws _ c)
        rw [← two_mul] at this
        simpa using this
  | rk4 =>
    cases hs
    simp only [solve, solveRK4] at h
    cases h1 : evaluateConstrained net laws dt s with
    | error e => rw [h1] at h; simp [bind, Except.bind] at h
    | ok r1 =>
      rw [h1] at h
      simp only [bind, Except.bind] at h
      have e2 := ((evc s r1 h1).zero (Adds.applyRates net dt r1.1 r1.2 c)).zero (Adds.mapDyn net (fun x => x * (1 / 2)) _ c)
      generalize hsa : halveState net (applyRates net dt r1.1 r1.2) = sa at h
      have e2' := e2
      change Adds c _ s.ph (halveState net _).ph at e2'
      rw [hsa] at e2'
      have e3 := (e2'.trans (ev sa)).zero (Adds.mapDyn net (fun _ => 0) _ c)
      cases h4 : constrainRates net dt (evaluate net laws sa).1
          (resetState net (evaluate net laws sa).2) with
      | error e => rw [h4] at h; simp at h
      | ok r2 =>
        rw [h4] at h
        simp only at h
        have e5 := ((e3.zero (Adds.constrainRates h4 c)).zero (Adds.applyRates net dt r2.1 r2.2 c)).zero
          (Adds.mapDyn net (fun x => x * (1 / 2)) _ c)
        generalize hsb : halveState net (applyRates net dt r2.1 r2.2) = sb at h
        have e5' := e5
        change Adds c _ s.ph (halveState net _).ph at e5'
        rw [hsb] at e5'
        have e6 := (e5'.trans (ev sb)).zero (Adds.mapDyn net (fun _ => 0) _ c)
        cases h5 : constrainRates net dt (evaluate net laws sb).1
            (resetState net (evaluate net laws sb).2) with
        | error e => rw [h5] at h; simp at h
        | ok r3 =>
          rw [h5] at h
          simp only at h
          have e8 := (e6.zero (Adds.constrainRates h5 c)).zero (Adds.applyRates net dt r3.1 r3.2 c)
          generalize hsc : applyRates net dt r3.1 r3.2 = sc at h
          have e8' := e8
          rw [hsc] at e8'
          have e9 := (e8'.trans (ev sc)).zero (Adds.mapDyn net (fun _ => 0) _ c)
          cases h6 : constrainRates net dt
              (fun f => (r1.1 f + 2 * r2.1 f + 2 * r3.1 f + (evaluate net laws sc).1 f) / 6)
              (resetState net (evaluate net laws sc).2) with
          | error e => rw [h6] at h; simp at h
          | ok r4 =>
            rw [h6] at h
            simp only [pure, Except.pure, Except.ok.injEq] at h
            subst h
            have := ((e9.zero (Adds.constrainRates h6 c)).zero (Adds.applyRates net dt r4.1 r4.2 c)).zero (Adds.finalize net laws _ c)
            convert this using 1
            push_cast; ring
  | sequential law => cases hs

theorem foldlM_adds {α : Type} (d : α → K) (g : Sys K σ → α → Except Err (Sys K σ)) (c : ℕ) (l : List α)
    (h : ∀ s s', ∀ a ∈ l, g s a = .ok s' → Adds c (d a) s.ph s'.ph) (s s' : Sys K σ) (hs : l.foldlM g s = .ok s') :
    Adds c (l.map d).sum s.ph s'.ph := by
  induction l generalizing s with
  | nil =>
    simp only [List.foldlM_nil, pure, Except.pure, Except.ok.injEq] at hs
    subst hs; exact Adds.refl c _
  | cons a l ih =>
    rw [List.foldlM_cons] at hs
    cases hg : g s a with
    | error e => rw [hg] at hs; simp [bind, Except.bind] at hs
    | ok s1 =>
      rw [hg] at hs
      rw [List.map_cons, List.sum_cons]
      exact (h s s1 a (by simp) hg).trans (ih (fun s s' b hb => h s s' b (by simp [hb])) s1 hs)

theorem direct_adds {net : Net K} {laws : Laws K σ} {x : ℕ → K}
    (hx : ∀ p ∈ Spec.directProcs net, ∀ h ph, (laws.rates p.pid h ph).2.1 = x p.pid) {dt : K} {s s' : Sys K σ}
    (h : directPhase net laws dt s = .ok s') (c : ℕ) : Adds c (Spec.addedTo (Spec.directProcs net) x c) s.ph s'.ph := by
  have hproc : ∀ (b : Brick) (p : Proc), (∀ h ph, (laws.rates p.pid h ph).2.1 = x p.pid) → ∀ s s' : Sys K σ,
      directProc net laws dt b s p = .ok s' → Adds c (if p.src = c then x p.pid else 0) s.ph s'.ph := by
    intro b p hp s s' h
    unfold directProc callRates at h
    dsimp only at h
    rw [hp] at h
    generalize hs1 : ({ ph := injCont s.ph p.src (x p.pid), rate := _, hid := _ } : Sys K σ) = s1 at h
    cases hc : constrainCont net dt b s1 p.src with
    | error e => rw [hc] at h; simp [bind, Except.bind] at h
    | ok s2 =>
      rw [hc] at h
      simp only [bind, Except.bind, pure, Except.pure, Except.ok.injEq] at h
      subst h
      have h1 : Adds c (if p.src = c then x p.pid else 0) s.ph s2.ph := by
        rw [(constrainCont_ph hc).1, ← hs1]; exact Adds.inj c _ _ _
      refine h1.zero (Adds.of_does ?_ (applyProc_does net dt p _ _) c)
      intro sh hsh c' e
      subst e
      simp [Proc.schedOut] at hsh
  have hbrick : ∀ (b : Brick), (∀ p ∈ b.procs, ∀ h ph, (laws.rates p.pid h ph).2.1 = x p.pid) → ∀ s s' : Sys K σ,
      directBrick net laws dt s b = .ok s' → Adds c (Spec.addedTo b.procs x c) s.ph s'.ph := by
    intro b hb s s' h
    unfold directBrick at h
    dsimp only at h
    generalize hs1 : ({ ph := readInputs net b s.ph, rate := _, hid := _ } : Sys K σ) = s1 at h
    cases hc : b.procs.foldlM (directProc net laws dt b) s1 with
    | error e => rw [hc] at h; simp [bind, Except.bind] at h
    | ok s2 =>
      rw [hc] at h
      simp only [bind, Except.bind, pure, Except.pure, Except.ok.injEq] at h
      subst h
      have h0 : Adds c 0 s.ph s1.ph := by
        rw [← hs1]
        refine Adds.of_does ?_ (readInputs_does net b s.ph) c
        intro sh hsh c' e
        subst e
        simp [Brick.schedRead] at hsh
      have h1 := foldlM_adds (fun p => if p.src = c then x p.pid else 0) _ c b.procs (fun s s' p hp hh => hproc b p (hb p hp) s s' hh) s1 s2 hc
      have h2 : Adds c 0 s2.ph (finBrick laws b s2).ph := by
        refine Adds.of_does ?_ (finBrick_does net laws b s2) c
        intro sh hsh c' e
        subst e
        simp [Brick.schedFin] at hsh
      have := (h0.trans h1).zero h2
      rwa [zero_add] at this
  have hunit : ∀ (u : HUnit), (∀ b ∈ u.direct.filter (!·.null), ∀ p ∈ b.procs, ∀ h ph, (laws.rates p.pid h ph).2.1 = x p.pid) →
      ∀ s s' : Sys K σ, directUnit net laws dt s u = .ok s' →
        Adds c (Spec.addedTo ((u.direct.filter (!·.null)).flatMap (·.procs)) x c) s.ph s'.ph := by
    intro u hu s s' h
    unfold directUnit at h
    have h0 : Adds c 0 s.ph (u.splitters.foldl (runSplitter net laws) s).ph := by
      refine Adds.of_does ?_ (Does.foldlS (net := net) (fun sp : ℕ × List ℕ => sp.2.map Sh.ext)
        (runSplitter net laws) (fun s sp => runSplitter_does net laws s sp) u.splitters s) c
      intro sh hsh c' e
      subst e
      simp at hsh
    have h1 := foldlM_adds (fun b : Brick => Spec.addedTo b.procs x c) _ c _ (fun s s' b hb hh => hbrick b (hu b hb) s s' hh) _ s' h
    have e : ((u.direct.filter (!·.null)).map fun b : Brick => Spec.addedTo b.procs x c).sum =
        Spec.addedTo ((u.direct.filter (!·.null)).flatMap (·.procs)) x c := by
      unfold Spec.addedTo
      rw [List.map_flatMap, List.flatMap, List.sum_flatten, List.map_map]
      rfl
    have := h0.trans h1
    rwa [zero_add, e] at this
  unfold directPhase at h
  have h1 := foldlM_adds (fun u : HUnit => Spec.addedTo ((u.direct.filter (!·.null)).flatMap (·.procs)) x c) _ c net.units
    (fun s s' u hu hh => hunit u (fun b hb p hp => hx p (List.mem_flatMap.2 ⟨u, hu, List.mem_flatMap.2 ⟨b, hb, hp⟩⟩)) s s' hh) s s' h
  have e : (net.units.map fun u : HUnit => Spec.addedTo ((u.direct.filter (!·.null)).flatMap (·.procs)) x c).sum =
      Spec.addedTo (Spec.directProcs net) x c := by
    unfold Spec.addedTo Spec.directProcs
    rw [List.map_flatMap, List.flatMap, List.sum_flatten, List.map_map]
    rfl
  rwa [e] at h1

/-- **C69 (bricks computed directly).**  Whatever the solver's schedule, a process of a brick computed directly adds its exchange to
its store exactly once in the direct phase. -/
theorem c69_direct_once {net : Net K} {laws : Laws K σ} {x : ℕ → K} (hx : Spec.SteadyExchange net laws x) {dt : K} {s s' : Sys K σ}
    (h : directPhase net laws dt s = .ok s') (c : ℕ) (hc : (s.ph.cont c).infinite = false) :
    s'.ph.exch c = s.ph.exch c + Spec.addedTo (Spec.directProcs net) x c := by
  have := (direct_adds (fun p hp => hx p (List.mem_append_left _ hp)) h c).2
  rw [hc] at this
  simpa using this

/-- **C69 (a time step).**  Over a time step the water exchanged with a store is what the processes computed directly add, plus `n`
times what the solved processes add, where `n` is the number of evaluations of the scheme: 1 for explicit Euler, but 2 for Heun and 4
for Runge–Kutta. -/
theorem c69_exchange_per_step_partial {net : Net K} {laws : Laws K σ} {x : ℕ → K} (hx : Spec.SteadyExchange net laws x) {sch : Scheme K σ}
    {n : ℕ} (hs : Spec.evaluations sch = some n) {dt : K} {s s' : Sys K σ} (h : processTimeStep net laws sch dt s = .ok s') (c : ℕ)
    (hc : (s.ph.cont c).infinite = false) :
    s'.ph.exch c = s.ph.exch c + Spec.addedTo (Spec.directProcs net) x c + n * Spec.addedTo (Spec.solvedProcs net) x c := by
  unfold processTimeStep at h
  cases h1 : directPhase net laws dt s with
  | error e => rw [h1] at h; simp [bind, Except.bind] at h
  | ok s1 =>
    rw [h1] at h
    simp only [bind, Except.bind] at h
    have a1 := direct_adds (fun p hp => hx p (List.mem_append_left _ hp)) h1 c
    have a2 := solve_adds (fun p hp => hx p (List.mem_append_right _ hp)) hs h c
    have := (a1.trans a2).2
    rw [hc] at this
    simpa [add_assoc] using this

/-! ## GR4J and GR6J -/

/-- **C69 (GR4J and GR6J, discrete version).**  With an explicit solver, over a time step of the discrete version (the default) every
exchange is applied exactly once, since no solved process has one. -/
theorem c69_gr_once {cs : List PyCover} (h : Spec.GoodCovers cs) {o : GrOpts} (ho : Spec.GoodGr o) (hd : o.discrete = true) {inp : Input K}
    (hm : Spec.FromModel (gr o cs) inp) {m : Wire.Model K} {ext : ℕ → ℕ → K} {laws : Laws K σ} (hl : Spec.OnlyExchangersInject inp laws)
    {x : ℕ → K} (hx : Spec.SteadyExchange (Asm.asm inp m ext) laws x) {sch : Scheme K σ} {n : ℕ} (hs : Spec.evaluations sch = some n) {dt : K}
    {s s' : Sys K σ} (hrun : processTimeStep (Asm.asm inp m ext) laws sch dt s = .ok s') (c : ℕ) (hc : (s.ph.cont c).infinite = false) :
    s'.ph.exch c = s.ph.exch c + Spec.addedTo (Spec.directProcs (Asm.asm inp m ext)) x c := by
  obtain ⟨hg, hx'⟩ := gr_good h ho
  have hn : NoInject (Asm.asm inp m ext) laws := noInject hg hm (fun v hv => (hx' v hv).2 hd) hl
  have h0 : Spec.addedTo (Spec.solvedProcs (Asm.asm inp m ext)) x c = 0 := by
    unfold Spec.addedTo
    refine List.sum_eq_zero fun y hy => ?_
    obtain ⟨p, hp, rfl⟩ := List.mem_map.1 hy
    obtain ⟨b, hb, hp'⟩ := List.mem_flatMap.1 hp
    rw [← hx p (List.mem_append_right _ hp) s.hid s.ph, hn b hb p hp' s.hid s.ph, ite_self]
  rw [c69_exchange_per_step_partial hx hs hrun c hc, h0]
  ring

namespace ExchDemo

/-- GR4J in the solver version. -/
def solverVersion : GrOpts := { discrete := false }

theorem solverVersion_good : Spec.GoodGr solverVersion := by
  refine ⟨?_, ?_, ?_, by decide⟩ <;> · intro p hp; cases hp

/-- One unit of area 2. -/
def inp : Input ℚ := PreDemo.inputOf (gr solverVersion PreDemo.plainLand) [(0, 2)]

/-- One unit of area 2, discrete version. -/
def inpDiscrete : Input ℚ := PreDemo.inputOf (gr {} PreDemo.plainLand) [(0, 2)]

theorem inp_from : Spec.FromModel (gr solverVersion PreDemo.plainLand) inp := PreDemo.from_of (by decide) (by decide +kernel) (by decide)

theorem inpDiscrete_from : Spec.FromModel (gr {} PreDemo.plainLand) inpDiscrete := PreDemo.from_of (by decide) (by decide +kernel) (by decide)

theorem inp_builds : build inp = .ok (PreDemo.modelOf inp) :=
  PreDemo.modelOf_eq ((c64_gr_builds PreDemo.plain_good solverVersion_good).2 _ inp_from (fun h => absurd rfl h))

/-- Process `r` gains 1 from the groundwater each time it is evaluated; the rest as in the other examples. -/
def laws (r : ℕ) : Laws ℚ Unit := { AsmDemo.laws with rates := fun p _ _ => (fun _ => 1 / 10, if p = r then 1 else 0, ()) }

theorem steady (net : Net ℚ) (r : ℕ) : Spec.SteadyExchange net (laws r) (fun p => if p = r then 1 else 0) := fun _ _ _ _ => rfl

/-- The routing process of the model: 110 in the solver version, 30 in the discrete version. -/
theorem routing :
    (Spec.brickOf inp (.unitBrick 0 3)).map (fun b => (b.name, b.procs.map (·.type))) = some ("uh_input", ["routing:gr4j"]) ∧
    Nat.pair (Asm.compCode (.unitBrick 0 3)) 0 = 110 ∧
    (Spec.brickOf inpDiscrete (.unitBrick 0 2)).map (fun b => (b.name, b.procs.map (·.type))) = some ("uh_input", ["routing:gr4j"]) ∧
    Nat.pair (Asm.compCode (.unitBrick 0 2)) 0 = 30 :=
  ⟨by decide +kernel, by decide +kernel, by decide +kernel, by decide +kernel⟩

/-- The water exchanged in one step, over the area of the unit. -/
def exchangedIn (i : Input ℚ) (r : ℕ) (sch : Scheme ℚ Unit) : Option ℚ :=
  let m := PreDemo.modelOf i
  let ext := PreDemo.share i
  match processTimeStep (Asm.asm i m ext) (laws r) sch 1 PreDemo.start with
  | .ok s' => some ((Spec.exchangedVolume i ext (Spec.system i ext PreDemo.start.ph) s'.ph
      - Spec.exchangedVolume i ext (Spec.system i ext PreDemo.start.ph) PreDemo.start.ph) / 2)
  | .error _ => none

/-- The theorem applies to the solver version. -/
theorem applies {sch : Scheme ℚ Unit} {n : ℕ} (hs : Spec.evaluations sch = some n) {s' : Sys ℚ Unit}
    (h : processTimeStep (Asm.asm inp (PreDemo.modelOf inp) (PreDemo.share inp)) (laws 110) sch 1 PreDemo.start = .ok s') :
    s'.ph.exch 30 = n := by
  have := c69_exchange_per_step_partial (steady _ _) hs h 30 (by decide +kernel)
  have e1 : Spec.addedTo (Spec.directProcs (Asm.asm inp (PreDemo.modelOf inp) (PreDemo.share inp))) (fun p => if p = 110 then (1 : ℚ) else 0) 30 = 0 := by
    decide +kernel
  have e2 : Spec.addedTo (Spec.solvedProcs (Asm.asm inp (PreDemo.modelOf inp) (PreDemo.share inp))) (fun p => if p = 110 then (1 : ℚ) else 0) 30 = 1 := by
    decide +kernel
  rw [e1, e2] at this
  rw [this]
  change (0 : ℚ) + 0 + n * 1 = n
  ring

/-- **Finding.**  The exchange of a GR4J model of the solver version depends on the solver: a routing process that gains 1 per step
from the groundwater gains 1 with explicit Euler, 2 with Heun and 4 with Runge–Kutta.  In the discrete version it gains 1 with each. -/
theorem _root_.HB.c69_exchange_repeated : exchangedIn inp 110 .euler = some 1 ∧ exchangedIn inp 110 .heun = some 2 ∧ exchangedIn inp 110 .rk4 = some 4 ∧
    exchangedIn inpDiscrete 30 .euler = some 1 ∧ exchangedIn inpDiscrete 30 .heun = some 1 ∧ exchangedIn inpDiscrete 30 .rk4 = some 1 := by
  refine ⟨?_, ?_, ?_, ?_, ?_, ?_⟩ <;> decide +kernel

end ExchDemo

end HB
