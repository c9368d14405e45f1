import Verif.Spec.Precip
import Verif.Props.Balance

/-! # The clock stands still during a time step, and what splitters hand out stays. -/

set_option linter.unusedSectionVars false

namespace HB

variable {K σ : Type} [Field K] [LinearOrder K] [IsStrictOrderedRing K]

section
variable {laws : Laws K σ} {sch : Scheme K σ} {tick : σ → σ} {time : σ → ℕ} (hc : Spec.Clocked laws sch tick time)
include hc

theorem finBrick_time (b : Brick) (s : Sys K σ) : time (finBrick laws b s).hid = time s.hid := by
  simp only [finBrick]
  generalize (b.conts.foldl (fun ph c => finCont ph c.1) s.ph) = ph
  generalize s.hid = h
  induction b.procs generalizing h with
  | nil => rfl
  | cons p l ih => rw [List.foldl_cons, ih, hc.fin]

theorem directProc_time {net : Net K} {dt : K} {b : Brick} {s s' : Sys K σ} {p : Proc} (h : directProc net laws dt b s p = .ok s') :
    time s'.hid = time s.hid := by
  unfold directProc callRates at h
  dsimp only at h
  generalize hs1 : ({ ph := injCont s.ph p.src _, rate := _, hid := _ } : Sys K σ) = s1 at h
  cases hcc : constrainCont net dt b s1 p.src with
  | error e => rw [hcc] at h; simp [bind, Except.bind] at h
  | ok s2 =>
    rw [hcc] at h
    simp only [bind, Except.bind, pure, Except.pure, Except.ok.injEq] at h
    subst h
    rw [(constrainCont_ph hcc).2, ← hs1]
    exact hc.rates _ _ _

theorem foldlM_time {α : Type} {g : Sys K σ → α → Except Err (Sys K σ)} (hg : ∀ s s' a, g s a = .ok s' → time s'.hid = time s.hid)
    (l : List α) {s s' : Sys K σ} (h : l.foldlM g s = .ok s') : time s'.hid = time s.hid := by
  induction l generalizing s with
  | nil => simp only [List.foldlM_nil, pure, Except.pure, Except.ok.injEq] at h; rw [h]
  | cons a l ih =>
    rw [List.foldlM_cons] at h
    cases hga : g s a with
    | error e => rw [hga] at h; simp [bind, Except.bind] at h
    | ok s1 => rw [hga] at h; exact (ih h).trans (hg _ _ _ hga)

theorem foldl_time {α : Type} {g : Sys K σ → α → Sys K σ} (hg : ∀ s a, time (g s a).hid = time s.hid) (l : List α) (s : Sys K σ) :
    time (l.foldl g s).hid = time s.hid := by
  induction l generalizing s with
  | nil => rfl
  | cons a l ih => rw [List.foldl_cons, ih, hg]

theorem directBrick_time {net : Net K} {dt : K} {b : Brick} {s s' : Sys K σ} (h : directBrick net laws dt s b = .ok s') :
    time s'.hid = time s.hid := by
  unfold directBrick at h
  dsimp only at h
  generalize hs1 : ({ ph := readInputs net b s.ph, rate := _, hid := _ } : Sys K σ) = s1 at h
  cases hcc : b.procs.foldlM (directProc net laws dt b) s1 with
  | error e => rw [hcc] at h; simp [bind, Except.bind] at h
  | ok s2 =>
    rw [hcc] at h
    simp only [bind, Except.bind, pure, Except.pure, Except.ok.injEq] at h
    subst h
    rw [finBrick_time hc, foldlM_time hc (fun _ _ _ => directProc_time hc) _ hcc, ← hs1]

theorem runSplitter_time (net : Net K) (s : Sys K σ) (sp : Nat × List Nat) : time (runSplitter net laws s sp).hid = time s.hid :=
  hc.split _ _ _

theorem directUnit_time {net : Net K} {dt : K} {s s' : Sys K σ} {u : HUnit} (h : directUnit net laws dt s u = .ok s') :
    time s'.hid = time s.hid := by
  unfold directUnit at h
  rw [foldlM_time hc (fun _ _ _ => directBrick_time hc) _ h, foldl_time hc (runSplitter_time hc net)]

theorem evaluate_time (net : Net K) (s : Sys K σ) : time (evaluate net laws s).2.hid = time s.hid := by
  unfold evaluate
  have key : ∀ (l : List Proc) (ks : (Nat → K) × Sys K σ),
      time (l.foldl (fun ks p =>
        let (r, s) := callRates laws p ks.2
        (fun f => if f ∈ p.outs then r f else ks.1 f, s)) ks).2.hid = time ks.2.hid := by
    intro l
    induction l with
    | nil => intro ks; rfl
    | cons p l ih =>
      intro ks
      rw [List.foldl_cons, ih]
      exact hc.rates _ _ _
  exact key _ _

theorem evaluateConstrained_time {net : Net K} {dt : K} {s : Sys K σ} {r : (Nat → K) × Sys K σ}
    (h : evaluateConstrained net laws dt s = .ok r) : time r.2.hid = time s.hid := by
  unfold evaluateConstrained at h
  have h1 := (constrainRates_ph h).2
  rw [h1]
  exact evaluate_time hc net s

theorem finalize_time (net : Net K) (s : Sys K σ) : time (finalizeTimeStep net laws s).hid = time s.hid :=
  foldl_time hc (fun s b => finBrick_time hc b s) _ _

theorem seqBrick_time {net : Net K} {law : SeqLaw K σ} (hl : ∀ b dt c i h ph, time (law b dt c i h ph).2.2 = time h) {dt : K}
    {s s' : Sys K σ} {b : Brick} (h : seqBrick net law dt s b = .ok s') : time s'.hid = time s.hid := by
  unfold seqBrick at h
  dsimp only at h
  generalize hs1 : ({ ph := _, rate := _, hid := _ } : Sys K σ) = s1 at h
  cases hcc : (b.conts.map (·.1)).foldlM (constrainCont net dt b) s1 with
  | error e => rw [hcc] at h; simp [bind, Except.bind] at h
  | ok s2 =>
    rw [hcc] at h
    simp only [bind, Except.bind, pure, Except.pure, Except.ok.injEq] at h
    subst h
    have e := (foldlM_ph _ (fun _ _ _ hc => constrainCont_ph hc) _ _ _ hcc).2
    change time s2.hid = _
    rw [e, ← hs1]
    exact hl _ _ _ _ _ _

theorem solve_time {net : Net K} {dt : K} {s s' : Sys K σ} (h : solve net laws dt s sch = .ok s') : time s'.hid = time s.hid := by
  cases sch with
  | euler =>
    simp only [solve, solveEuler] at h
    cases h1 : evaluateConstrained net laws dt s with
    | error e => rw [h1] at h; simp [bind, Except.bind] at h
    | ok r =>
      rw [h1] at h
      simp only [bind, Except.bind, pure, Except.pure, Except.ok.injEq] at h
      subst h
      rw [finalize_time hc]
      exact evaluateConstrained_time hc h1
  | heun =>
    simp only [solve, solveHeun] at h
    cases h1 : evaluateConstrained net laws dt s with
    | error e => rw [h1] at h; simp [bind, Except.bind] at h
    | ok r =>
      rw [h1] at h
      simp only [bind, Except.bind] at h
      generalize hs2 : evaluate net laws (applyRates net dt r.1 r.2) = s2 at h
      have e2 : time s2.2.hid = time s.hid := by
        rw [← hs2, evaluate_time hc]; exact evaluateConstrained_time hc h1
      cases h2 : constrainRates net dt (fun f => (r.1 f + s2.1 f) / 2) (resetState net s2.2) with
      | error e => rw [h2] at h; simp at h
      | ok r2 =>
        rw [h2] at h
        simp only [pure, Except.pure, Except.ok.injEq] at h
        subst h
        rw [finalize_time hc]
        change time r2.2.hid = _
        rw [(constrainRates_ph h2).2]
        exact e2
  | rk4 =>
    simp only [solve, solveRK4] at h
    cases h1 : evaluateConstrained net laws dt s with
    | error e => rw [h1] at h; simp [bind, Except.bind] at h
    | ok r1 =>
      rw [h1] at h
      simp only [bind, Except.bind] at h
      have e1 := evaluateConstrained_time hc h1
      generalize hsa : evaluate net laws (halveState net (applyRates net dt r1.1 r1.2)) = sa at h
      have ea : time sa.2.hid = time s.hid := by rw [← hsa, evaluate_time hc]; exact e1
      cases h2 : constrainRates net dt sa.1 (resetState net sa.2) with
      | error e => rw [h2] at h; simp at h
      | ok r2 =>
        rw [h2] at h
        simp only at h
        have e2 : time r2.2.hid = time s.hid := by rw [(constrainRates_ph h2).2]; exact ea
        generalize hsb : evaluate net laws (halveState net (applyRates net dt r2.1 r2.2)) = sb at h
        have eb : time sb.2.hid = time s.hid := by rw [← hsb, evaluate_time hc]; exact e2
        cases h3 : constrainRates net dt sb.1 (resetState net sb.2) with
        | error e => rw [h3] at h; simp at h
        | ok r3 =>
          rw [h3] at h
          simp only at h
          have e3 : time r3.2.hid = time s.hid := by rw [(constrainRates_ph h3).2]; exact eb
          generalize hsd : evaluate net laws (applyRates net dt r3.1 r3.2) = sd at h
          have ed : time sd.2.hid = time s.hid := by rw [← hsd, evaluate_time hc]; exact e3
          cases h4 : constrainRates net dt (fun f => (r1.1 f + 2 * r2.1 f + 2 * r3.1 f + sd.1 f) / 6) (resetState net sd.2) with
          | error e => rw [h4] at h; simp at h
          | ok r4 =>
            rw [h4] at h
            simp only [pure, Except.pure, Except.ok.injEq] at h
            subst h
            rw [finalize_time hc]
            change time r4.2.hid = _
            rw [(constrainRates_ph h4).2]
            exact ed
  | sequential law =>
    simp only [solve, solveSequential] at h
    cases hcc : net.solver.foldlM (seqBrick net law dt) s with
    | error e => rw [hcc] at h; simp [bind, Except.bind] at h
    | ok s2 =>
      rw [hcc] at h
      simp only [bind, Except.bind, pure, Except.pure, Except.ok.injEq] at h
      subst h
      rw [finalize_time hc]
      exact foldlM_time hc (fun _ _ _ => seqBrick_time hc (hc.solver law rfl)) _ hcc

theorem step_time {net : Net K} {dt : K} {s s' : Sys K σ} (h : processTimeStep net laws sch dt s = .ok s') :
    time s'.hid = time s.hid := by
  unfold processTimeStep at h
  cases h1 : directPhase net laws dt s with
  | error e => rw [h1] at h; simp [bind, Except.bind] at h
  | ok s1 =>
    rw [h1] at h
    exact (solve_time hc h).trans (foldlM_time hc (fun _ _ _ => directUnit_time hc) _ h1)

/-! ## Amounts handed out -/

/-- After the splitters of a unit ran, each one's amounts are those it computed, from a state holding what the earlier ones
handed out. -/
theorem splitters_amt {net : Net K} : ∀ (l : List (Nat × List Nat)) (s : Sys K σ), (l.flatMap (·.2)).Nodup →
    (∀ f ∈ l.flatMap (·.2), ∀ x, (net.flux f).scale x = x) → ∀ (j : ℕ) (sp : Nat × List Nat), l[j]? = some sp →
    ∃ h ph, time h = time s.hid ∧ (∀ f ∈ sp.2, (l.foldl (runSplitter net laws) s).ph.amt f = (laws.split sp.1 h ph).1 f) ∧
      ∀ (i : ℕ) (sq : Nat × List Nat), i < j → l[i]? = some sq → ∀ f ∈ sq.2, ph.amt f = (l.foldl (runSplitter net laws) s).ph.amt f := by
  intro l
  induction l using List.reverseRecOn with
  | nil => intro s _ _ j sp h; simp at h
  | append_singleton l a ih =>
    intro s hnd hsc j sp hj
    rw [List.flatMap_append] at hnd hsc
    simp only [List.flatMap_cons, List.flatMap_nil, List.append_nil] at hnd hsc
    obtain ⟨hn1, hn2, hn3⟩ := List.nodup_append.1 hnd
    rw [List.foldl_append, List.foldl_cons, List.foldl_nil]
    set s1 := l.foldl (runSplitter net laws) s with hs1
    have fold : ∀ (x : Nat → K) (fs : List Nat) (ph : Phys K), fs.Nodup → (∀ f ∈ fs, ∀ x, (net.flux f).scale x = x) → ∀ f,
        (fs.foldl (fun ph f => updateFlux net ph f (x f)) ph).amt f = if f ∈ fs then x f else ph.amt f := by
      intro x fs
      induction fs with
      | nil => intro ph _ _ f; rfl
      | cons g fs ih2 =>
        intro ph hnd2 hs f
        rw [List.foldl_cons, ih2 _ (List.nodup_cons.1 hnd2).2 (fun f hf => hs f (by simp [hf]))]
        by_cases hf : f ∈ fs
        · simp [hf]
        · simp only [hf, if_false, List.mem_cons, or_false]
          rw [updateFlux_amt, hs g (by simp)]
          by_cases hfg : f = g
          · subst hfg; simp [upd]
          · simp [upd, hfg]
    have hlast : ∀ f, (runSplitter net laws s1 a).ph.amt f = if f ∈ a.2 then (laws.split a.1 s1.hid s1.ph).1 f else s1.ph.amt f :=
      fold _ _ _ hn2 fun f hf => hsc f (by simp [hf])
    have hkeep : ∀ sq ∈ l, ∀ f ∈ sq.2, (runSplitter net laws s1 a).ph.amt f = s1.ph.amt f := by
      intro sq hsq f hf
      rw [hlast, if_neg]
      intro hfa
      exact hn3 f (List.mem_flatMap.2 ⟨sq, hsq, hf⟩) f hfa rfl
    by_cases hjl : j < l.length
    · rw [List.getElem?_append_left hjl] at hj
      obtain ⟨h, ph, h1, h2, h3⟩ := ih s hn1 (fun f hf => hsc f (by simp [hf])) j sp hj
      refine ⟨h, ph, h1, fun f hf => ?_, fun i sq hi hsq f hf => ?_⟩
      · rw [hkeep sp (List.mem_of_getElem? hj) f hf]; exact h2 f hf
      · rw [List.getElem?_append_left (lt_trans hi hjl)] at hsq
        rw [hkeep sq (List.mem_of_getElem? hsq) f hf]
        exact h3 i sq hi hsq f hf
    · have hjl' : j = l.length := by
        have := (List.getElem?_eq_some_iff.1 hj).1
        simp only [List.length_append, List.length_singleton] at this
        omega
      subst hjl'
      rw [List.getElem?_concat_length] at hj
      cases hj
      refine ⟨s1.hid, s1.ph, foldl_time hc (runSplitter_time hc net) _ _, fun f hf => by rw [hlast, if_pos hf], fun i sq hi hsq f hf => ?_⟩
      rw [List.getElem?_append_left hi] at hsq
      exact (hkeep sq (List.mem_of_getElem? hsq) f hf).symm

/-- At the end of the time step the amounts handed out by the splitters of a unit are those of the moment they ran. -/
theorem step_splitters {net : Net K} {g : Spec.Geo K} {S : Finset Nat} (hff : FeedForward net g.C S)
    (hw : sch.staged = true → StageOK net) (hown : DirectOwn net) {dt : K} {s s' : Sys K σ} (hr : Ready net g S s.ph)
    (h : processTimeStep net laws sch dt s = .ok s') {u : HUnit} (hu : u ∈ net.units) :
    ∃ s1 : Sys K σ, time s1.hid = time s.hid ∧
      ∀ f ∈ u.splitters.flatMap (·.2), s'.ph.amt f = (u.splitters.foldl (runSplitter net laws) s1).ph.amt f := by
  unfold processTimeStep at h
  cases h1 : directPhase net laws dt s with
  | error e => rw [h1] at h; simp [bind, Except.bind] at h
  | ok s2 =>
  rw [h1] at h
  simp only [bind, Except.bind] at h
  have hwn := hff.ordered.writesNodup
  rw [Net.blocks, List.flatMap_append, blocks_writes_direct, blocks_writes_solve, List.nodup_append] at hwn
  have hset : Settled net s2.ph := fun c hc' => by
    rw [direct_keeps_dyn hff hown (directPhase_does h1) c hc']; exact hr.settled c hc'
  obtain ⟨ph, hbf, hd2⟩ := solve_does (fun hs => ⟨hw hs, hset⟩) h
  have hsolve : ∀ q ∈ (Spec.writesDirect net).map Prod.snd, s'.ph.amt q = s2.ph.amt q := by
    intro q hq
    have hq' : q ∉ (Spec.writesSolve net).map Prod.snd := fun hm => hwn.2.2 q hq q hm rfl
    rw [does_amt hd2 q (by rw [writes_schedSolve]; exact hq'), hbf.amt q (by rw [solverOuts_eq, blocks_writes_solve]; exact hq')]
  obtain ⟨pre, post, hsplit⟩ := List.append_of_mem hu
  have hnd := hwn.1
  rw [Spec.writesDirect, hsplit] at hnd hsolve
  simp only [List.flatMap_append, List.flatMap_cons, List.map_append] at hnd hsolve
  unfold directPhase at h1
  rw [hsplit, List.foldlM_append] at h1
  cases hA : pre.foldlM (directUnit net laws dt) s with
  | error e => rw [hA] at h1; simp [bind, Except.bind] at h1
  | ok s1 =>
    rw [hA] at h1
    simp only [bind, Except.bind] at h1
    rw [List.foldlM_cons] at h1
    cases hB : directUnit net laws dt s1 u with
    | error e => rw [hB] at h1; simp [bind, Except.bind] at h1
    | ok s3 =>
      rw [hB] at h1
      simp only [bind, Except.bind] at h1
      refine ⟨s1, foldlM_time hc (fun _ _ _ => directUnit_time hc) _ hA, fun f hf => ?_⟩
      have hf' : f ∈ (u.splitters.flatMap fun sp => sp.2.map fun f => ((none : Option Nat), f)).map Prod.snd := by
        rw [List.map_flatMap]
        obtain ⟨sp, hsp, hf⟩ := List.mem_flatMap.1 hf
        exact List.mem_flatMap.2 ⟨sp, hsp, by simpa using hf⟩
      have hC := Does.foldlM (net := net) HUnit.sched _ post (fun _ _ _ _ hp => directUnit_does hp) s3 s2 h1
      unfold directUnit at hB
      have hD := Does.foldlM (net := net) Brick.schedDirect _ (u.direct.filter (!·.null)) (fun s s' p _ hp => directBrick_does hp) _ s3 hB
      rw [hsolve f (by simp only [List.mem_append]; exact .inr (.inl (.inl hf')))]
      obtain ⟨-, hn2, -⟩ := List.nodup_append.1 hnd
      obtain ⟨hn3, -, hn4⟩ := List.nodup_append.1 hn2
      obtain ⟨-, -, hn5⟩ := List.nodup_append.1 hn3
      rw [does_amt hC f, does_amt hD f]
      · intro hm
        refine hn5 f hf' f ?_ rfl
        rw [writes_flatMap] at hm
        simp only [writes_directB] at hm
        exact hm
      · intro hm
        refine hn4 f (List.mem_append_left _ hf') f ?_ rfl
        rw [writes_flatMap] at hm
        have : (fun u : HUnit => writesOf u.sched) = fun u => u.splitters.flatMap (fun sp => sp.2.map (fun f => ((none : Option Nat), f))) ++
            (u.direct.filter (!·.null)).flatMap (fun b => b.procs.flatMap (fun p => p.outs.map (fun f => (some p.src, f)))) := by
          funext u
          unfold HUnit.sched
          rw [writes_append, writes_flatMap, writes_flatMap]
          simp only [writes_ext, writes_directB]
        rw [this] at hm
        exact hm

end

end HB
