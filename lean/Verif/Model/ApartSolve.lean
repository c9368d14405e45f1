import Verif.Model.ApartStep

/-!
# The explicit solvers, inside and outside a part of a model

Used for C72.  The constraints are enforced by sweeps over the *whole* model until every rate is stable (Processor.cpp:191-209): the number of
sweeps is the only thing a part shares with the rest, so it is counted here.
-/

set_option linter.unusedSectionVars false

namespace HB

open Spec

variable {K σ τ : Type} [Field K] [LinearOrder K] [IsStrictOrderedRing K]

/-- How many sweeps `EnforceConstraints` makes (Processor.cpp:191-209). -/
def sweepCount (net : Net K) (dt : K) : ℕ → Sys K σ → ℕ
  | 0, _ => 0
  | n + 1, s => match sweep net dt s with
    | .error _ => 0
    | .ok s' => if stable net s s' then 1 else sweepCount net dt n s' + 1

/-- How many sweeps one `ConstrainRates` makes (Processor.cpp:174-189). -/
def rateSweeps (net : Net K) (dt : K) (k : ℕ → K) (s : Sys K σ) : ℕ := sweepCount net dt 10 (linkRates net.isOvf net.solverOuts k s)

/-- The numbers of sweeps of one solver step, in order (SolverEulerExplicit.cpp:13-22, SolverHeunExplicit.cpp:16-38, SolverRK4.cpp:19-63; a
sequential solver limits each brick once, SolverSequential.cpp:46-83). -/
def solveSweeps (net : Net K) (laws : Laws K σ) (dt : K) (s : Sys K σ) : Scheme K σ → Except Err (List ℕ)
  | .euler =>
    let e1 := evaluate net laws s
    .ok [rateSweeps net dt e1.1 e1.2]
  | .heun => do
    let e1 := evaluate net laws s
    let r1 ← constrainRates net dt e1.1 e1.2
    let e2 := evaluate net laws (applyRates net dt r1.1 r1.2)
    return [rateSweeps net dt e1.1 e1.2, rateSweeps net dt (fun f => (r1.1 f + e2.1 f) / 2) (resetState net e2.2)]
  | .rk4 => do
    let e1 := evaluate net laws s
    let r1 ← constrainRates net dt e1.1 e1.2
    let e2 := evaluate net laws (halveState net (applyRates net dt r1.1 r1.2))
    let r2 ← constrainRates net dt e2.1 (resetState net e2.2)
    let e3 := evaluate net laws (halveState net (applyRates net dt r2.1 r2.2))
    let r3 ← constrainRates net dt e3.1 (resetState net e3.2)
    let e4 := evaluate net laws (applyRates net dt r3.1 r3.2)
    return [rateSweeps net dt e1.1 e1.2, rateSweeps net dt e2.1 (resetState net e2.2), rateSweeps net dt e3.1 (resetState net e3.2),
      rateSweeps net dt (fun f => (r1.1 f + 2 * r2.1 f + 2 * r3.1 f + e4.1 f) / 6) (resetState net e4.2)]
  | .sequential _ => .ok []

/-- The numbers of sweeps of every step of a run. -/
def runSweeps (net : Net K) (laws : Laws K σ) (sch : Scheme K σ) (dt : K) (tick : σ → σ) : ℕ → Sys K σ → Except Err (List (List ℕ))
  | 0, _ => .ok []
  | n + 1, s => do
    let s1 ← directPhase net laws dt s
    let k ← solveSweeps net laws dt s1 sch
    let s2 ← solve net laws dt s1 sch
    let l ← runSweeps net laws sch dt tick n { s2 with hid := tick s2.hid }
    return k :: l

theorem except_bind {α β : Type} {x : Except Err α} {g : α → Except Err β} {y : β} (h : (x >>= g) = .ok y) : ∃ a, x = .ok a ∧ g a = .ok y := by
  cases x with
  | error e => simp [bind, Except.bind] at h
  | ok a => exact ⟨a, rfl, h⟩

namespace Apart

variable {P : Part} {view : σ → τ} {net : Net K} {laws laws' : Laws K σ}

theorem evaluate_in (hA : Apart net P) (hL : Local net P view laws laws') {s t : Sys K σ} (h : Alike P view s t) :
    (∀ f, P.F f → (evaluate net laws s).1 f = (evaluate net laws' t).1 f) ∧ Alike P view (evaluate net laws s).2 (evaluate net laws' t).2 := by
  unfold evaluate
  refine foldl_rel (fun (x y : (ℕ → K) × Sys K σ) => (∀ f, P.F f → x.1 f = y.1 f) ∧ Alike P view x.2 y.2) _ _
    (net.solver.flatMap (·.procs)) (fun p hp x y hxy => ?_) (fun _ => 0, s) (fun _ => 0, t) ⟨fun _ _ => rfl, h⟩
  obtain ⟨b, hb, hpb⟩ := List.mem_flatMap.1 hp
  rcases hA.solver b hb with hin | hout
  · obtain ⟨h1, h2⟩ := callRates_in hL (.inl hb) hin hpb hxy.2
    refine ⟨fun f hf => ?_, h2⟩
    dsimp only
    split
    · exact h1 f ‹_›
    · exact hxy.1 f hf
  · have h1 := callRates_out (blind_left hL) (.inl hb) hout hpb x.2
    have h2 := callRates_out (blind_right hL) (.inl hb) hout hpb y.2
    refine ⟨fun f hf => ?_, Alike.trans (Alike.trans (Alike.symm h1) hxy.2) h2⟩
    dsimp only
    rw [if_neg (fun h => (hout.2.2 p hpb f h).1 hf), if_neg (fun h => (hout.2.2 p hpb f h).1 hf)]
    exact hxy.1 f hf

theorem linkRates_in {k k' : ℕ → K} (hk : ∀ f, P.F f → k f = k' f) (ovfs : ℕ → Bool) (l : List ℕ) {s t : Sys K σ} (h : Alike P view s t) :
    Alike P view (linkRates ovfs l k s) (linkRates ovfs l k' t) := by
  refine ⟨h.1, fun f hf => ?_, h.2.2⟩
  simp only [linkRates]
  rw [foldl_upd, foldl_upd, hk f hf, h.2.1 f hf]

theorem sweep_in (hA : Apart net P) {dt : K} {s s' t t' : Sys K σ} (h : Alike P view s t) (h1 : sweep net dt s = .ok s')
    (h2 : sweep net dt t = .ok t') : Alike P view s' t' := by
  refine foldlM_rel (Alike P view) _ _ net.solver (fun b hb x y x' y' hxy g1 g2 => ?_) s t s' t' h h1 h2
  rcases hA.solver b hb with hin | hout
  · refine foldlM_rel (Alike P view) (constrainCont net dt b) (constrainCont net dt b) (b.conts.map (·.1)) (fun d hd _ _ _ _ hxy g1 g2 => ?_) _ _ _ _ hxy g1 g2
    obtain ⟨d', hd', rfl⟩ := List.mem_map.1 hd
    exact constrainCont_in hA hin (hin.1 d' hd') hxy g1 g2
  · have key : ∀ x x' : Sys K σ, (b.conts.map (·.1)).foldlM (constrainCont net dt b) x = .ok x' → Alike P view x x' := by
      intro x x' hx
      refine foldlM_out (constrainCont net dt b) (b.conts.map (·.1)) (fun d hd _ _ g1 => ?_) x x' hx
      obtain ⟨d', hd', rfl⟩ := List.mem_map.1 hd
      exact constrainCont_out hA hout (hout.1 d' hd') g1
    exact Alike.trans (Alike.trans (Alike.symm (key x x' g1)) hxy) (key y y' g2)

theorem enforce_in (hA : Apart net P) {dt : K} : ∀ (n : ℕ) {s s' t t' : Sys K σ}, Alike P view s t → enforce net dt n s = .ok s' →
    enforce net dt n t = .ok t' → sweepCount net dt n s = sweepCount net dt n t → Alike P view s' t' := by
  intro n
  induction n with
  | zero =>
    intro s s' t t' h h1 h2 _
    simp only [enforce, Except.ok.injEq] at h1 h2
    subst h1 h2
    exact h
  | succ n ih =>
    intro s s' t t' h h1 h2 h3
    obtain ⟨s1, e1, g1⟩ := except_bind h1
    obtain ⟨t1, e2, g2⟩ := except_bind h2
    have hs := sweep_in hA h e1 e2
    simp only [sweepCount, e1, e2] at h3
    have pos : ∀ (n : ℕ) (x x' : Sys K σ), enforce net dt (n + 1) x = .ok x' → sweepCount net dt (n + 1) x ≠ 0 := by
      intro n x x' hx
      obtain ⟨y, e, _⟩ := except_bind hx
      simp only [sweepCount, e]
      split <;> simp
    have zero : ∀ (x x' : Sys K σ), enforce net dt n x = .ok x' → sweepCount net dt n x + 1 = 1 → n = 0 := by
      intro x x' hx h
      cases n with
      | zero => rfl
      | succ n => exact absurd (by omega) (pos n x x' hx)
    by_cases c1 : stable net s s1 = true
    · rw [if_pos c1] at g1 h3
      simp only [pure, Except.pure, Except.ok.injEq] at g1
      subst g1
      by_cases c2 : stable net t t1 = true
      · rw [if_pos c2] at g2
        simp only [pure, Except.pure, Except.ok.injEq] at g2
        subst g2
        exact hs
      · rw [if_neg c2] at g2 h3
        have hn := zero _ _ g2 h3.symm
        subst hn
        simp only [enforce, Except.ok.injEq] at g2
        subst g2
        exact hs
    · rw [if_neg c1] at g1 h3
      by_cases c2 : stable net t t1 = true
      · rw [if_pos c2] at g2 h3
        simp only [pure, Except.pure, Except.ok.injEq] at g2
        subst g2
        have hn := zero _ _ g1 h3
        subst hn
        simp only [enforce, Except.ok.injEq] at g1
        subst g1
        exact hs
      · rw [if_neg c2] at g2 h3
        exact ih hs g1 g2 (by omega)

theorem constrainRates_in (hA : Apart net P) {dt : K} {k k' : ℕ → K} (hk : ∀ f, P.F f → k f = k' f) {s t : Sys K σ} (h : Alike P view s t)
    {r r' : (ℕ → K) × Sys K σ} (h1 : constrainRates net dt k s = .ok r) (h2 : constrainRates net dt k' t = .ok r')
    (h3 : rateSweeps net dt k s = rateSweeps net dt k' t) : (∀ f, P.F f → r.1 f = r'.1 f) ∧ Alike P view r.2 r'.2 := by
  obtain ⟨s1, e1, g1⟩ := except_bind h1
  obtain ⟨t1, e2, g2⟩ := except_bind h2
  simp only [pure, Except.pure, Except.ok.injEq] at g1 g2
  subst g1 g2
  have := enforce_in hA 10 (linkRates_in hk net.isOvf net.solverOuts h) e1 e2 h3
  exact ⟨fun f hf => by dsimp only; rw [this.2.1 f hf], this⟩

theorem applyRates_in (hA : Apart net P) {dt : K} {k k' : ℕ → K} (hk : ∀ f, P.F f → k f = k' f) {s t : Sys K σ} (h : Alike P view s t) :
    Alike P view (applyRates net dt k s) (applyRates net dt k' t) := by
  refine ⟨?_, h.2.1, h.2.2⟩
  refine foldl_rel (SameIn P) (applyBrick net dt k) (applyBrick net dt k') net.solver (fun b hb x y hxy => ?_) _ _ h.1
  rcases hA.solver b hb with hin | hout
  · exact applyBrick_in hA hin (fun p hp f hf => hk f (hin.2.2 p hp f hf)) hxy
  · have h1 := applyBrick_out (dt := dt) hout k x
    have h2 := applyBrick_out (dt := dt) hout k' y
    exact ⟨fun c hc => ((h1.1 c hc).symm.trans (hxy.1 c hc)).trans (h2.1 c hc), fun f hf => ((h1.2 f hf).symm.trans (hxy.2 f hf)).trans (h2.2 f hf)⟩

theorem mapDyn_in (g : K → K) {s t : Sys K σ} (h : Alike P view s t) : Alike P view (mapDyn net g s) (mapDyn net g t) := by
  refine ⟨⟨fun c hc => ?_, h.1.2⟩, h.2.1, h.2.2⟩
  simp only [mapDyn]
  rw [h.1.1 c hc]

theorem avg4 {a b c d a' b' c' d' : K} (h1 : a = a') (h2 : b = b') (h3 : c = c') (h4 : d = d') :
    (a + 2 * b + 2 * c + d) / 6 = (a' + 2 * b' + 2 * c' + d') / 6 := by rw [h1, h2, h3, h4]

/-- One step of any solver. -/
theorem solve_in (hA : Apart net P) (hL : Local net P view laws laws') {dt : K} {s s' t t' : Sys K σ} (h : Alike P view s t)
    {sch sch' : Scheme K σ} (hsch : SameScheme net P view sch sch') (h1 : solve net laws dt s sch = .ok s')
    (h2 : solve net laws' dt t sch' = .ok t') (h3 : solveSweeps net laws dt s sch = solveSweeps net laws' dt t sch') : Alike P view s' t' := by
  obtain ⟨l1, l2⟩ := evaluate_in hA hL h
  cases hsch with
  | sequential law law' hQ => exact solveSequential_in hA hL hQ h h1 h2
  | euler =>
    obtain ⟨⟨k, s1⟩, e1, g1⟩ := except_bind h1
    obtain ⟨⟨k', t1⟩, e2, g2⟩ := except_bind h2
    simp only [pure, Except.pure, Except.ok.injEq] at g1 g2
    subst g1 g2
    simp only [solveSweeps, Except.ok.injEq, List.cons.injEq, and_true] at h3
    obtain ⟨m1, m2⟩ := constrainRates_in hA l1 l2 e1 e2 h3
    exact finalize_in hA hL (applyRates_in hA m1 m2)
  | heun =>
    obtain ⟨⟨k1, s1⟩, e1, g1⟩ := except_bind h1
    obtain ⟨⟨k1', t1⟩, e2, g2⟩ := except_bind h2
    obtain ⟨⟨k2, s2⟩, e3, g3⟩ := except_bind g1
    obtain ⟨⟨k2', t2⟩, e4, g4⟩ := except_bind g2
    simp only [pure, Except.pure, Except.ok.injEq] at g3 g4
    subst g3 g4
    unfold evaluateConstrained at e1 e2
    dsimp only at e1 e2
    replace e3 : constrainRates net dt (fun f => (k1 f + (evaluate net laws (applyRates net dt k1 s1)).1 f) / 2)
      (resetState net (evaluate net laws (applyRates net dt k1 s1)).2) = .ok (k2, s2) := e3
    replace e4 : constrainRates net dt (fun f => (k1' f + (evaluate net laws' (applyRates net dt k1' t1)).1 f) / 2)
      (resetState net (evaluate net laws' (applyRates net dt k1' t1)).2) = .ok (k2', t2) := e4
    simp only [solveSweeps, e1, e2, bind, Except.bind, pure, Except.pure, Except.ok.injEq, List.cons.injEq, and_true] at h3
    obtain ⟨m1, m2⟩ := constrainRates_in hA l1 l2 e1 e2 h3.1
    obtain ⟨n1, n2⟩ := evaluate_in hA hL (applyRates_in (dt := dt) hA m1 m2)
    obtain ⟨o1, o2⟩ := constrainRates_in hA (fun f hf => congrArg₂ (fun a b => (a + b) / 2) (m1 f hf) (n1 f hf)) (mapDyn_in (net := net) (fun _ => 0) n2) e3 e4 h3.2
    exact finalize_in hA hL (applyRates_in hA o1 o2)
  | rk4 =>
    obtain ⟨⟨k1, s1⟩, e1, g1⟩ := except_bind h1
    obtain ⟨⟨k1', t1⟩, f1, i1⟩ := except_bind h2
    obtain ⟨⟨k2, s2⟩, e2, g2⟩ := except_bind g1
    obtain ⟨⟨k2', t2⟩, f2, i2⟩ := except_bind i1
    obtain ⟨⟨k3, s3⟩, e3, g3⟩ := except_bind g2
    obtain ⟨⟨k3', t3⟩, f3, i3⟩ := except_bind i2
    obtain ⟨⟨k4, s4⟩, e4, g4⟩ := except_bind g3
    obtain ⟨⟨k4', t4⟩, f4, i4⟩ := except_bind i3
    simp only [pure, Except.pure, Except.ok.injEq] at g4 i4
    subst g4 i4
    unfold evaluateConstrained at e1 f1
    dsimp only at e1 f1
    replace e2 : constrainRates net dt (evaluate net laws (halveState net (applyRates net dt k1 s1))).1 (resetState net (evaluate net laws (halveState net (applyRates net dt k1 s1))).2) = .ok (k2, s2) := e2
    replace f2 : constrainRates net dt (evaluate net laws' (halveState net (applyRates net dt k1' t1))).1 (resetState net (evaluate net laws' (halveState net (applyRates net dt k1' t1))).2) = .ok (k2', t2) := f2
    replace e3 : constrainRates net dt (evaluate net laws (halveState net (applyRates net dt k2 s2))).1 (resetState net (evaluate net laws (halveState net (applyRates net dt k2 s2))).2) = .ok (k3, s3) := e3
    replace f3 : constrainRates net dt (evaluate net laws' (halveState net (applyRates net dt k2' t2))).1 (resetState net (evaluate net laws' (halveState net (applyRates net dt k2' t2))).2) = .ok (k3', t3) := f3
    replace e4 : constrainRates net dt (fun f => (k1 f + 2 * k2 f + 2 * k3 f + (evaluate net laws (applyRates net dt k3 s3)).1 f) / 6) (resetState net (evaluate net laws (applyRates net dt k3 s3)).2) = .ok (k4, s4) := e4
    replace f4 : constrainRates net dt (fun f => (k1' f + 2 * k2' f + 2 * k3' f + (evaluate net laws' (applyRates net dt k3' t3)).1 f) / 6) (resetState net (evaluate net laws' (applyRates net dt k3' t3)).2) = .ok (k4', t4) := f4
    simp only [solveSweeps, e1, f1, e2, f2, e3, f3, bind, Except.bind, pure, Except.pure, Except.ok.injEq, List.cons.injEq, and_true] at h3
    obtain ⟨m1, m2⟩ := constrainRates_in hA l1 l2 e1 f1 h3.1
    obtain ⟨n1, n2⟩ := evaluate_in hA hL (mapDyn_in (net := net) (fun x => x * (1 / 2)) (applyRates_in (dt := dt) hA m1 m2))
    obtain ⟨o1, o2⟩ := constrainRates_in hA n1 (mapDyn_in (net := net) (fun _ => 0) n2) e2 f2 h3.2.1
    obtain ⟨p1, p2⟩ := evaluate_in hA hL (mapDyn_in (net := net) (fun x => x * (1 / 2)) (applyRates_in (dt := dt) hA o1 o2))
    obtain ⟨q1, q2⟩ := constrainRates_in hA p1 (mapDyn_in (net := net) (fun _ => 0) p2) e3 f3 h3.2.2.1
    obtain ⟨r1, r2⟩ := evaluate_in hA hL (applyRates_in (dt := dt) hA q1 q2)
    obtain ⟨u1, u2⟩ := constrainRates_in hA
      (fun f hf => avg4 (m1 f hf) (o1 f hf) (q1 f hf) (r1 f hf)) (mapDyn_in (net := net) (fun _ => 0) r2) e4 f4 h3.2.2.2
    exact finalize_in hA hL (applyRates_in hA u1 u2)

/-- A step that completes has its sweeps counted. -/
theorem solveSweeps_ok {dt : K} {s s' : Sys K σ} {sch : Scheme K σ} (h : solve net laws dt s sch = .ok s') :
    ∃ k, solveSweeps net laws dt s sch = .ok k := by
  cases sch with
  | euler => exact ⟨_, rfl⟩
  | sequential law => exact ⟨_, rfl⟩
  | heun =>
    obtain ⟨⟨k1, s1⟩, e1, g1⟩ := except_bind h
    unfold evaluateConstrained at e1
    dsimp only at e1
    exact ⟨_, by simp only [solveSweeps, e1, bind, Except.bind, pure, Except.pure]; rfl⟩
  | rk4 =>
    obtain ⟨⟨k1, s1⟩, e1, g1⟩ := except_bind h
    obtain ⟨⟨k2, s2⟩, e2, g2⟩ := except_bind g1
    obtain ⟨⟨k3, s3⟩, e3, g3⟩ := except_bind g2
    unfold evaluateConstrained at e1
    dsimp only at e1
    replace e2 : constrainRates net dt (evaluate net laws (halveState net (applyRates net dt k1 s1))).1
      (resetState net (evaluate net laws (halveState net (applyRates net dt k1 s1))).2) = .ok (k2, s2) := e2
    replace e3 : constrainRates net dt (evaluate net laws (halveState net (applyRates net dt k2 s2))).1
      (resetState net (evaluate net laws (halveState net (applyRates net dt k2 s2))).2) = .ok (k3, s3) := e3
    exact ⟨_, by simp only [solveSweeps, e1, e2, e3, bind, Except.bind, pure, Except.pure]; rfl⟩

/-- A run that completes has its sweeps counted. -/
theorem runSweeps_ok {dt : K} {tick : σ → σ} {sch : Scheme K σ} : ∀ (n : ℕ) (s : Sys K σ) {r}, runSteps net laws sch dt tick n s = .ok r →
    ∃ ks, runSweeps net laws sch dt tick n s = .ok ks := by
  intro n
  induction n with
  | zero => intro s r _; exact ⟨_, rfl⟩
  | succ n ih =>
    intro s r h
    obtain ⟨s2, e1, g1⟩ := except_bind h
    obtain ⟨r', e3, _⟩ := except_bind g1
    obtain ⟨s1, e5, g5⟩ := except_bind e1
    obtain ⟨k, hk⟩ := solveSweeps_ok g5
    obtain ⟨ks, hks⟩ := ih _ e3
    exact ⟨_, by simp only [runSweeps, e5, g5, hk, hks, bind, Except.bind, pure, Except.pure]; rfl⟩

end Apart

end HB
