import Verif.Model.ApartSolve
import Mathlib.Data.Rat.Defs
import Mathlib.Algebra.Order.Field.Rat

/-!
# C72: what happens in one unit does not depend on the others

Two runs of a model whose units do not exchange water, alike in one part (a unit: same storages, same weather, same parameters) and different
elsewhere (other initial contents, other weather, other laws): the part evolves identically, step after step, in the direct phase and with the
sequential solvers without condition, with the explicit solvers provided they make the same number of constraint sweeps.  The condition cannot
be dropped: `c72_coupled` shows a unit whose overflow drops from 2 mm to nothing because *another* unit needs more sweeps.
-/

set_option linter.unusedSectionVars false

namespace HB

open Spec

variable {K σ τ : Type} [Field K] [LinearOrder K] [IsStrictOrderedRing K] {net : Net K} {laws laws' : Laws K σ} {P : Part} {view : σ → τ}

/-- **C72, direct phase.** -/
theorem c72_direct (hA : Apart net P) (hL : Local net P view laws laws') {dt : K} {s s' t t' : Sys K σ} (h : Alike P view s t)
    (h1 : directPhase net laws dt s = .ok s') (h2 : directPhase net laws' dt t = .ok t') : Alike P view s' t' :=
  Apart.directPhase_in hA hL h h1 h2

/-- **C72, sequential solvers.** A whole time step. -/
theorem c72_sequential (hA : Apart net P) (hL : Local net P view laws laws') {law law' : SeqLaw K σ} (hQ : LocalSeq net P view law law') {dt : K}
    {s s' t t' : Sys K σ} (h : Alike P view s t) (h1 : processTimeStep net laws (.sequential law) dt s = .ok s')
    (h2 : processTimeStep net laws' (.sequential law') dt t = .ok t') : Alike P view s' t' := by
  obtain ⟨s1, e1, g1⟩ := except_bind h1
  obtain ⟨t1, e2, g2⟩ := except_bind h2
  exact Apart.solveSequential_in hA hL hQ (Apart.directPhase_in hA hL h e1 e2) g1 g2

/-- **C72, whole runs.** The records of the part are the same after every step and the final states are alike, when the solver makes the same
numbers of sweeps in the two runs (`tick`: what happens between two steps, the same for the part).  A sequential solver makes none. -/
theorem c72_run_partial (hA : Apart net P) (hL : Local net P view laws laws') {sch sch' : Scheme K σ} (hsch : SameScheme net P view sch sch') {dt : K}
    {tick tick' : σ → σ} (htick : ∀ h h', view h = view h' → view (tick h) = view (tick' h')) : ∀ (n : ℕ) {s t : Sys K σ} {l l' s' t'},
    Alike P view s t → runSteps net laws sch dt tick n s = .ok (l, s') → runSteps net laws' sch' dt tick' n t = .ok (l', t') →
    runSweeps net laws sch dt tick n s = runSweeps net laws' sch' dt tick' n t → List.Forall₂ (SameIn P) l l' ∧ Alike P view s' t' := by
  intro n
  induction n with
  | zero =>
    intro s t l l' s' t' h h1 h2 _
    simp only [runSteps, Except.ok.injEq, Prod.mk.injEq] at h1 h2
    obtain ⟨rfl, rfl⟩ := h1
    obtain ⟨rfl, rfl⟩ := h2
    exact ⟨.nil, h⟩
  | succ n ih =>
    intro s t l l' s' t' h h1 h2 h3
    obtain ⟨s2, e1, g1⟩ := except_bind h1
    obtain ⟨t2, e2, g2⟩ := except_bind h2
    obtain ⟨⟨l1, s3⟩, e3, g3⟩ := except_bind g1
    obtain ⟨⟨l2, t3⟩, e4, g4⟩ := except_bind g2
    simp only [pure, Except.pure, Except.ok.injEq, Prod.mk.injEq] at g3 g4
    obtain ⟨rfl, rfl⟩ := g3
    obtain ⟨rfl, rfl⟩ := g4
    obtain ⟨s1, e5, g5⟩ := except_bind e1
    obtain ⟨t1, e6, g6⟩ := except_bind e2
    have hd := Apart.directPhase_in hA hL h e5 e6
    have key : ∀ (laws : Laws K σ) (sch : Scheme K σ) (tick : σ → σ) (s s1 s2 : Sys K σ) (r : List (Phys K) × Sys K σ),
        directPhase net laws dt s = .ok s1 → solve net laws dt s1 sch = .ok s2 →
        runSteps net laws sch dt tick n { s2 with hid := tick s2.hid } = .ok r →
        ∃ k ks, solveSweeps net laws dt s1 sch = .ok k ∧ runSweeps net laws sch dt tick n { s2 with hid := tick s2.hid } = .ok ks ∧
          runSweeps net laws sch dt tick (n + 1) s = .ok (k :: ks) := by
      intro laws sch tick s s1 s2 r a1 a2 a3
      obtain ⟨k, hk⟩ := Apart.solveSweeps_ok a2
      obtain ⟨ks, hks⟩ := Apart.runSweeps_ok n _ a3
      refine ⟨k, ks, hk, hks, ?_⟩
      simp only [runSweeps, a1, a2, hk, hks, bind, Except.bind, pure, Except.pure]
    obtain ⟨k, ks, a1, a2, a3⟩ := key laws sch tick s s1 s2 _ e5 g5 e3
    obtain ⟨k', ks', b1, b2, b3⟩ := key laws' sch' tick' t t1 t2 _ e6 g6 e4
    rw [a3, b3] at h3
    simp only [Except.ok.injEq, List.cons.injEq] at h3
    have hs := Apart.solve_in hA hL hd hsch g5 g6 (by rw [a1, b1, h3.1])
    obtain ⟨i1, i2⟩ := ih (s := { s2 with hid := tick s2.hid }) (t := { t2 with hid := tick' t2.hid }) ⟨hs.1, hs.2.1, htick _ _ hs.2.2⟩ e3 e4 (by rw [a2, b2, h3.2])
    exact ⟨.cons hs.1 i1, i2⟩

theorem runSweeps_sequential {dt : K} {law : SeqLaw K σ} {tick : σ → σ} : ∀ (n : ℕ) {s : Sys K σ} {r},
    runSteps net laws (.sequential law) dt tick n s = .ok r → runSweeps net laws (.sequential law) dt tick n s = .ok (List.replicate n []) := by
  intro n
  induction n with
  | zero => intro s r _; rfl
  | succ n ih =>
    intro s r h
    obtain ⟨s2, e1, g1⟩ := except_bind h
    obtain ⟨r', e3, _⟩ := except_bind g1
    obtain ⟨s1, e5, g5⟩ := except_bind e1
    simp only [runSweeps, e5, g5, ih e3, solveSweeps, bind, Except.bind, pure, Except.pure, List.replicate_succ]

/-- **C72, whole runs with a sequential solver**: no condition. -/
theorem c72_run_sequential (hA : Apart net P) (hL : Local net P view laws laws') {law law' : SeqLaw K σ} (hQ : LocalSeq net P view law law') {dt : K}
    {tick tick' : σ → σ} (htick : ∀ h h', view h = view h' → view (tick h) = view (tick' h')) (n : ℕ) {s t : Sys K σ} {l l' s' t'}
    (h : Alike P view s t) (h1 : runSteps net laws (.sequential law) dt tick n s = .ok (l, s'))
    (h2 : runSteps net laws' (.sequential law') dt tick' n t = .ok (l', t')) : List.Forall₂ (SameIn P) l l' ∧ Alike P view s' t' :=
  c72_run_partial hA hL (.sequential law law' hQ) htick n h h1 h2 (by rw [runSweeps_sequential n h1, runSweeps_sequential n h2])

/-! ## An example, and why the condition on the sweeps is needed -/

namespace ApartDemo

/-- Two units.  The first: rain (0) on a storage (0) of 10 mm with an overflow (2), draining (1) to a chain of three storages of 4 mm without
overflow (3, 4).  The second: rain (5) on a storage (4) of 10 mm with an overflow (7), draining (6) to a storage of 4 mm without overflow. -/
def two : Net ℚ where
  flux := fun f => match f with
    | 0 => ⟨.cont 0, false, true, 1⟩
    | 1 => ⟨.cont 1, false, false, 1⟩
    | 3 => ⟨.cont 2, false, false, 1⟩
    | 4 => ⟨.cont 3, false, false, 1⟩
    | 5 => ⟨.cont 4, false, true, 1⟩
    | 6 => ⟨.cont 5, false, false, 1⟩
    | _ => ⟨.outside, false, false, 1⟩
  fluxes := [0, 1, 2, 3, 4, 5, 6, 7]
  units := [⟨[(0, [0])], []⟩, ⟨[(1, [5])], []⟩]
  solver := [⟨[(0, false)], [⟨0, 0, [1]⟩, ⟨1, 0, [2]⟩], false⟩, ⟨[(1, false)], [⟨2, 1, [3]⟩], false⟩, ⟨[(2, false)], [⟨3, 2, [4]⟩], false⟩,
    ⟨[(3, false)], [], false⟩, ⟨[(4, false)], [⟨4, 4, [6]⟩, ⟨5, 4, [7]⟩], false⟩, ⟨[(5, false)], [], false⟩]
  ovf := fun c => if c = 0 then some 2 else if c = 4 then some 7 else none
  outlet := [2, 7]

/-- The first unit. -/
def first : Part := ⟨fun c => c < 4, fun f => f < 5⟩

/-- 5 mm of rain, outflows of 3 mm per day. -/
def rain : Laws ℚ Unit where
  rates := fun _ h _ => (fun f => if f = 2 ∨ f = 7 then 0 else 3, 0, h)
  fin := fun _ h _ => h
  split := fun _ h _ => (fun _ => 5, h)

/-- The room in the last storage of the first unit is just short of 3 mm; the last storage of the second unit holds `x` mm. -/
def start (x : ℚ) : Sys ℚ Unit where
  ph := { cont := fun c => match c with
            | 0 => ⟨10, 0, 0, 0, some 10, false, false⟩
            | 1 => ⟨4, 0, 0, 0, some 4, false, false⟩
            | 2 => ⟨4, 0, 0, 0, some 4, false, false⟩
            | 3 => ⟨1 + 1 / 1000000000, 0, 0, 0, some 4, false, false⟩
            | 4 => ⟨10, 0, 0, 0, some 10, false, false⟩
            | _ => ⟨x, 0, 0, 0, some 4, false, false⟩,
          amt := fun _ => 0, snap := fun _ => 0, exch := fun _ => 0 }
  rate := fun _ => none
  hid := ()

theorem two_apart : Apart two first where
  direct := by intro u hu b hb; simp only [two, List.mem_cons, List.not_mem_nil, or_false] at hu; rcases hu with rfl | rfl <;> cases hb
  solver := by
    intro b hb
    simp only [two, List.mem_cons, List.not_mem_nil, or_false] at hb
    rcases hb with rfl | rfl | rfl | rfl | rfl | rfl <;>
      first
      | (left; refine ⟨?_, ?_, ?_⟩ <;> simp only [first] <;> decide)
      | (right; refine ⟨?_, ?_, ?_⟩
         · simp only [first]; decide
         · simp only [first]; decide
         · intro p hp f hf
           first
           | (cases hp; done)
           | (simp only [List.mem_cons, List.not_mem_nil, or_false] at hp
              rcases hp with rfl | rfl <;> simp only [List.mem_cons, List.not_mem_nil, or_false] at hf <;> subst hf <;>
                exact ⟨by simp [first], fun c hc hi => by simp [two] at hi⟩))
  split := by
    intro u hu sp hsp
    simp only [two, List.mem_cons, List.not_mem_nil, or_false] at hu
    rcases hu with rfl | rfl <;> simp only [List.mem_cons, List.not_mem_nil, or_false] at hsp <;> subst hsp
    · left; simp only [first]; decide
    · right
      intro f hf
      simp only [List.mem_cons, List.not_mem_nil, or_false] at hf
      subst hf
      exact ⟨by simp [first], fun c hc hi => by simp [two] at hi⟩
  inputs := by
    intro f hf c hc hC
    simp only [two, List.mem_cons, List.not_mem_nil, or_false] at hf
    rcases hf with rfl | rfl | rfl | rfl | rfl | rfl | rfl | rfl <;> simp only [two, Target.cont.injEq, reduceCtorEq] at hc <;>
      first | (simp only [first]; omega) | (subst hc; simp [first] at hC)
  fed := by
    intro f hf c hc hC hF
    simp only [two, List.mem_cons, List.not_mem_nil, or_false] at hf
    rcases hf with rfl | rfl | rfl | rfl | rfl | rfl | rfl | rfl <;> simp only [two, Target.cont.injEq, reduceCtorEq] at hc <;>
      first | (simp [first] at hF; done) | (subst hc; simp [first] at hC; done)

theorem rain_local : Local two first (fun h : Unit => h) rain rain :=
  ⟨fun _ _ _ _ _ _ _ _ _ _ _ => ⟨fun _ _ => rfl, rfl, rfl⟩, fun _ _ _ _ _ _ _ _ _ _ _ => rfl,
   fun _ _ _ _ _ _ _ _ _ _ _ => ⟨fun _ _ => rfl, rfl⟩, fun _ _ _ _ _ _ _ => ⟨rfl, rfl, rfl, rfl⟩, fun _ _ _ _ _ _ _ => ⟨rfl, rfl⟩⟩

theorem start_alike (x y : ℚ) : Alike first (fun h : Unit => h) (start x) (start y) := by
  refine ⟨⟨fun c hc => ?_, fun _ _ => rfl⟩, fun _ _ => rfl, rfl⟩
  simp only [first] at hc
  match c, hc with
  | 0, _ => rfl
  | 1, _ => rfl
  | 2, _ => rfl
  | 3, _ => rfl

/-- After one step: the overflow of the first unit and the content of its first storage. -/
def after (sch : Scheme ℚ Unit) (x : ℚ) : Option (ℚ × ℚ) :=
  (processTimeStep two rain sch 1 (start x)).toOption.map fun s => (s.ph.amt 2, (s.ph.cont 0).content)

/-- **Negative result (C72).** With the explicit solvers, a unit depends on the state of another one with which it exchanges nothing: when the last
storage of the *second* unit holds 2 mm instead of none, the overflow of the *first* one drops from 2 mm to nothing, and its storage of
10 mm ends with 12 mm.  The rates are limited by sweeps over all units until all are stable; the first unit passes for stable after two
sweeps, a correction of 1e-9 is still on its way up, and the extra sweeps the second unit asks for bring it to the overflow, whose rate is
then overwritten instead of adjusted. -/
theorem c72_coupled : Apart two first ∧ Local two first (fun h : Unit => h) rain rain ∧
    Alike first (fun h : Unit => h) (start 0) (start 2) ∧
    after .euler 0 = some (2, 10) ∧ after .euler 2 = some (0, 12 + 1 / 1000000000) := by
  refine ⟨two_apart, rain_local, start_alike 0 2, ?_, ?_⟩ <;> decide +kernel

/-- The numbers of sweeps: two or ten. -/
theorem two_sweeps : (solveSweeps two rain 1 ((directPhase two rain 1 (start 0)).toOption.getD (start 0)) .euler).toOption = some [2] ∧
    (solveSweeps two rain 1 ((directPhase two rain 1 (start 2)).toOption.getD (start 2)) .euler).toOption = some [10] := by
  constructor <;> decide +kernel

/-- A case where the conditions of `c72_run_partial` are met: contents of 0 and of half a millimetre in the second unit, three steps, every solver. -/
theorem same_sweeps : (runSweeps two rain .euler 1 id 1 (start 0)).toOption = (runSweeps two rain .euler 1 id 1 (start (1 / 2))).toOption ∧
    (runSweeps two rain .heun 1 id 1 (start 0)).toOption = (runSweeps two rain .heun 1 id 1 (start (1 / 2))).toOption ∧
    (runSweeps two rain .rk4 1 id 1 (start 0)).toOption = (runSweeps two rain .rk4 1 id 1 (start (1 / 2))).toOption ∧
    (runSweeps two rain .rk4 1 id 1 (start 0)).toOption.isSome = true := by
  refine ⟨?_, ?_, ?_, ?_⟩ <;> decide +kernel

end ApartDemo

end HB
