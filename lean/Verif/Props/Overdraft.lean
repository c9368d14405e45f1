import Verif.Model.OverdraftBrick
import Verif.Model.SchemeLemmas
import Mathlib.Data.Rat.Defs
import Mathlib.Algebra.Order.Field.Rat

/-!
# C71: no storage computed directly releases more than it holds

The counterexamples of `Props/OverdraftExamples.lean` show why the structure has to be restricted.
-/

namespace HB

set_option linter.unusedSectionVars false

open Spec

variable {K σ : Type} [Field K] [LinearOrder K] [IsStrictOrderedRing K]

/-- **C71, one process.** Whatever a process computed directly asks for, what it takes from a limited storage (through all its outgoing fluxes
together) is at most the content at the beginning of the step plus the changes booked so far plus the incoming amounts on record; nothing
is taken if that is negative. -/
theorem c71_process (net : Net K) (laws : Laws K σ) (dt : K) (hdt : 0 < dt) (b : Brick) (p : Proc) (s s' : Sys K σ)
    (h : directProc net laws dt b s p = .ok s') (hp : p ∈ b.procs) (hinj : (laws.rates p.pid s.hid s.ph).2.1 = 0)
    (hovf : net.ovf p.src = none) (hself : ∀ f ∈ p.outs, (net.flux f).target ≠ .cont p.src)
    (hidle : ∀ f ∈ net.fluxes, (net.flux f).target = .cont p.src → (s.rate f).getD 0 = 0) (hlim : Limited s.ph p.src) :
    (s'.ph.cont p.src).content = (s.ph.cont p.src).content ∧ (s'.ph.cont p.src).dyn ≤ (s.ph.cont p.src).dyn ∧
    (s.ph.cont p.src).dyn - (s'.ph.cont p.src).dyn ≤
      max 0 ((s.ph.cont p.src).content + (s.ph.cont p.src).dyn +
        ((net.fluxes.filter fun f => (net.flux f).target = .cont p.src).map fun f =>
          if (net.flux f).inst || (net.flux f).static then s.ph.amt f else 0).sum) := by
  obtain ⟨x, h1, h2, _, h4, _⟩ := directProc_moves hdt h hp hinj hovf hself (fun f hf => hidle f (List.mem_filter.1 hf).1
    (by simpa using (List.mem_filter.1 hf).2))
  obtain ⟨m1, _, _, m4, _⟩ := moveAll_cont net p.src x p.src p.outs s.ph
  have hm : s'.ph = moveAll net p.src x p.outs s.ph := h1
  have h0 : 0 ≤ (p.outs.map x).sum := sum_map_nonneg _ _ fun f _ => h2 f
  rw [hm, m1, m4 hlim.1, if_pos rfl]
  refine ⟨rfl, by linarith, ?_⟩
  have := h4 hlim.1 hlim.2
  unfold counted Net.inputs at this
  linarith

/-- **C71, direct phase (partial).** In a sound structure no limited storage computed directly is overdrawn: whatever the state, the laws and
the weather, the direct phase of a time step reports no negative content, and leaves contents and amounts that are not negative.  Missing
for the full claim: the structures where an inflow is counted twice or with the amount of the previous step (the code falsifies it there,
`c71_refrozen_water_counted_again`, `c71_rain_counted_twice`), and the storages handed to the solver (C10). -/
theorem c71_direct_partial (net : Net K) (laws : Laws K σ) (dt : K) (hdt : 0 < dt) (s s' : Sys K σ) (hS : Accountable net laws dt s.ph)
    (hC : Clean net s) (h : directPhase net laws dt s = .ok s') :
    s'.ph.logs = s.ph.logs ∧ Clean net s' := by
  obtain ⟨h1, _, h3⟩ := directPhase_clean hdt hS hC (SameFlags.refl _) h
  exact ⟨h3, h1⟩

/-! ## A snowpack over a ground: melt and outflow ask for far more than there is -/

namespace OverdraftOk

/-- Snow 0 (inputs booked in the static change), liquid water 1, ground 2. Fluxes: snowfall 0, melt 1, outflow of the snowpack 2, runoff 3. -/
def net : Net ℚ where
  flux f := match f with
    | 0 => ⟨.cont 0, false, true, 1⟩
    | 1 => ⟨.cont 1, true, false, 1⟩
    | 2 => ⟨.cont 2, true, false, 1 / 2⟩
    | _ => ⟨.outside, false, false, 1⟩
  fluxes := [0, 1, 2, 3]
  units := [⟨[(0, [0])], [⟨[(0, true), (1, false)], [⟨0, 0, [1]⟩, ⟨1, 1, [2]⟩], false⟩, ⟨[(2, false)], [⟨2, 2, [3]⟩], false⟩]⟩]
  solver := []
  ovf _ := none
  outlet := [3]

/-- Melt and outflow of the snowpack always ask for 30; the ground releases what it holds; 4 mm of snow fall each day. -/
def laws : Laws ℚ Unit where
  rates pid h ph := (fun _ => if pid = 2 then holds ph 2 else 30, 0, h)
  fin _ h _ := h
  split _ h _ := (fun _ => 4, h)

def start : Sys ℚ Unit :=
  ⟨{ cont := fun c => ⟨if c = 0 then 10 else if c = 1 then 3 else 2, 0, 0, 0, none, false, false⟩
     amt := fun _ => 5, snap := fun _ => 0, exch := fun _ => 0 }, fun _ => none, ()⟩

theorem sound (ph : Phys ℚ) : Accountable net laws 1 ph := by
  refine ⟨by decide, fun f => ?_, ?_, by decide, by decide, by decide, ?_, ?_, ?_, ?_⟩
  · rcases f with _ | _ | _ | f <;> simp [net]
  · intro u _ sp _ h ph f _; simp [laws]
  · intro b _ p _ h ph; rfl
  · intro b _ c _ f _ _; simp [net, Net.solverOuts]
  · decide
  · intro b hb c hc _
    have hb' : b = ⟨[(0, true), (1, false)], [⟨0, 0, [1]⟩, ⟨1, 1, [2]⟩], false⟩ ∨ b = ⟨[(2, false)], [⟨2, 2, [3]⟩], false⟩ := by
      simpa [directBricks, net] using hb
    rcases hb' with rfl | rfl
    · left
      have hc' : c = (0, true) ∨ c = (1, false) := by simpa using hc
      rcases hc' with rfl | rfl
      · exact ⟨[], [⟨0, 0, [1]⟩, ⟨1, 1, [2]⟩], rfl, by decide, by decide, by decide, by decide, .inl (by decide)⟩
      · exact ⟨[⟨0, 0, [1]⟩], [⟨1, 1, [2]⟩], rfl, by decide, by decide, by decide, by decide, .inr (by decide)⟩
    · right
      have hc' : c = (2, false) := by simpa using hc
      subst hc'
      intro p hp _ h ph _ h0
      have hp' : p = ⟨2, 2, [3]⟩ := by simpa using hp
      subst hp'
      simp [laws, h0]

theorem clean : Clean net start := by
  refine ⟨fun f => by simp [start], fun b _ c _ _ => ?_, fun f _ => rfl⟩
  simp only [start]
  refine ⟨?_, _root_.le_refl _, _root_.le_refl _⟩
  split
  · decide
  · split <;> decide

/-- The day ends with an empty snowpack: 10 of snow, 4 of fresh snow and 3 of water have left, half of it (by area) over the ground, which
passed on its 2 and the 17/2 received. No negative content is reported. -/
theorem runs : (match directPhase net laws 1 start with
    | .ok s => some ((s.ph.cont 0).content, (s.ph.cont 1).content, (s.ph.cont 2).content, s.ph.amt 2, s.ph.amt 3, s.ph.logs)
    | .error _ => none) = some (0, 0, 0, 17 / 2, 21 / 2, 0) := by decide +kernel

end OverdraftOk

end HB
