import Verif.Props.Feasible
import Verif.Props.BalanceExamples

/-! # C10: witnesses and counterexamples -/

namespace HB.Demo

open Spec

/-- `demo` meets the conditions of `c10_feasible_partial`. -/
theorem demo_chained : Chained demo start :=
  ⟨by decide +kernel, by decide +kernel, by decide +kernel, by decide +kernel⟩

theorem demo_startable : Startable demo 1 start where
  finite := by decide +kernel
  start := by decide +kernel
  room := by
    intro q hq k hk
    have hc : cells demo = [(⟨[(1, false)], [⟨1, 1, [2]⟩, ⟨2, 1, [3]⟩, ⟨3, 1, [4]⟩], false⟩, 1),
        (⟨[(2, false)], [⟨4, 2, [5]⟩], false⟩, 2)] := by decide +kernel
    rw [hc] at hq
    simp only [List.mem_cons, List.not_mem_nil, or_false] at hq
    rcases hq with rfl | rfl
    · have : k = 20 := by
        have h : (start.ph.cont 1).cap = some 20 := rfl
        simp only [h, Option.some.injEq] at hk; exact hk.symm
      subst this
      decide +kernel
    · have h : (start.ph.cont 2).cap = none := rfl
      simp [h] at hk
  others := fun _ _ => le_refl _

example : ∀ f ∈ demo.solverOuts, f ∈ (cells demo).flatMap (fun q => q.1.outsOf q.2) := by decide +kernel

/-- Rates asked for far more than available: the limited rates. -/
example : ((constrainRates demo 1 (fun _ => 100) start).toOption.map
    (fun r => demo.solverOuts.map r.1)) = some [15/2, 15/2, 0, 5] := by decide +kernel

/-! ## Counterexamples -/

/-- An upstream storage (capacity 10, overflow to the outlet, outflow to the second storage) and a
downstream storage with a capacity of 4 but no overflow. -/
def limited : Net ℚ where
  flux := fun f => match f with
    | 0 => ⟨.cont 0, false, true, 1⟩     -- rain
    | 1 => ⟨.cont 1, false, false, 1⟩    -- outflow
    | _ => ⟨.outside, false, false, 1⟩   -- overflow (2)
  fluxes := [0, 1, 2]
  units := []
  solver := [⟨[(0, false)], [⟨0, 0, [1]⟩, ⟨1, 0, [2]⟩], false⟩, ⟨[(1, false)], [], false⟩]
  ovf := fun c => if c = 0 then some 2 else none
  outlet := [2]

/-- Upstream full, 5 mm of rain, downstream content `x`. -/
def limitedStart (x : ℚ) : Sys ℚ Unit where
  ph := { cont := fun c => if c = 0 then ⟨10, 0, 0, 0, some 10, false, false⟩
                            else ⟨x, 0, 0, 0, some 4, false, false⟩,
          amt := fun f => if f = 0 then 5 else 0, snap := fun _ => 0, exch := fun _ => 0 }
  rate := fun f => if f = 1 then some 3 else if f = 2 then some 0 else none
  hid := ()

/-- Upstream final content after `n` sweeps. -/
def upAfter (x : ℚ) : Nat → Sys ℚ Unit → Option (List ℚ)
  | 0, _ => some []
  | n + 1, s => match sweep limited 1 s with
    | .ok s' => (upAfter x n s').map ((finalContent limited 1 s'
        (⟨[(0, false)], [⟨0, 0, [1]⟩, ⟨1, 0, [2]⟩], false⟩, 0)) :: ·)
    | .error _ => none

/-- **Negative result (C10).** The sweeps converge (the second changes nothing) on rates that leave the
upstream storage at 12 mm for a capacity of 10: the overflow slot is overwritten with the residual
excess instead of being increased by it. -/
theorem c10_stable_but_overfull :
    upAfter 3 4 (limitedStart 3) = some [12, 12, 12, 12] ∧
    ((enforce limited 1 10 (limitedStart 3)).toOption.map (fun s => limited.solverOuts.map s.rate)) =
      some [some 1, some 2] ∧
    ((sweep limited 1 (limitedStart 3)).toOption.bind (fun s => (sweep limited 1 s).toOption.map
      (fun s' => stable limited s s'))) = some true := by
  refine ⟨?_, ?_, ?_⟩ <;> decide +kernel

/-- **Negative result (C10).** With another downstream content the sweeps never stabilise: the upstream
content alternates between 11 and 12 mm (capacity 10) and the tenth sweep stops at 12. -/
theorem c10_never_stabilises :
    upAfter 2 10 (limitedStart 2) = some [11, 12, 11, 12, 11, 12, 11, 12, 11, 12] := by decide +kernel

/-- **Negative result (C02/C10).** A flux from the direct phase that is not declared static is invisible
to the constraints of the solved storage (its slot has been cleared): the 20 mm storage of `demo` ends
at 32 mm without any overflow. -/
theorem c10_direct_inflow_ignored :
    ((processTimeStep { demo with flux := fun f => if f = 1 then ⟨.cont 1, false, false, 1/2⟩ else flux f }
        laws .euler 1 start).toOption.map (fun s => (s.ph.cont 1).content)) = some 32 := by decide +kernel

end HB.Demo
