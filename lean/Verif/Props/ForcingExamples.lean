import Verif.Props.Forcing

/-! # Witnesses for C40, C41, C54: satisfied hypotheses, and the cases the full properties miss -/

set_option linter.unusedSectionVars false

namespace HB

/-- A model which reads the precipitation of unit 1 once per step and records what it read. -/
def echoCfg (start stop dt : ℚ) (spin : ℕ) : RunCfg ℚ ℚ Unit Unit ℚ where
  start := start
  stop := stop
  dt := dt
  rnd := fun x => x
  rows := stepCount (fun x => x) start stop dt
  spin := spin
  proc := fun _ => .read 1 .precipitation fun x => .ret (true, x)
  par := fun _ p w => (p, w)
  act := fun _ a w => (a, w)
  restore := id
  record := id

def echoSt (start : ℚ) (l : List (DSeries ℚ)) : RunSt ℚ ℚ Unit Unit ℚ :=
  { date := start, world := 0, acts := (), pars := (), series := l, over := fun _ _ => none, cursor := 0,
    initial := none, rowsOut := [], reads := [] }

/-- Series from 2020-01-01 with values 100, 101, ... every `step` days. -/
def ramp (step : ℚ) (n : ℕ) : Option (DSeries ℚ) :=
  createSeries id .precipitation ((List.range n).map fun i => 58849 + i * step)
    [(1, (List.range n).map fun i => 100 + (i : ℚ))]

/-- Recorded dates and values of a completed run. -/
def Out.table {W R : Type} (x : Out (RunSt ℚ W Unit Unit R)) : Option (List (ℕ × ℚ × R)) :=
  match x with
  | .ok s => some s.rowsOut
  | _ => none

/-- Whether the run read outside a series. -/
def Out.isUbRead {S : Type} (x : Out S) : Bool :=
  match x with
  | .ubRead => true
  | _ => false

/-- Run of the echo model over an accepted ramp; `none` if the series is not built or not accepted. -/
def echoRun (start stop dt : ℚ) (spin fuel : ℕ) (t : Option (DSeries ℚ)) : Option (Out (RunSt ℚ ℚ Unit Unit ℚ)) :=
  t.bind fun t =>
    if (addTimeSeries start stop [] t).2 then some (run (echoCfg start stop dt spin) fuel (echoSt start [t])) else none

/-- Daily data from 2020-01-01, run from 3 to 6 January after two steps of spin-up: each row holds the value of its
date. -/
example : (echoRun 58851 58854 1 2 10 (ramp 1 10)).bind Out.table =
    some [(0, 58851, 102), (1, 58852, 103), (2, 58853, 104), (3, 58854, 105)] := by decide +kernel

/-- The ramp used above, built by the constructor. -/
def ramp10 : DSeries ℚ :=
  ⟨.precipitation, [(1, ⟨58849, 58858, 1, .day, [100, 101, 102, 103, 104, 105, 106, 107, 108, 109], 0⟩)]⟩

theorem ramp10_built : createSeries id .precipitation ((List.range 10).map fun i : ℕ => 58849 + (i : ℚ) * 1)
    [(1, (List.range 10).map fun i : ℕ => 100 + (i : ℚ))] = some ramp10 := by decide +kernel

/-- Hypotheses of `c40_reads_current_date_partial` and `c41_never_out_of_range_partial` are met by that run. -/
example : (∀ u v r, attached [ramp10] u v = some r → Aligned (58851 : ℚ) 1 r) ∧
    (∀ t ∈ [ramp10], ∀ e ∈ t.data, Covers (58851 : ℚ) 1 e.2) ∧ (addTimeSeries 58851 58854 [] ramp10).2 = true ∧
    (run (echoCfg 58851 58854 1 2) 10 (echoSt 58851 [ramp10])).NoForcingTrouble := by
  have hd : ∀ u v r, attached [ramp10] u v = some r → r = (⟨58849, 58858, 1, .day,
      [100, 101, 102, 103, 104, 105, 106, 107, 108, 109], 0⟩ : RegSeries ℚ) := by
    intro u v r h
    obtain ⟨t, ht, e, he, rfl, -⟩ := attached_mem h
    simp only [List.mem_singleton] at ht
    subst ht
    simp only [ramp10, List.mem_singleton] at he
    rw [he]
  have hcov : ∀ t ∈ [ramp10], ∀ e ∈ t.data, Covers (58851 : ℚ) 1 e.2 := by
    intro t ht e he
    simp only [List.mem_singleton] at ht
    subst ht
    simp only [ramp10, List.mem_singleton] at he
    subst he
    exact ⟨by norm_num [unitDays], .inl rfl⟩
  have hacc : (addTimeSeries 58851 58854 [] ramp10).2 = true := by decide +kernel
  refine ⟨?_, hcov, hacc, ?_⟩
  · intro u v r h
    rw [hd u v r h]
    exact ⟨by norm_num [unitDays], .inr ⟨rfl, 2, by norm_num⟩⟩
  · refine c41_never_out_of_range_partial (echoCfg 58851 58854 1 2) (fun _ => rfl) (by norm_num [echoCfg])
      (by norm_num [echoCfg]) (by decide +kernel) 10 (echoSt 58851 [ramp10]) rfl ?_ ?_ hcov ?_
    · intro t ht
      simp only [echoSt, List.mem_singleton] at ht
      subst ht
      exact ⟨id, .precipitation, _, _, ramp10_built⟩
    · intro t ht
      simp only [echoSt, List.mem_singleton] at ht
      subst ht
      exact ⟨[], hacc⟩
    · intro w
      exact ⟨by decide +kernel, fun _ => trivial⟩

/-! ## C40 fails for other offsets and steps -/

/-- Hourly data from 2020-01-01 00:00, hourly model from 06:00: accepted, but the first step reads the value of 00:00
(100) and not that of 06:00 (106). -/
theorem c40_hour_offset_misread :
    (echoRun (58849 + 1 / 4) (58849 + 1 / 2) (1 / 24) 0 20 (ramp (1 / 24) 48)).bind Out.table =
      some ((List.range 7).map fun i : ℕ => (i, 58849 + 1 / 4 + (i : ℚ) / 24, 100 + (i : ℚ))) ∧
    (∀ t, ramp (1 / 24) 48 = some t → ∀ r, attached [t] 1 .precipitation = some r →
      DatedAt r (58849 + 1 / 4) 106 ∧ ¬ DatedAt r (58849 + 1 / 4) 100) := by
  refine ⟨by decide +kernel, ?_⟩
  intro t ht r hr
  have h1 : (ramp (1 / 24) 48).bind (fun t => attached [t] 1 .precipitation) = some ⟨58849, 58850 + 23 / 24, 1, .hour,
      (List.range 48).map fun i : ℕ => 100 + (i : ℚ), 0⟩ := by decide +kernel
  rw [ht, Option.bind_some, hr] at h1
  cases h1
  refine ⟨⟨6, by decide +kernel, by norm_num [unitDays]⟩, ?_⟩
  rintro ⟨k, hx, hk⟩
  simp only [unitDays] at hk
  have : (k : ℚ) = 6 := by push_cast at hk; linarith
  have hk6 : k = 6 := by exact_mod_cast this
  subst hk6
  revert hx
  decide +kernel

/-- Three-hourly data from 2020-01-01, three-hourly model from 2 January: accepted, but the first step reads the value
dated 4 January (124, index 24) and not the one of its date (108, index 8). -/
theorem c40_three_hourly_misread :
    ((echoRun 58850 (58850 + 1 / 8) (1 / 8) 0 20 (ramp (1 / 8) 40)).bind Out.table) =
      some [(0, 58850, 124), (1, 58850 + 1 / 8, 125)] ∧
    (58849 : ℚ) + 8 * (1 / 8) = 58850 ∧ (58849 : ℚ) + 24 * (1 / 8) = 58852 := by
  refine ⟨by decide +kernel, by norm_num, by norm_num⟩

/-- Daily data and a two-day model step: accepted, and the second step (3 January) reads the value of 2 January. -/
theorem c40_other_step_misread :
    (echoRun 58849 58853 2 0 20 (ramp 1 10)).bind Out.table =
      some [(0, 58849, 100), (1, 58851, 101), (2, 58853, 102)] := by decide +kernel

/-! ## C41 fails for other steps -/

/-- Daily data over the modelling day and an hourly model: accepted, then read past its end. -/
theorem c41_long_step_out_of_range :
    (echoRun 58849 58851 (1 / 24) 0 60 (ramp 1 3)).map Out.isUbRead = some true := by decide +kernel

/-- Three-hourly data starting ten days before the period: accepted, then read past its end. -/
theorem c41_three_hourly_out_of_range :
    (echoRun 58859 (58859 + 1 / 2) (1 / 8) 0 60 (ramp (1 / 8) 86)).map Out.isUbRead = some true := by decide +kernel

/-! ## C54: overrides survive an aborted run -/

/-- A model whose step overrides the precipitation by what it read plus 99 and reads it again; with world 0 (say, a
parameter making the solver fail) the step then fails. -/
def overrideCfg : RunCfg ℚ ℚ Unit Unit ℚ :=
  { echoCfg 58849 58850 1 0 with
    proc := fun w => .read 1 .precipitation fun x => .write 1 .precipitation (x + 99) <| .read 1 .precipitation fun y =>
      .ret (decide (w ≠ 0), if w = 0 then 0 else y) }

/-- State left by a run, whatever its outcome. -/
def Out.left {S : Type} (x : Out S) : Option S :=
  match x with
  | .ok s => some s
  | .fail _ s => some s
  | _ => none

/-- First run of the model with a working parameter: the readers see 100 then 199 on the first day, 101 then 200 on the
second. -/
example : (run overrideCfg 10 { echoSt 58849 [ramp10] with world := 1 }).left.map (fun s => s.reads) =
    some [[.rd 1 .precipitation 100, .wr 1 .precipitation 199, .rd 1 .precipitation 199],
      [.rd 1 .precipitation 101, .wr 1 .precipitation 200, .rd 1 .precipitation 200]] := by decide +kernel

/-- **The override outlives an aborted run.** The first run fails during its first step; after a reset and a corrected
parameter (world 1), the first step of the new run reads the old override (199) instead of the series (100). -/
theorem c54_override_survives_abort :
    (((run overrideCfg 10 { echoSt 58849 [ramp10] with world := 0 }).left.map
      fun s => resetRun overrideCfg id (fun _ => 1) { s with reads := [] }).bind
        fun s => (run overrideCfg 10 s).left.map fun s => s.reads) =
    some [[.rd 1 .precipitation 199, .wr 1 .precipitation 298, .rd 1 .precipitation 298],
      [.rd 1 .precipitation 101, .wr 1 .precipitation 200, .rd 1 .precipitation 200]] := by decide +kernel

end HB
