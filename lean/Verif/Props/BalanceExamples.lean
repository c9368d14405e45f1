import Verif.Props.Balance

/-!
# Concrete networks

`demo` is a small but complete model: rain splitter → ground (direct, 30 of the 60 m² of the unit) →
storage with a capacity and a linked overflow (solved) → sub-basin reservoir (solved) → outlet, with
evaporation to the atmosphere.  It meets all hypotheses of the balance theorems, for the explicit and
the sequential solvers, and its steps succeed.

`stuck` shows that the hypothesis on null bricks is needed (water is created when it fails).
-/

namespace HB.Demo

open Spec

/-- Fluxes: 0 rain → ground; 1 ground runoff → storage (weighted by the land cover fraction);
2 evaporation of the storage; 3 storage → reservoir and 4 overflow → outlet, both weighted by the
unit area over the basin area; 5 reservoir → outlet. -/
def flux : Nat → FluxSpec ℚ
  | 0 => ⟨.cont 0, false, true, 1⟩
  | 1 => ⟨.cont 1, false, true, 1/2⟩
  | 2 => ⟨.outside, false, false, 1⟩
  | 3 => ⟨.cont 2, false, true, 3/5⟩
  | 4 => ⟨.outside, false, true, 3/5⟩
  | 5 => ⟨.outside, false, false, 1⟩
  | _ => ⟨.outside, false, false, 1⟩

def demo : Net ℚ where
  flux := flux
  fluxes := [0, 1, 2, 3, 4, 5]
  units := [⟨[(0, [0])], [⟨[(0, false)], [⟨0, 0, [1]⟩], false⟩]⟩]
  solver := [⟨[(1, false)], [⟨1, 1, [2]⟩, ⟨2, 1, [3]⟩, ⟨3, 1, [4]⟩], false⟩,
             ⟨[(2, false)], [⟨4, 2, [5]⟩], false⟩]
  ovf := fun c => if c = 1 then some 4 else none
  outlet := [4, 5]

/-- Rain comes from the hidden state; linear reservoirs, evaporation 1. -/
def laws : Laws ℚ (List ℚ) where
  rates p h ph :=
    let S := fun c => (ph.cont c).content + (ph.cont c).dyn + (ph.cont c).stat
    (fun _ => match p with
      | 0 => S 0
      | 1 => 1
      | 2 => 3/10 * S 1
      | 4 => 1/5 * S 2
      | _ => 0, 0, h)
  fin _ h _ := h
  split _ h _ := (fun _ => h.headD 0, h)

def phys : Phys ℚ where
  cont := fun c => if c = 1 then ⟨15, 0, 0, 0, some 20, false, false⟩ else ⟨5, 0, 0, 0, none, false, false⟩
  amt := fun _ => 0
  snap := fun _ => 0
  exch := fun _ => 0

def start : Sys ℚ (List ℚ) := ⟨phys, fun _ => none, [40, 0, 12]⟩

def geo : Geo ℚ where
  C := {0, 1, 2}
  A := fun c => if c = 0 then 30 else if c = 1 then 60 else 100
  tA := fun f => if f = 0 then 30 else if f = 1 then 60 else if f = 2 then 60 else 100

/-- A sequential law: half of the content, spread on the outputs. -/
def half : SeqLaw ℚ (List ℚ) := fun b dt S _ h _ =>
  (fun _ => (S.getD 0) / dt / (2 * b.outs.length), fun _ => 0, h)

theorem demo_feedForward : FeedForward demo geo.C ∅ where
  nodup := by decide +kernel
  ordered := ⟨by decide +kernel, by decide +kernel, by decide +kernel, by decide +kernel,
    by decide +kernel, by decide +kernel⟩
  covered := by decide +kernel

theorem demo_solverNet : SolverNet demo {1, 2} ∅ {1} where
  nodup := by decide +kernel
  ordered := ⟨by decide +kernel, by decide +kernel, by decide +kernel, by decide +kernel,
    by decide +kernel, by decide +kernel⟩
  handed := by unfold FreshOK; decide +kernel
  covered := by decide +kernel

theorem demo_directNet : DirectNet demo {0} ∅ where
  nodup := by decide +kernel
  ordered := ⟨by decide +kernel, by decide +kernel, by decide +kernel, by decide +kernel,
    by decide +kernel, by decide +kernel⟩
  covered := by decide +kernel

theorem demo_stageOK : StageOK demo := ⟨by decide +kernel, by decide +kernel, by decide +kernel⟩

theorem demo_noInject : NoInject demo laws := fun _ _ _ _ _ _ => rfl

theorem demo_directOwn : DirectOwn demo := by unfold DirectOwn; decide +kernel

theorem demo_geoOK : GeoOK demo geo (writes demo) where
  target := by
    intro f c h hc
    match f with
    | 0 => simp [demo, flux] at h; subst h; decide +kernel
    | 1 => simp [demo, flux] at h; subst h; decide +kernel
    | 2 => simp [demo, flux] at h
    | 3 => simp [demo, flux] at h; subst h; decide +kernel
    | 4 => simp [demo, flux] at h
    | 5 => simp [demo, flux] at h
    | _ + 6 => simp [demo, flux] at h
  conserve := by
    have key : ∀ q ∈ writes demo, ∀ src, q.1 = some src → ∀ x : ℚ,
        geo.tA q.2 * (demo.flux q.2).scale x = geo.A src * x := by
      have hw : writes demo = [(none, 0), (some 0, 1), (some 1, 2), (some 1, 3), (some 1, 4), (some 2, 5)] := by
        decide +kernel
      rw [hw]
      simp only [List.mem_cons, List.not_mem_nil, or_false]
      rintro q (rfl | rfl | rfl | rfl | rfl | rfl) src h x <;> simp at h <;> subst h <;>
        norm_num [geo, demo, flux, FluxSpec.scale] <;> ring
    intro src f h _ x
    exact key (some src, f) h src rfl x

theorem demo_ready : Ready demo geo ∅ start.ph :=
  ⟨by unfold Finite'; decide +kernel, by decide +kernel, by unfold Settled; decide +kernel⟩

theorem demo_outletOK : OutletOK demo geo 100 :=
  ⟨by decide +kernel, by
    have hw : writes demo = [(none, 0), (some 0, 1), (some 1, 2), (some 1, 3), (some 1, 4), (some 2, 5)] := by
      decide +kernel
    intro f hf
    have : f = 4 ∨ f = 5 := by simpa [demo] using hf
    rcases this with rfl | rfl
    · exact ⟨1, by decide +kernel, by rw [hw]; decide⟩
    · exact ⟨2, by decide +kernel, by rw [hw]; decide⟩,
    by decide +kernel, by decide +kernel, by decide +kernel⟩

/-- The balance with the reported discharge applies to `demo`. -/
example (sch : Scheme ℚ (List ℚ)) (n : Nat) (recs : List (Phys ℚ)) (s' : Sys ℚ (List ℚ))
    (h : runSteps demo laws sch 1 List.tail n start = .ok (recs, s')) (hl : s'.ph.logs = 0) :
    |stored geo s'.ph - stored geo start.ph
        - ((recs.map (fun r => entering demo geo (writes demo) r.amt)).sum
          - 100 * (recs.map (outletDischarge demo)).sum
          - (recs.map (fun r => lost demo geo r.amt)).sum
          + (exchanged geo s'.ph - exchanged geo start.ph))| ≤ n * prec * area geo :=
  c09_discharge_balance_partial demo_feedForward (fun _ => demo_stageOK) demo_directOwn demo_geoOK
    (by decide +kernel) demo_outletOK n start s' recs demo_ready h hl

/-- Does a run of `n` steps succeed without reporting a negative content? Outlet of each step. -/
def outlets (sch : Scheme ℚ (List ℚ)) (n : Nat) : Option (Nat × List ℚ) :=
  match runSteps demo laws sch 1 List.tail n start with
  | .ok (recs, s) => some (s.ph.logs, recs.map (outletDischarge demo))
  | .error _ => none

/-- One Euler step: 40 mm of rain on the ground (45 available, released entirely) are 22.5 mm on the
unit; the storage overflows. -/
example : outlets .euler 1 = some (0, [(15 + 45/2 - 1 - 9/2 - 20) * (3/5) + 1]) := by decide +kernel

example : (outlets .euler 3).isSome ∧ (outlets .heun 2).isSome ∧ (outlets .rk4 2).isSome ∧
    (outlets (.sequential half) 2).isSome := by decide +kernel

/-- All hypotheses of the whole-run balance hold for `demo`, whatever the explicit solver. -/
example (sch : Scheme ℚ (List ℚ)) (n : Nat) (recs : List (Phys ℚ)) (s' : Sys ℚ (List ℚ))
    (h : runSteps demo laws sch 1 List.tail n start = .ok (recs, s')) (hl : s'.ph.logs = 0) :
    |stored geo s'.ph - (stored geo start.ph
        + (recs.map (fun r => entering demo geo (writes demo) r.amt)).sum
        - (recs.map (fun r => leaving demo geo (writes demo) r.amt)).sum
        + (exchanged geo s'.ph - exchanged geo start.ph))| ≤ n * prec * area geo :=
  (c09_run_balance_partial demo_feedForward (fun _ => demo_stageOK) demo_directOwn demo_geoOK
    (by decide +kernel) n start s' recs demo_ready h hl).2

/-! ## The condition on null bricks is needed

A land cover whose area fraction drops to zero is skipped by the direct phase (`IsNull`), but the
amount of its output fluxes is not cleared: the target books the last amount again at every step. -/

/-- `demo` after the land cover has been reduced to nothing. -/
def demoNull : Net ℚ :=
  { demo with units := [⟨[(0, [0])], [⟨[(0, false)], [⟨0, 0, [1]⟩], true⟩]⟩] }

/-- The solved part of the system. -/
def geo2 : Geo ℚ := { geo with C := {1, 2} }

/-- State after one step of `demo`, then after one more step of `demoNull`. -/
def nullRun : Option (Phys ℚ × Phys ℚ) := do
  let s1 ← (processTimeStep demo laws .euler 1 start).toOption
  let s2 ← (processTimeStep demoNull laws .euler 1 { s1 with hid := [0] }).toOption
  return (s1.ph, s2.ph)

/-- **Negative result (C09).** Without the condition `stuck`, water is created: one step after the land
cover has disappeared, with no rain, the balance of the remaining storages is off by 60 · 22.5 (the
runoff of the *previous* step is received a second time). -/
theorem c09_null_brick_creates_water :
    ∃ a b, nullRun = some (a, b) ∧ b.logs = 0 ∧
      entering demoNull geo2 (writes demoNull) b.amt = 0 ∧
      stored geo2 b = stored geo2 a - leaving demoNull geo2 (writes demoNull) b.amt + 60 * (45/2) := by
  have h : (nullRun.map (fun q => (q.2.logs, entering demoNull geo2 (writes demoNull) q.2.amt,
      stored geo2 q.2 - (stored geo2 q.1 - leaving demoNull geo2 (writes demoNull) q.2.amt)))) =
      some (0, 0, 60 * (45/2)) := by decide +kernel
  rw [Option.map_eq_some_iff] at h
  obtain ⟨q, hq, h⟩ := h
  simp only [Prod.mk.injEq] at h
  exact ⟨q.1, q.2, hq, h.1, h.2.1, by linarith [h.2.2]⟩

/-! ## The condition on instantaneous outputs is needed for the staged solvers

`demoInst`: the storage hands its outflow to the reservoir instantaneously.  Every trial stage of
Heun / RK4 deposits it in the reservoir's static change, and only the dynamic changes are rolled back. -/

def demoInst : Net ℚ :=
  { demo with flux := fun f => if f = 3 then ⟨.cont 2, true, false, 3/5⟩ else flux f }

/-- Balance error of one step of `demoInst` without rain. -/
def instError (sch : Scheme ℚ (List ℚ)) : Option (Nat × ℚ) := do
  let s1 ← (processTimeStep demoInst laws sch 1 { start with hid := [0] }).toOption
  return (s1.ph.logs, stored geo s1.ph - (stored geo start.ph
    + entering demoInst geo (writes demoInst) s1.ph.amt - leaving demoInst geo (writes demoInst) s1.ph.amt))

/-- **Negative result (C07).** With an instantaneous output of a solved storage, Euler balances exactly
but Heun creates the water of its trial stage (the first-stage outflow 3/10 · 15 over 60 m²) and RK4 the
water of its three trial stages. -/
theorem c07_instantaneous_output_creates_water :
    instError .euler = some (0, 0) ∧ instError .heun = some (0, 60 * (3/10) * 15) ∧
    (∃ e, instError .rk4 = some (0, e) ∧ 60 * 3/10 * 15 < e) := by
  refine ⟨by decide +kernel, by decide +kernel, ?_⟩
  have h : ((instError .rk4).any (fun e => e.1 == 0 && decide (60 * 3/10 * 15 < e.2))) = true := by
    decide +kernel
  cases hx : instError .rk4 with
  | none => rw [hx] at h; simp at h
  | some e => rw [hx] at h; simp at h; exact ⟨e.2, by rw [← h.1], h.2⟩

end HB.Demo
