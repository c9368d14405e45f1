import Verif.Props.Spinup
import Verif.Props.LandCover

/-! # C43 (length and initial values), C35 (dates handed to the actions), C32 (which cover is the generic one) -/

set_option linter.unusedSectionVars false

namespace HB

section
variable {K W A P R : Type} [Field K] [LinearOrder K] [IsStrictOrderedRing K] [FloorRing K]

/-- **C43 (length).**  In exact arithmetic a spin-up of `days` days runs the number `n` of steps which fit in `days`, or all the
steps of the period (dates `start + i·dt ≤ stop`) if there are fewer. -/
theorem c43_length (start stop dt days : K) (hdt : 0 < dt) (hse : start ≤ stop) (hdays : 0 ≤ days) :
    let n := spinSteps (fun x => x) start stop dt days
    (n : K) * dt ≤ days ∧ (∀ i < n, start + (i : K) * dt ≤ stop) ∧
    (days < (n + 1) * dt ∨ stop < start + (n : K) * dt) := by
  intro n
  have h0 : 0 ≤ ⌊days / dt⌋ := Int.floor_nonneg.2 (div_nonneg hdays hdt.le)
  have h1 : 0 ≤ ⌊(stop - start) / dt⌋ := Int.floor_nonneg.2 (div_nonneg (sub_nonneg.2 hse) hdt.le)
  obtain ⟨a, ha⟩ := Int.eq_ofNat_of_zero_le h0
  obtain ⟨b, hb⟩ := Int.eq_ofNat_of_zero_le h1
  have hn : n = min a (b + 1) := by
    simp only [n, spinSteps, stepCount]
    rw [add_comm, Int.floor_add_one, ha, hb]
    congr 1
  have ha1 : (a : K) * dt ≤ days := by
    have := Int.floor_le (days / dt)
    rw [ha, le_div_iff₀ hdt] at this; exact_mod_cast this
  have ha2 : days < (a + 1) * dt := by
    have := Int.lt_floor_add_one (days / dt)
    rw [ha, div_lt_iff₀ hdt] at this; exact_mod_cast this
  have hb1 : (b : K) * dt ≤ stop - start := by
    have := Int.floor_le ((stop - start) / dt)
    rw [hb, le_div_iff₀ hdt] at this; exact_mod_cast this
  have hb2 : stop - start < (b + 1) * dt := by
    have := Int.lt_floor_add_one ((stop - start) / dt)
    rw [hb, div_lt_iff₀ hdt] at this; exact_mod_cast this
  refine ⟨?_, ?_, ?_⟩
  · have : (n : K) ≤ a := by exact_mod_cast hn ▸ min_le_left _ _
    nlinarith
  · intro i hi
    have : (i : K) ≤ b := by
      have : i ≤ b := by omega
      exact_mod_cast this
    nlinarith
  · rcases _root_.le_total a (b + 1) with h | h
    · rw [min_eq_left h] at hn
      rw [hn]; exact .inl ha2
    · rw [min_eq_right h] at hn
      rw [hn]; right; push_cast; linarith

/-- The spin-up never runs past the period, also with rounding: the hypothesis of C41. -/
theorem c43_within_period (rnd : K → K) (start stop dt days : K) :
    spinSteps rnd start stop dt days ≤ stepCount rnd start stop dt := min_le_right _ _

theorem mainLoop_initial {c : RunCfg K W A P R} : ∀ (fuel : ℕ) {s s' : RunSt K W A P R}, mainLoop c fuel s = .ok s' →
    s'.initial = s.initial := by
  intro fuel
  induction fuel with
  | zero => intro s s' h; cases h
  | succ n ih =>
    intro s s' h
    unfold mainLoop at h
    split at h
    · cases h; rfl
    · obtain ⟨s1, h1, h2⟩ := Out.then_ok h
      obtain ⟨w, o, evs, -, -, -, -, -, -, -, -, -, hi, -⟩ := mainStep_ok h1
      rw [ih h2, hi]

/-- **C43 (initial values).**  The initial values saved with the results are those of the model after the spin-up and before the
first step of the run. -/
theorem c43_initial_values (c : RunCfg K W A P R) (fuel : ℕ) (s s' : RunSt K W A P R) (h : run c fuel s = .ok s') :
    ∃ s1 s2, initSeries s = .ok s1 ∧ spinup c s1 = .ok s2 ∧ s'.initial = some (c.record s2.world) := by
  unfold run at h
  obtain ⟨s2, h2, h3⟩ := Out.then_ok h
  obtain ⟨s1, h1, h2⟩ := Out.then_ok h2
  exact ⟨s1, s2, h1, h2, mainLoop_initial fuel h3⟩

/-- **C35, C47 (dates handed over).**  For a calendar and a parameter updater which note the dates they are called with: in every
completed run they are called once per recorded row, after it, with the date of the row advanced by one step; in a spin-up not at
all. -/
theorem c35_dates_handed_over (c : RunCfg K W (List K) (List K) R) (ha : ∀ d l w, (c.act d l w).1 = l ++ [d])
    (hp : ∀ d l w, (c.par d l w).1 = l ++ [d]) (fuel : ℕ) (s s' : RunSt K W (List K) (List K) R) (hr : s.rowsOut = [])
    (h : run c fuel s = .ok s') :
    s'.acts = s.acts ++ s'.rowsOut.map (fun r => c.rnd (r.2.1 + c.dt)) ∧
    s'.pars = s.pars ++ s'.rowsOut.map (fun r => c.rnd (r.2.1 + c.dt)) := by
  have loop : ∀ (fuel : ℕ) (s s' : RunSt K W (List K) (List K) R), mainLoop c fuel s = .ok s' →
      ∃ rows, s'.rowsOut = s.rowsOut ++ rows ∧ s'.acts = s.acts ++ rows.map (fun r => c.rnd (r.2.1 + c.dt)) ∧
        s'.pars = s.pars ++ rows.map (fun r => c.rnd (r.2.1 + c.dt)) := by
    intro fuel
    induction fuel with
    | zero => intro s s' h; cases h
    | succ n ih =>
      intro s s' h
      unfold mainLoop at h
      split at h
      · cases h; exact ⟨[], by simp⟩
      · obtain ⟨s1, h1, h2⟩ := Out.then_ok h
        obtain ⟨w, o, evs, -, -, -, -, -, hrow, -, -, -, -, hpar, hact, -⟩ := mainStep_ok h1
        obtain ⟨rows, r1, r2, r3⟩ := ih s1 s' h2
        refine ⟨(s.cursor, s.date, c.record w) :: rows, ?_, ?_, ?_⟩
        · rw [r1, hrow]; simp
        · rw [r2, hact, ha]; simp
        · rw [r3, hpar, hp]; simp
  unfold run at h
  obtain ⟨s2, h2, h3⟩ := Out.then_ok h
  obtain ⟨s1, h1, h2⟩ := Out.then_ok h2
  obtain ⟨hs1, -⟩ := initSeries_ok h1
  obtain ⟨f1, f2, f3, f4, f5, f6⟩ := spinup_ok h2
  obtain ⟨rows, r1, r2, r3⟩ := loop fuel _ _ h3
  have e : s'.rowsOut = rows := by rw [r1]; simp only [saveInitial]; rw [f4, hs1]; simp [hr]
  rw [e, r2, r3]
  simp only [saveInitial]
  rw [f1, f2, hs1]
  exact ⟨rfl, rfl⟩

/-- **C32 (generic cover).**  The cover absorbing the changes is the one named "open", else "ground", else "generic", else
"generic_land_cover". -/
theorem c32_generic_cover (u : HU K) (g : String) :
    u.generic = some g ↔ g ∈ u.covers ∧
      (g = "open" ∨ (g = "ground" ∧ "open" ∉ u.covers) ∨ (g = "generic" ∧ "open" ∉ u.covers ∧ "ground" ∉ u.covers) ∨
        (g = "generic_land_cover" ∧ "open" ∉ u.covers ∧ "ground" ∉ u.covers ∧ "generic" ∉ u.covers)) := by
  unfold HU.generic
  by_cases h1 : "open" ∈ u.covers
  · simp only [List.find?_cons, h1, decide_true, Option.some.injEq, not_true, and_false, or_false, false_and]
    constructor
    · rintro rfl; exact ⟨h1, rfl⟩
    · rintro ⟨-, rfl⟩; rfl
  · by_cases h2 : "ground" ∈ u.covers
    · simp only [List.find?_cons, h1, h2, decide_true, decide_false, Option.some.injEq, not_true, not_false_iff, and_false, or_false, false_and, and_true]
      constructor
      · rintro rfl; exact ⟨h2, .inr rfl⟩
      · rintro ⟨hm, rfl | rfl⟩
        · exact absurd hm h1
        · rfl
    · by_cases h3 : "generic" ∈ u.covers
      · simp only [List.find?_cons, h1, h2, h3, decide_true, decide_false, Option.some.injEq, not_true, not_false_iff, and_false, or_false, and_true]
        constructor
        · rintro rfl; exact ⟨h3, .inr (.inr rfl)⟩
        · rintro ⟨hm, rfl | rfl | rfl⟩
          · exact absurd hm h1
          · exact absurd hm h2
          · rfl
      · by_cases h4 : "generic_land_cover" ∈ u.covers
        · simp only [List.find?_cons, h1, h2, h3, h4, decide_true, decide_false, Option.some.injEq, not_false_iff, and_true]
          constructor
          · rintro rfl; exact ⟨h4, .inr (.inr (.inr rfl))⟩
          · rintro ⟨hm, rfl | rfl | rfl | rfl⟩
            · exact absurd hm h1
            · exact absurd hm h2
            · exact absurd hm h3
            · rfl
        · simp only [List.find?_cons, List.find?_nil, h1, h2, h3, h4, decide_false, reduceCtorEq, false_iff]
          rintro ⟨hm, rfl | ⟨rfl, -⟩ | ⟨rfl, -⟩ | ⟨rfl, -⟩⟩
          · exact h1 hm
          · exact h2 hm
          · exact h3 hm
          · exact h4 hm

end

/-! ## Examples -/

/-- Ten days of spin-up on a period of three daily steps: three steps. A day and a half with daily steps: one. -/
example : spinSteps (fun x : ℚ => x) 58849 58851 1 10 = 3 ∧ spinSteps (fun x : ℚ => x) 58849 58851 1 (3 / 2) = 1 := by decide +kernel

/-- The initial values of the run of `spinCfg`: the outlet after two steps of spin-up read the second value of the period. -/
example : (run spinCfg 10 spinSt).done.map (fun s => s.initial) = some (some 103) := by decide +kernel

/-- A run noting the dates: two rows, two calls, one step later. -/
def noteCfg : RunCfg ℚ (World ℚ) (List ℚ) (List ℚ) ℚ where
  start := 58851
  stop := 58852
  dt := 1
  rnd := fun x => x
  rows := 2
  spin := 2
  proc := spinCfg.proc
  par := fun d p w => (p ++ [d], w)
  act := fun d a w => (a ++ [d], w)
  restore := World.restoreExtents
  record := fun w => w.outlet.sum

example : (run noteCfg 10 { spinSt with acts := [], pars := [] }).done.map (fun s => (s.acts, s.pars)) =
    some ([58852, 58853], [58852, 58853]) := by decide +kernel

end HB
