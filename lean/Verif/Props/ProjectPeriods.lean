import Verif.Model.ProjectPeriods
import Verif.Props.ProjectObs
import Verif.Props.Periods2

/-! # C95: periods of a project file -/

namespace HB.Project

open Custom (Val get has truthy)
open Periods (Spinup)
open Spec

/-- The section about the periods: a mapping, or a pair of dates for the simulation alone. -/
def PeriodsOf (config d : Dict) : Prop :=
  get config "periods" = some (.dict d) ∨ ∃ a b, get config "periods" = some (.list [a, b]) ∧ d = [("simulation", .list [a, b])]

/-- A pair of dates. -/
def IsSpan (date : Val → Option ℤ) (v : Val) (b : ℤ × ℤ) : Prop := ∃ x y, v = .list [x, y] ∧ date x = some b.1 ∧ date y = some b.2

/-- An empty value: null, false, zero, an empty text, list or mapping. -/
def Empty (v : Val) : Prop := v = .null ∨ v = .bool false ∨ v = .num 0 ∨ v = .str "" ∨ v = .list [] ∨ v = .dict []

/-- The calibration or the validation. -/
def Evaluation (date : Val → Option ℤ) (d : Dict) (k : String) (r : Option (ℤ × ℤ)) : Prop :=
  (r = none ∧ ∀ v, get d k = some v → Empty v) ∨ ∃ v b, get d k = some v ∧ IsSpan date v b ∧ r = some b

/-- The simulation. -/
def Simulation (date : Val → Option ℤ) (d : Dict) (r : Option (ℤ × ℤ)) : Prop :=
  (r = none ∧ ∀ v, get d "simulation" = some v → v = .null) ∨ ∃ v b, get d "simulation" = some v ∧ IsSpan date v b ∧ r = some b

/-- The spin-up: days, or a text; none when it is not given. -/
def SpinupOf (text : String → Option Spinup) (d : Dict) (s : Spinup) : Prop :=
  (get d "spinup" = none ∧ s = .days 0) ∨ (∃ n, get d "spinup" = some (.num n) ∧ s = .days n) ∨ ∃ t, get d "spinup" = some (.str t) ∧ text t = some s

theorem span_iff (date : Val → Option ℤ) (v : Val) (b : ℤ × ℤ) : span date v = some b ↔ IsSpan date v b := by
  unfold span IsSpan
  constructor
  · intro h
    split at h
    · split at h
      · rename_i x y hx hy
        injection h with h; subst h
        exact ⟨_, _, rfl, hx, hy⟩
      · cases h
    · cases h
  · rintro ⟨x, y, rfl, hx, hy⟩
    simp only [hx, hy]

theorem empty_iff (v : Val) : truthy v = false ↔ Empty v := by
  unfold truthy Empty
  cases v <;> simp

theorem evaluation_iff (date : Val → Option ℤ) (d : Dict) (k : String) (r : Option (ℤ × ℤ)) : evaluation date d k = some r ↔ Evaluation date d k r := by
  unfold evaluation Evaluation
  cases h : get d k with
  | none => simp [eq_comm]
  | some v =>
    simp only [Option.some.injEq, forall_eq']
    by_cases ht : truthy v = true
    · rw [if_pos ht]
      have he : ¬ Empty v := by rw [← empty_iff, ht]; simp
      cases r with
      | none => simp [he]
      | some b =>
        constructor
        · intro hs
          rw [Option.map_eq_some_iff] at hs
          obtain ⟨b', hb, e⟩ := hs
          injection e with e; subst e
          exact Or.inr ⟨v, b', rfl, (span_iff _ _ _).mp hb, rfl⟩
        · rintro (⟨h1, -⟩ | ⟨v', b', rfl, h2, h3⟩)
          · cases h1
          · rw [(span_iff _ _ _).mpr h2, h3]; rfl
    · rw [if_neg ht]
      have ht' : truthy v = false := by simpa using ht
      constructor
      · intro e; injection e with e; exact Or.inl ⟨e.symm, (empty_iff v).mp ht'⟩
      · rintro (⟨h1, -⟩ | ⟨v', b', rfl, ⟨x, y, hv, -⟩, h3⟩)
        · rw [h1]
        · rw [hv] at ht'; cases ht'

theorem simulation_iff (date : Val → Option ℤ) (d : Dict) (r : Option (ℤ × ℤ)) : simulation date d = some r ↔ Simulation date d r := by
  unfold simulation Simulation
  split
  · rename_i h; rw [h]; simp [eq_comm]
  · rename_i h; rw [h]
    constructor
    · intro e; injection e with e; left; refine ⟨e.symm, ?_⟩; intro v hv; injection hv with hv; exact hv.symm
    · rintro (⟨h1, -⟩ | ⟨v', b', hv, ⟨x, y, hv', -⟩, h3⟩)
      · rw [h1]
      · rw [hv'] at hv; cases hv
  · rename_i v hn h
    constructor
    · intro hs
      rw [Option.map_eq_some_iff] at hs
      obtain ⟨b', hb, e⟩ := hs
      exact Or.inr ⟨v, b', h, (span_iff _ _ _).mp hb, e.symm⟩
    · rintro (⟨-, h2⟩ | ⟨v', b', hv, h2, h3⟩)
      · exact (hn (h2 v h)).elim
      · rw [h] at hv; injection hv with hv; subst hv
        rw [(span_iff _ _ _).mpr h2, h3]; rfl

theorem spinup_iff (text : String → Option Spinup) (d : Dict) (s : Spinup) : spinup text d = some s ↔ SpinupOf text d s := by
  unfold spinup SpinupOf
  cases h : get d "spinup" with
  | none => simp [eq_comm]
  | some v => cases v <;> simp [eq_comm]

theorem section_iff (config d : Dict) : periodsSection config = some d ↔ PeriodsOf config d := by
  unfold periodsSection PeriodsOf
  split
  · rename_i a b h; rw [h]
    constructor
    · intro e; injection e with e; exact Or.inr ⟨a, b, rfl, e.symm⟩
    · rintro (h1 | ⟨a', b', h1, h2⟩)
      · cases h1
      · injection h1 with h1; injection h1 with h1; injection h1 with h1 h3; injection h3 with h3; subst h1; subst h3; rw [h2]
  · rename_i d' h; rw [h]; simp
  · rename_i h1 h2
    constructor
    · intro e; cases e
    · rintro (h | ⟨a, b, h, -⟩)
      · exact absurd h (h2 d)
      · exact absurd h (h1 a b)

/-- **Which sections about the periods are accepted, and what they give**: known keys only, the calibration and the validation pairs of dates (or empty), the simulation a pair
of dates (or null), the spin-up a number of days or a text (no spin-up when the key is absent); the periods are then built from exactly these. -/
theorem c95_periods (date : Val → Option ℤ) (text : String → Option Spinup) (config : Dict) (ps : Periods.Periods) :
    readPeriods date text config = .ok ps ↔
      ∃ d c v s sp, PeriodsOf config d ∧ Keys d ["calibration", "validation", "simulation", "spinup"] ∧ Evaluation date d "calibration" c ∧
        Evaluation date d "validation" v ∧ Simulation date d s ∧ SpinupOf text d sp ∧ Periods.Periods.make c v s sp = .ok ps := by
  constructor
  · intro h
    unfold readPeriods at h
    split at h
    · cases h
    · rename_i d hd
      split_ifs at h with hk
      rw [not_not, keyMsgs_nil] at hk
      split at h
      · rename_i c v s sp hc hv hs hsp
        split at h
        · rename_i p hp
          injection h with h; subst h
          exact ⟨d, c, v, s, sp, (section_iff _ _).mp hd, hk, (evaluation_iff _ _ _ _).mp hc, (evaluation_iff _ _ _ _).mp hv, (simulation_iff _ _ _).mp hs,
            (spinup_iff _ _ _).mp hsp, hp⟩
        · cases h
      · cases h
  · rintro ⟨d, c, v, s, sp, hd, hk, hc, hv, hs, hsp, hp⟩
    rw [← section_iff] at hd
    rw [← evaluation_iff] at hc hv
    rw [← simulation_iff] at hs
    rw [← spinup_iff] at hsp
    unfold readPeriods
    rw [hd]
    simp only
    rw [if_neg (by rw [not_not, keyMsgs_nil]; exact hk), hc, hv, hs, hsp]
    simp only [hp]

/-- **Accepted periods are consistent**: none ends before its start, the calibration and the validation lie within the simulation. -/
theorem c95_periods_nested (date : Val → Option ℤ) (text : String → Option Spinup) (config : Dict) (ps : Periods.Periods)
    (h : readPeriods date text config = .ok ps) :
    ∀ p, ps.calibration = some p ∨ ps.validation = some p ∨ ps.simulation = p →
      p.start ≤ p.stop ∧ ps.simulation.start ≤ p.start ∧ p.stop ≤ ps.simulation.stop := by
  obtain ⟨d, c, v, s, sp, -, -, -, -, -, -, hp⟩ := (c95_periods date text config ps).mp h
  obtain ⟨-, -, -, -, h5, -⟩ := Periods.c84_periods c v s sp ps hp
  intro p hpd
  have : ∃ n, (n, p) ∈ ps.defined := by
    unfold Periods.Periods.defined
    rcases hpd with h | h | h
    · exact ⟨"calibration", by simp [h]⟩
    · exact ⟨"validation", by simp [h]⟩
    · exact ⟨"simulation", by simp [h]⟩
  obtain ⟨n, hn⟩ := this
  exact h5 _ hn

/-- **A project that does not mention a spin-up runs without one** (a set of periods built by hand has one of four years by default). -/
theorem c95_no_spinup (date : Val → Option ℤ) (text : String → Option Spinup) (config d : Dict) (ps : Periods.Periods)
    (h : readPeriods date text config = .ok ps) (hd : PeriodsOf config d) (hs : get d "spinup" = none) (p : Periods.Period) (hp : p.start ≤ p.stop) :
    ps.spinupFor p = .ok 0 := by
  obtain ⟨d', c, v, s, sp, h1, -, -, -, -, h6, h7⟩ := (c95_periods date text config ps).mp h
  have e : d' = d := by
    rw [← section_iff] at h1 hd
    rw [h1] at hd; injection hd
  subst e
  have hsp : sp = .days 0 := by
    rcases h6 with ⟨-, h⟩ | ⟨n, h, -⟩ | ⟨t, h, -⟩
    · exact h
    · rw [hs] at h; cases h
    · rw [hs] at h; cases h
  obtain ⟨-, -, h3, -⟩ := Periods.c84_periods c v s sp ps h7
  have hn : 0 ≤ p.nDays := by
    unfold Periods.Period.nDays Periods.day
    have : 0 ≤ (p.stop - p.start) / 86400 := Int.ediv_nonneg (by omega) (by omega)
    omega
  unfold Periods.Periods.spinupFor
  rw [h3, hsp]
  show (Except.ok (min 0 p.nDays) : Except Periods.Err ℤ) = _
  rw [min_eq_left hn]

/-- A pair of dates alone, and a split sample, are accepted. -/
theorem c95_periods_example :
    (∃ ps, readPeriods (fun v => match v with | .num x => some (x * 86400) | _ => none) (fun _ => none) [("periods", .list [.num 0, .num 9])] = .ok ps ∧
      ps.simulation = ⟨0, 777600⟩) ∧
    (∃ ps, readPeriods (fun v => match v with | .num x => some (x * 86400) | _ => none) (fun _ => none)
      [("periods", .dict [("calibration", .list [.num 0, .num 4]), ("validation", .list [.num 5, .num 9]), ("spinup", .num 3)])] = .ok ps ∧
      ps.simulation = ⟨0, 777600⟩ ∧ ps.spinup = .days 3) := ⟨⟨_, rfl, rfl⟩, ⟨_, rfl, rfl, rfl⟩⟩

end HB.Project
