import Verif.Props.Periods2

/-! # C84: examples and limits -/

namespace HB.Periods.Demo

open HB.Spec.Periods

/-- Midnight of day `k` of the run. -/
def at' (k : ℤ) : ℤ := 86400 * (10000 + k)

/-- Total error. -/
def err (s o : List ℚ) : ℚ := ((s.zip o).map fun e => |e.1 - e.2|).sum

def sim : List ℚ := [1, 2, 3, 4, 5, 6]
/-- Observations that begin two days before the run and end one day after it. -/
def otime : List ℤ := [at' (-2), at' (-1), at' 0, at' 1, at' 2, at' 3, at' 4, at' 5, at' 6]
def obs : List ℚ := [9, 9, 1, 2, 3, 5, 5, 8, 9]

def made : Option Periods := (Periods.make (some (at' 1, at' 2)) (some (at' 3, at' 5)) (some (at' 0, at' 5)) (.days 1)).toOption
def periods : Periods := ⟨some ⟨at' 1, at' 2⟩, some ⟨at' 3, at' 5⟩, ⟨at' 0, at' 5⟩, .days 1⟩

theorem c84_made : made = some periods := by decide +kernel

theorem dated : Dated (at' 0) otime obs := by
  refine ⟨by decide +kernel, by decide +kernel, by decide +kernel⟩

/-- The hypotheses of `c84_scores` and `c84_accepted` are met, and the scores are those of the periods. -/
theorem c84_demo : (evaluatePeriods err (at' 0) (at' 5) sim (.dated otime obs) periods).toOption =
    some [("calibration", 0), ("validation", 3), ("simulation", 3)] := by decide +kernel

theorem accepted_demo : ∃ rows, evaluatePeriods err (at' 0) (at' 5) sim (.dated otime obs) periods = .ok rows := by
  refine c84_accepted err (at' 0) (at' 5) (by decide +kernel) (by decide +kernel) sim (by decide +kernel) otime obs dated periods
    (by decide +kernel) ?_
  intro e _ t ht _ _
  have : t ∈ dateRange (at' 0) (at' 5) := (mem_dateRange _ _ _).2 ht
  have sub : ∀ t ∈ dateRange (at' 0) (at' 5), t ∈ otime := by decide +kernel
  exact sub t this

/-- **C84 (limit: duplicates)**: the test on the observations is on their number only.  With one date given twice and the next one missing, the
values of different days are compared. -/
theorem c84_misaligned : (onPeriod err (dateRange (at' 0) (at' 2)) [1, 2, 3] [at' 0, at' 0, at' 2] [1, 1, 3] ⟨at' 0, at' 2⟩).toOption = some 1 ∧
    valueAt [at' 0, at' 0, at' 2] ([1, 1, 3] : List ℚ) (at' 1) = none := by
  constructor <;> decide +kernel

/-- **C84 (limit: no period)**: without a period the observations are compared by position, whatever their dates: the series of a perfect
simulation, observed from one day later, gets a non-zero error and no complaint. -/
theorem c84_shifted : evalWarmup err [1, 2, 3] [2, 3, 4] 0 = 3 ∧
    (onPeriod err (dateRange (at' 0) (at' 2)) [1, 2, 3] [at' 1, at' 2, at' 3] [2, 3, 4] ⟨at' 1, at' 2⟩).toOption = some 0 := by
  constructor <;> decide +kernel

/-- Observations dated at noon: as many of them in the period as days less one, refused. -/
theorem c84_noon : (onPeriod err (dateRange (at' 0) (at' 2)) [1, 2, 3] [at' 0 + 43200, at' 1 + 43200, at' 2 + 43200] [1, 2, 3]
    ⟨at' 0, at' 2⟩).toOption = none := by decide +kernel

/-- A period not covered by the run is refused. -/
theorem c84_not_covered : (onPeriod err (dateRange (at' 0) (at' 2)) [1, 2, 3] [at' 0, at' 1, at' 2, at' 3] [1, 2, 3, 4]
    ⟨at' 1, at' 3⟩).toOption = none := by decide +kernel

/-- Four years from 29 February 2020: 29 February 2024, and one year: 28 February 2021. -/
theorem years_demo : ((Spinup.years 4).toDays (sysDays 2020 2 29 * 86400)).toOption = some 1461 ∧
    ((Spinup.years 1).toDays (sysDays 2020 2 29 * 86400)).toOption = some 365 := by
  constructor <;> decide +kernel

/-- Spin-up of ten days on a period of three: three days. -/
theorem spinup_demo : (({ periods with spinup := .days 10 } : Periods).spinupFor ⟨at' 3, at' 5⟩).toOption = some 3 := by decide +kernel

/-- **C84 (number of days)**: the number of days of a period is the number of its days. -/
theorem c84_days (p : Period) (hp : p.start ≤ p.stop) (days : List ℤ) (hn : days.Nodup) (hd : ∀ t, t ∈ days ↔ Spec.Periods.Day p.start p.stop t) :
    p.nDays = days.length := by
  have hr : (dateRange p.start p.stop).Nodup := by
    unfold dateRange day
    refine List.Nodup.map ?_ List.nodup_range
    intro a b hab
    simp only at hab
    omega
  have hperm : days.Perm (dateRange p.start p.stop) := (List.perm_ext_iff_of_nodup hn hr).2 fun t => by rw [hd, mem_dateRange]
  rw [hperm.length_eq]
  unfold Period.nDays dateRange day
  rw [List.length_map, List.length_range]
  have : 0 ≤ (p.stop - p.start) / 86400 := Int.ediv_nonneg (by omega) (by norm_num)
  omega

/-- A period of three days. -/
theorem c84_days_example : (⟨0, 2 * 86400⟩ : Period).nDays = ([0, 86400, 172800] : List ℤ).length :=
  c84_days _ (by norm_num) _ (by decide) (by
    intro t
    unfold Spec.Periods.Day
    simp only [List.mem_cons, List.not_mem_nil, or_false]
    constructor
    · rintro (rfl | rfl | rfl)
      · exact ⟨0, by norm_num, by norm_num⟩
      · exact ⟨1, by norm_num, by norm_num⟩
      · exact ⟨2, by norm_num, by norm_num⟩
    · rintro ⟨k, h1, h2⟩
      omega)

end HB.Periods.Demo
