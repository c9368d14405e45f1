import Verif.Props.Regrid
import Mathlib.Data.Rat.Defs
import Mathlib.Algebra.Order.Field.Rat
import Mathlib.Tactic.IntervalCases

/-! # C89: day of the year, times, units without pixels, missing values -/

set_option linter.unusedSectionVars false

namespace HB.Regrid

open HB.Spec.Regrid

variable {K : Type} [Field K] [LinearOrder K] [IsStrictOrderedRing K]

theorem dayNumber_eq (y m d : ℤ) (h : Spec.Date y m d) : dayNumber (sysDays y m d) = yearDay y m d := by
  unfold dayNumber
  rw [c42_date_round_trip y m d h]
  obtain ⟨m1, m2, d1, d2⟩ := h
  have hl := leap_count y
  simp only [sysDays_eq]
  unfold yearDay
  obtain ⟨k, rfl⟩ : ∃ k : ℕ, m = k + 1 := ⟨(m - 1).toNat, by omega⟩
  have e : ((k : ℤ) + 1 - 1).toNat = k := by omega
  have hk : k < 12 := by omega
  rw [e]
  clear e d2
  unfold Spec.monthLength
  by_cases hL : Spec.Leap y
  · rw [if_pos hL] at hl
    simp only [hL, if_true]
    interval_cases k <;> norm_num [List.range_succ] <;> omega
  · rw [if_neg hL] at hl
    simp only [hL, if_false]
    interval_cases k <;> norm_num [List.range_succ] <;> omega

theorem dayNumber_range (y m d : ℤ) (h : Spec.Date y m d) : 1 ≤ yearDay y m d ∧ yearDay y m d ≤ 366 := by
  rw [← dayNumber_eq y m d h]
  unfold dayNumber
  rw [c42_date_round_trip y m d h]
  obtain ⟨m1, m2, d1, d2⟩ := h
  have hl := leap_count y
  simp only [sysDays_eq]
  unfold Spec.monthLength at d2
  by_cases hL : Spec.Leap y
  · rw [if_pos hL] at hl
    simp only [hL, if_true] at d2
    interval_cases m <;> norm_num at d2 ⊢ <;> omega
  · rw [if_neg hL] at hl
    simp only [hL, if_false] at d2
    interval_cases m <;> norm_num at d2 ⊢ <;> omega

theorem countP_range (x : ℤ) (n : ℕ) (h0 : 1 ≤ x) (h1 : x ≤ n + 1) : ((List.range n).map fun i : ℕ => (i : ℤ) + 1).countP (fun y => decide (y < x)) = (x - 1).toNat := by
  induction n with
  | zero => 
    have : x = 1 := by omega
    subst this; rfl
  | succ n ih =>
    rw [List.range_succ, List.map_append, List.countP_append]
    by_cases hx : x ≤ n + 1
    · rw [ih hx]
      simp only [List.map_cons, List.map_nil]
      rw [List.countP_cons, List.countP_nil, if_neg (by rw [decide_eq_true_eq]; omega)]
      rfl
    · have e : ((List.range n).map fun i : ℕ => (i : ℤ) + 1).countP (fun y => decide (y < x)) = n := by
        rw [List.countP_eq_length.2]
        · simp
        · intro y hy
          obtain ⟨i, hi, rfl⟩ := List.mem_map.1 hy
          rw [List.mem_range] at hi
          rw [decide_eq_true_eq]; omega
      rw [e]
      simp only [List.map_cons, List.map_nil]
      rw [List.countP_cons, List.countP_nil, if_pos (by rw [decide_eq_true_eq]; push_cast at h1; omega)]
      push_cast at h1
      omega

theorem search_day (x : ℤ) (h0 : 1 ≤ x) (h1 : x ≤ 366) : searchsorted allDays x = (x - 1).toNat :=
  countP_range x 366 h0 (by norm_num; omega)

/-- **C89 (data by day of the year)**: when data by day of the year are spread over the period, each day of the period gets the mean over the pixels
of the unit of the data of its day of the year, in every year. -/
theorem c89_doy (d : Data K) (pixels : List (ℤ × Option ℕ)) (ids time : List ℤ) (size : ℕ) (order : List (ℕ × ℕ)) (out : ℕ → ℕ → K)
    (h : regridDoy .plain d pixels ids time allDays size order = .ok out) (hs : 0 < size) (ho : Complete (nBlocks 366 size) ids.length order)
    (hp : ∀ p ∈ pixels, ∀ c, p.2 = some c → c < d.nCells) (hn : d.nTime = 366) (t u : ℕ) (uid : ℤ) (y m dd : ℤ) (hd : Spec.Date y m dd)
    (ht : time[t]? = some (sysDays y m dd)) (hu : ids[u]? = some uid)
    (f : ℕ → K) (hf : ∀ c ∈ pixelsOf pixels uid, d.value (yearDay y m dd - 1).toNat c = some (f c)) :
    pixelsOf pixels uid ≠ [] ∧ out t u = pixelMean (pixelsOf pixels uid) f := by
  unfold regridDoy at h
  by_cases h1 : time.isEmpty = true
  · rw [if_pos h1] at h; cases h
  rw [if_neg h1] at h
  by_cases h2 : allDays.length ≠ 366
  · rw [if_pos h2] at h; cases h
  rw [if_neg h2] at h
  cases hc : unitCells pixels ids with
  | error e => rw [hc] at h; cases h
  | ok cells =>
    rw [hc] at h
    simp only at h
    by_cases h3 : (time.any fun z => decide (time.length ≤ searchsorted allDays (dayNumber z))) = true
    · rw [if_pos h3] at h; cases h
    rw [if_neg h3] at h
    cases h
    obtain ⟨hcu, hne⟩ := unitCells_ok _ _ _ hc u uid hu
    refine ⟨hne, ?_⟩
    have hcell : ∀ c ∈ pixelsOf pixels uid, c < d.nCells := by
      intro c hc
      unfold pixelsOf at hc
      obtain ⟨p, hp', he⟩ := List.mem_filterMap.1 hc
      exact hp p (List.mem_filter.1 hp').1 c he
    obtain ⟨r1, r2⟩ := dayNumber_range y m dd hd
    have hz : time.getD t 0 = sysDays y m dd := by rw [List.getD_eq_getElem?_getD, ht]; rfl
    have hr : searchsorted allDays (dayNumber (time.getD t 0)) = (yearDay y m dd - 1).toNat := by
      rw [hz, dayNumber_eq y m dd hd, search_day _ r1 r2]
    have hlt : (yearDay y m dd - 1).toNat < time.length := by
      by_contra hcon
      apply h3
      rw [List.any_eq_true]
      refine ⟨_, List.mem_of_getElem? ht, ?_⟩
      rw [decide_eq_true_eq, dayNumber_eq y m dd hd, search_day _ r1 r2]
      omega
    show runPool _ _ _ _ _ _ (searchsorted allDays (dayNumber (time.getD t 0))) u = _
    rw [hr]
    apply pool_complete .plain d _ _ size ids.length 366 hs order ho _ u hlt (by omega) (by omega) (List.getElem?_eq_some_iff.1 hu).1
    show some (plainValue d (cells.getD u []) _) = _
    rw [hcu, plain_mean d _ hcell]
    congr 1
    unfold pixelMean
    congr 2
    apply List.map_congr_left
    intro c hc
    rw [hf c hc]; rfl

/-- **C89 (when data by day of the year are refused)**: the call succeeds exactly when there is a period, every unit has a pixel in the data, and the
period has at least as many days as the largest day of the year in it. -/
theorem c89_doy_accepts (how : How K) (d : Data K) (pixels : List (ℤ × Option ℕ)) (ids time : List ℤ) (size : ℕ) (order : List (ℕ × ℕ)) :
    (∃ out, regridDoy how d pixels ids time allDays size order = .ok out) ↔
      time ≠ [] ∧ (∀ uid ∈ ids, pixelsOf pixels uid ≠ []) ∧
        ∀ y m dd, Spec.Date y m dd → sysDays y m dd ∈ time → yearDay y m dd ≤ time.length := by
  have hu : (ids.any fun u => (cellsOf pixels u).isEmpty) = true ↔ ¬ ∀ uid ∈ ids, pixelsOf pixels uid ≠ [] := by
    rw [List.any_eq_true]
    simp only [cellsOf_eq, List.isEmpty_iff]
    push Not
    rfl
  have ht : (time.any fun z => decide (time.length ≤ searchsorted allDays (dayNumber z))) = true ↔
      ¬ ∀ y m dd, Spec.Date y m dd → sysDays y m dd ∈ time → yearDay y m dd ≤ time.length := by
    rw [List.any_eq_true]
    push Not
    constructor
    · rintro ⟨z, hz, hd⟩
      obtain ⟨y, m, dd, hdate, rfl⟩ := c42_every_day z
      refine ⟨y, m, dd, hdate, hz, ?_⟩
      obtain ⟨r1, r2⟩ := dayNumber_range y m dd hdate
      rw [decide_eq_true_eq, dayNumber_eq y m dd hdate, search_day _ r1 r2] at hd
      omega
    · rintro ⟨y, m, dd, hdate, hz, hd⟩
      refine ⟨_, hz, ?_⟩
      obtain ⟨r1, r2⟩ := dayNumber_range y m dd hdate
      rw [decide_eq_true_eq, dayNumber_eq y m dd hdate, search_day _ r1 r2]
      omega
  have h2 : ¬ allDays.length ≠ 366 := by unfold allDays; rw [List.length_map, List.length_range]; exact not_not.2 rfl
  unfold regridDoy unitCells
  by_cases h1 : time = []
  · subst h1
    simp
  have h1' : ¬ time.isEmpty = true := by rw [List.isEmpty_iff]; exact h1
  rw [if_neg h1', if_neg h2]
  by_cases h3 : ∀ uid ∈ ids, pixelsOf pixels uid ≠ []
  · rw [if_neg (fun hc => (hu.1 hc) h3)]
    simp only
    by_cases h4 : ∀ y m dd, Spec.Date y m dd → sysDays y m dd ∈ time → yearDay y m dd ≤ time.length
    · rw [if_neg (fun hc => (ht.1 hc) h4)]
      exact ⟨fun _ => ⟨h1, h3, h4⟩, fun _ => ⟨_, rfl⟩⟩
    · rw [if_pos (ht.2 h4)]
      exact ⟨fun ⟨_, h⟩ => (by cases h), fun h => absurd h.2.2 h4⟩
  · rw [if_pos (hu.2 h3)]
    exact ⟨fun ⟨_, h⟩ => (by cases h), fun h => absurd h.2.1 h3⟩

/-- **C89 (when a full series is refused)**: the call succeeds exactly when the period is not set yet or has the length, the first and the last time
of the file, and every unit has a pixel in the data; the period is then kept, or taken from the file. -/
theorem c89_accepts (how : How K) (d : Data K) (pixels : List (ℤ × Option ℕ)) (ids time file : List ℤ) (size : ℕ) (order : List (ℕ × ℕ)) (axis : List ℤ) :
    (∃ out, regrid how d pixels ids time file size order = .ok (axis, out)) ↔
      axis = (if time = [] then file else time) ∧ axis.length = file.length ∧ axis.head? = file.head? ∧ axis.getLast? = file.getLast? ∧
        ∀ uid ∈ ids, pixelsOf pixels uid ≠ [] := by
  constructor
  · rintro ⟨out, h⟩
    obtain ⟨h1, cells, h2, _⟩ := regrid_ok h
    obtain ⟨a, b, c, e⟩ := checkTimes_ok _ _ _ h1
    refine ⟨a, b, c, e, ?_⟩
    intro uid hu
    obtain ⟨u, hu⟩ := List.mem_iff_getElem?.1 hu
    exact (unitCells_ok _ _ _ h2 u uid hu).2
  · rintro ⟨ha, hl, h1, h2, hu⟩
    have hc : checkTimes time file = .ok axis := by
      unfold checkTimes
      have e : (if time.isEmpty = true then file else time) = axis := by
        rw [ha]; cases time <;> rfl
      simp only [e]
      rw [if_neg (not_not.2 hl), if_neg (not_not.2 h1), if_neg (not_not.2 h2)]
    have hcells : unitCells pixels ids = .ok (ids.map (cellsOf pixels)) := by
      unfold unitCells
      rw [if_neg]
      intro h
      obtain ⟨uid, h1, h2⟩ := List.any_eq_true.1 h
      rw [cellsOf_eq, List.isEmpty_iff] at h2
      exact hu uid h1 h2
    unfold regrid
    rw [hc]
    simp only
    rw [hcells]
    exact ⟨_, rfl⟩

/-- **C89 (schedule)**: two runs of the tasks, in any two orders, give the same data. -/
theorem c89_schedule (how : How K) (hk : ∀ type r, how = .gradient type r → type = "additive" ∨ type = "multiplicative") (d : Data K)
    (pixels : List (ℤ × Option ℕ)) (ids time file : List ℤ) (s₁ s₂ : ℕ) (o₁ o₂ : List (ℕ × ℕ)) (axis : List ℤ) (out₁ out₂ : ℕ → ℕ → K)
    (h₁ : regrid how d pixels ids time file s₁ o₁ = .ok (axis, out₁)) (h₂ : regrid how d pixels ids time file s₂ o₂ = .ok (axis, out₂))
    (hs₁ : 0 < s₁) (hs₂ : 0 < s₂) (ho₁ : Complete (nBlocks file.length s₁) ids.length o₁) (ho₂ : Complete (nBlocks file.length s₂) ids.length o₂)
    (hn : d.nTime = file.length) (t u : ℕ) (ht : t < file.length) (hu : u < ids.length) : out₁ t u = out₂ t u := by
  obtain ⟨h1, cells, h2, rfl⟩ := regrid_ok h₁
  obtain ⟨_, cells', h2', rfl⟩ := regrid_ok h₂
  rw [h2] at h2'
  cases h2'
  obtain ⟨_, hlen, _, _⟩ := checkTimes_ok _ _ _ h1
  obtain ⟨v, hv⟩ : ∃ v, value how d (cells.getD u []) u t = some v := by
    cases how with
    | plain => exact ⟨_, rfl⟩
    | gradient type r =>
      have hx : value (.gradient type r) d (cells.getD u []) u t = gradientValue type d r (cells.getD u []) u t := rfl
      rw [hx]
      unfold gradientValue
      rw [if_pos (hk type r rfl)]
      exact ⟨_, rfl⟩
  have e₁ := pool_complete how d (fun u => cells.getD u []) axis.length s₁ ids.length file.length hs₁ o₁ ho₁ t u (by omega) (by omega) ht hu v hv
  have e₂ := pool_complete how d (fun u => cells.getD u []) axis.length s₂ ids.length file.length hs₂ o₂ ho₂ t u (by omega) (by omega) ht hu v hv
  exact e₁.trans e₂.symm

/-! ## Examples, and what is not checked -/

/-- Two times, two cells; the second value of the second cell is missing. -/
def twoCells : Data ℚ where
  nTime := 2
  nCells := 2
  value := fun t c => if c = 0 then some 10 else if t = 0 then some 20 else none

/-- Unit 1 has three pixels in cell 0 and one in cell 1. -/
def fourPixels : List (ℤ × Option ℕ) := [(1, some 0), (1, some 0), (1, some 0), (1, some 1), (2, none)]

def theOrder : List (ℕ × ℕ) := [(1, 0), (0, 0), (2, 0), (2, 0)]

def theOut : ℕ → ℕ → ℚ := runPool .plain twoCells (fun u => ([1].map (cellsOf fourPixels)).getD u []) 2 1 theOrder

theorem theRun : regrid .plain twoCells fourPixels [1] [5, 6] [5, 6] 1 theOrder = .ok ([5, 6], theOut) := rfl

theorem theOrder_complete : Complete (nBlocks 2 1) 1 theOrder := by
  have e : nBlocks 2 1 = 3 := by decide
  rw [e]
  constructor
  · intro b hb u hu
    interval_cases u
    interval_cases b <;> decide
  · decide

/-- A case meeting the hypotheses: the mean over the pixels, 12.5. -/
theorem c89_example : theOut 0 0 = 25 / 2 := by
  have h := (c89_plain twoCells fourPixels [1] [5, 6] [5, 6] 1 theOrder _ _ theRun (by decide) theOrder_complete (by decide) rfl 0 0 1 (by decide) rfl
    (fun c => if c = 0 then 10 else 20) (by intro c _; show (if c = 0 then some (10 : ℚ) else some 20) = some (if c = 0 then 10 else 20); split <;> rfl)).2
  rw [h]
  decide +kernel

/-- **C89 (not in general: missing values)**: a pixel without a value counts as zero: ten under three pixels and nothing under the fourth gives 7.5. -/
theorem c89_missing : theOut 1 0 = 15 / 2 ∧ twoCells.value 1 0 = some 10 ∧ twoCells.value 1 1 = none := by
  refine ⟨by decide +kernel, rfl, rfl⟩

/-- **C89 (not in general: times in between)**: only the number of times, the first and the last one are compared: data of other days are taken. -/
theorem c89_times_middle : ∃ out, regrid .plain twoCells fourPixels [1] [5, 6, 9] [5, 8, 9] 1 theOrder = .ok ([5, 6, 9], out) :=
  (c89_accepts _ _ _ _ _ _ _ _ _).2 ⟨rfl, rfl, rfl, rfl, by decide⟩

/-- **C89 (not in general: short periods)**: data by day of the year cannot be spread over a period of one month in autumn, although they cover it. -/
theorem c89_short_period (how : How ℚ) (d : Data ℚ) (pixels : List (ℤ × Option ℕ)) (ids : List ℤ) (size : ℕ) (order : List (ℕ × ℕ)) :
    ¬ ∃ out, regridDoy how d pixels ids ((List.range 31).map fun i : ℕ => sysDays 2020 10 1 + i) allDays size order = .ok out := by
  rw [c89_doy_accepts]
  rintro ⟨_, _, h⟩
  have := h 2020 10 1 (by refine ⟨?_, ?_, ?_, ?_⟩ <;> decide) (by decide)
  revert this
  decide

/-- A period of a year and a day is accepted. -/
theorem c89_doy_example : ∃ out, regridDoy .plain twoCells fourPixels [1] ((List.range 366).map fun i : ℕ => sysDays 2019 1 1 + i) allDays 50 theOrder = .ok out := by
  rw [c89_doy_accepts]
  refine ⟨by simp, by decide, ?_⟩
  intro y m dd h _
  rw [List.length_map, List.length_range]
  exact (dayNumber_range y m dd h).2

end HB.Regrid
