import Verif.Model.Calendar
import Mathlib.Tactic.Linarith
import Mathlib.Tactic.FieldSimp
import Mathlib.Tactic.Ring
import Mathlib.Tactic.NormNum
import Mathlib.Tactic.IntervalCases
import Mathlib.Tactic.Positivity
import Mathlib.Data.Rat.Floor

/-! # C42: calendar -/

set_option linter.unusedSectionVars false

namespace HB

/-! ## Specification: the Gregorian calendar by its rules -/

/-- Leap years: divisible by 4, except centuries not divisible by 400. -/
def Spec.Leap (y : ℤ) : Prop := 4 ∣ y ∧ (¬ 100 ∣ y ∨ 400 ∣ y)

instance (y : ℤ) : Decidable (Spec.Leap y) := by unfold Spec.Leap; infer_instance

/-- Thirty days have September, April, June and November... -/
def Spec.monthLength (y m : ℤ) : ℤ :=
  if m = 9 ∨ m = 4 ∨ m = 6 ∨ m = 11 then 30
  else if m = 2 then (if Spec.Leap y then 29 else 28) else 31

/-- A date of the calendar. -/
structure Spec.Date (y m d : ℤ) : Prop where
  m1 : 1 ≤ m
  m2 : m ≤ 12
  d1 : 1 ≤ d
  d2 : d ≤ Spec.monthLength y m

/-- The following day. -/
def Spec.nextDay (y m d : ℤ) : ℤ × ℤ × ℤ :=
  if d < Spec.monthLength y m then (y, m, d + 1)
  else if m < 12 then (y, m + 1, 1) else (y + 1, 1, 1)

/-- A date-time of the calendar (no leap second). -/
structure Spec.DateTime (t : CTime) : Prop where
  date : Spec.Date t.year t.month t.day
  y1 : -32767 ≤ t.year
  y2 : t.year ≤ 32767
  h1 : 0 ≤ t.hour
  h2 : t.hour ≤ 23
  mi1 : 0 ≤ t.min
  mi2 : t.min ≤ 59
  s1 : 0 ≤ t.sec
  s2 : t.sec ≤ 59

/-- Calendar order of date-times. -/
def Spec.before (a b : CTime) : Prop :=
  a.year < b.year ∨ a.year = b.year ∧ (a.month < b.month ∨ a.month = b.month ∧ (a.day < b.day ∨ a.day = b.day ∧
    (a.hour < b.hour ∨ a.hour = b.hour ∧ (a.min < b.min ∨ a.min = b.min ∧ a.sec < b.sec))))

/-! ## The code follows the rules -/

theorem isLeap_iff (y : ℤ) : isLeap y = true ↔ Spec.Leap y := by
  unfold isLeap Spec.Leap
  simp only [Bool.and_eq_true, Bool.or_eq_true, decide_eq_true_eq]
  omega

theorem lastDay_eq (y m : ℤ) : lastDay y m = Spec.monthLength y m := by
  unfold lastDay Spec.monthLength
  have := isLeap_iff y
  split_ifs <;> first | rfl | omega | tauto

/-- Closed form of the day number, counting years from March. -/
theorem sysDays_eq (y m d : ℤ) : sysDays y m d =
    (if m ≤ 2 then 365 * (y - 1) + (y - 1) / 4 - (y - 1) / 100 + (y - 1) / 400
      else 365 * y + y / 4 - y / 100 + y / 400) +
    (153 * (if m > 2 then m - 3 else m + 9) + 2) / 5 + d - 1 - 719468 := by
  unfold sysDays
  dsimp only
  split_ifs <;> omega

/-- Leap days before 1 March of year `y`. -/
theorem leap_count (y : ℤ) : y / 4 - y / 100 + y / 400 - ((y - 1) / 4 - (y - 1) / 100 + (y - 1) / 400) =
    if Spec.Leap y then 1 else 0 := by
  unfold Spec.Leap
  split_ifs <;> omega

/-- **C42 (day numbers count days).** Day 0 is 1970-01-01 and the day number increases by one from each date to the
next. -/
theorem c42_counts_days : sysDays 1970 1 1 = 0 ∧ ∀ y m d, Spec.Date y m d →
    sysDays (Spec.nextDay y m d).1 (Spec.nextDay y m d).2.1 (Spec.nextDay y m d).2.2 = sysDays y m d + 1 := by
  refine ⟨by decide, ?_⟩
  rintro y m d ⟨m1, m2, d1, d2⟩
  have hl := leap_count y
  unfold Spec.nextDay
  by_cases h1 : d < Spec.monthLength y m
  · rw [if_pos h1]
    simp only [sysDays_eq]
    split_ifs <;> omega
  · rw [if_neg h1]
    have hd : d = Spec.monthLength y m := by omega
    subst hd
    by_cases h2 : m < 12
    · rw [if_pos h2]
      simp only [sysDays_eq]
      unfold Spec.monthLength
      by_cases hL : Spec.Leap y
      · rw [if_pos hL] at hl
        simp only [hL, if_true]
        interval_cases m <;> norm_num <;> omega
      · rw [if_neg hL] at hl
        simp only [hL, if_false]
        interval_cases m <;> norm_num <;> omega
    · rw [if_neg h2]
      obtain rfl : m = 12 := by omega
      simp only [sysDays_eq]
      unfold Spec.monthLength
      norm_num
      omega

/-- Year of the 400-year era from the day of the era. -/
theorem yoe_formula (n doy : ℤ) (h0 : 0 ≤ n) (h1 : n ≤ 399) (h2 : 0 ≤ doy) (h3 : doy ≤ 365)
    (h4 : doy = 365 → ((n + 1) % 4 = 0 ∧ ((n + 1) % 100 ≠ 0 ∨ (n + 1) % 400 = 0)))
    (e : ℤ) (he : e = n * 365 + n / 4 - n / 100 + doy) :
    (e - e / 1460 + e / 36524 - e / 146096) / 365 = n := by
  obtain ⟨c, k, hn, hk0, hk1, hc0, hc1⟩ : ∃ c k : ℤ, n = 100 * c + k ∧ 0 ≤ k ∧ k ≤ 99 ∧ 0 ≤ c ∧ c ≤ 3 :=
    ⟨n / 100, n % 100, by omega, by omega, by omega, by omega, by omega⟩
  obtain ⟨q, s, hk, hs0, hs1, hq0, hq1⟩ : ∃ q s : ℤ, k = 4 * q + s ∧ 0 ≤ s ∧ s ≤ 3 ∧ 0 ≤ q ∧ q ≤ 24 :=
    ⟨k / 4, k % 4, by omega, by omega, by omega, by omega, by omega⟩
  subst hn hk
  have e1 : (100 * c + (4 * q + s)) / 4 = 25 * c + q := by omega
  have e2 : (100 * c + (4 * q + s)) / 100 = c := by omega
  rw [e1, e2] at he
  by_cases hd : doy = 365
  · obtain ⟨a, b⟩ := h4 hd
    have hs : s = 3 := by omega
    subst hs hd
    have f1 : e / 1460 = 25 * c + q + 1 := by omega
    by_cases hl : c = 3 ∧ q = 24
    · obtain ⟨rfl, rfl⟩ := hl
      norm_num at he
      subst he; norm_num
    · have hb : q ≤ 23 := by omega
      have f2 : e / 36524 = c := by omega
      have f3 : e / 146096 = 0 := by omega
      rw [f1, f2, f3]; omega
  · have hd' : doy ≤ 364 := by omega
    have f2 : e / 36524 = c := by omega
    have f3 : e / 146096 = 0 := by omega
    rw [f2, f3]
    by_cases hx : 24 * c + q + 365 * s + doy < 1460
    · have f1 : e / 1460 = 25 * c + q := by omega
      rw [f1]; omega
    · have f1 : e / 1460 = 25 * c + q + 1 := by omega
      rw [f1]; omega

/-- Month and day from the day of a year starting in March. -/
theorem month_formula (y m d : ℤ) (h : Spec.Date y m d) (mp doy : ℤ) (hmp : mp = if m > 2 then m - 3 else m + 9)
    (hdoy : doy = (153 * mp + 2) / 5 + d - 1) :
    0 ≤ doy ∧ doy ≤ 365 ∧ (doy = 365 → m = 2 ∧ Spec.Leap y) ∧ (5 * doy + 2) / 153 = mp := by
  obtain ⟨m1, m2, d1, d2⟩ := h
  unfold Spec.monthLength at d2
  by_cases hL : Spec.Leap y
  · simp only [hL, if_true] at d2
    interval_cases m <;> norm_num at d2 hmp <;> subst hmp <;> refine ⟨?_, ?_, ?_, ?_⟩ <;> first | omega | (intro; first | exact ⟨rfl, hL⟩ | omega)
  · simp only [hL, if_false] at d2
    interval_cases m <;> norm_num at d2 hmp <;> subst hmp <;> refine ⟨?_, ?_, ?_, ?_⟩ <;> omega

/-- **C42 (dates, round trip).** -/
theorem c42_date_round_trip (y m d : ℤ) (h : Spec.Date y m d) : civil (sysDays y m d) = (y, m, d) := by
  obtain ⟨mp, hmp⟩ : ∃ mp : ℤ, mp = if m > 2 then m - 3 else m + 9 := ⟨_, rfl⟩
  obtain ⟨doy, hdoy⟩ : ∃ doy : ℤ, doy = (153 * mp + 2) / 5 + d - 1 := ⟨_, rfl⟩
  obtain ⟨b1, b2, b3, b4⟩ := month_formula y m d h mp doy hmp hdoy
  obtain ⟨y', hy'⟩ : ∃ y' : ℤ, y' = if m ≤ 2 then y - 1 else y := ⟨_, rfl⟩
  obtain ⟨era, hera⟩ : ∃ era : ℤ, era = y' / 400 := ⟨_, rfl⟩
  obtain ⟨yoe, hyoe⟩ : ∃ yoe : ℤ, yoe = y' - era * 400 := ⟨_, rfl⟩
  obtain ⟨doe, hdoe⟩ : ∃ doe : ℤ, doe = yoe * 365 + yoe / 4 - yoe / 100 + doy := ⟨_, rfl⟩
  have hz : sysDays y m d = era * 146097 + doe - 719468 := by
    unfold sysDays; dsimp only
    rw [← hmp, ← hy', ← hera, ← hyoe, ← hdoy, ← hdoe]
  have y0 : 0 ≤ yoe := by omega
  have y1 : yoe ≤ 399 := by omega
  have leap : doy = 365 → ((yoe + 1) % 4 = 0 ∧ ((yoe + 1) % 100 ≠ 0 ∨ (yoe + 1) % 400 = 0)) := by
    intro h365
    obtain ⟨rfl, l1, l2⟩ := b3 h365
    rw [if_pos (by norm_num)] at hy'
    omega
  have hy := yoe_formula yoe doy y0 y1 b1 b2 leap doe hdoe
  have dlo : 0 ≤ doe := by omega
  have dhi : doe ≤ 146096 := by
    by_cases h9 : yoe ≤ 398
    · omega
    · have : yoe = 399 := by omega
      subst this; norm_num at hdoe; omega
  have hE : (sysDays y m d + 719468) / 146097 = era := by rw [hz]; omega
  have hD : sysDays y m d + 719468 - era * 146097 = doe := by rw [hz]; omega
  unfold civil
  dsimp only
  rw [hE, hD, hy]
  have hdy : doe - (365 * yoe + yoe / 4 - yoe / 100) = doy := by omega
  rw [hdy, b4]
  have m1 := h.m1
  have m2 := h.m2
  have hM : (if mp < 10 then mp + 3 else mp - 9) = m := by
    split_ifs at hmp ⊢ <;> omega
  rw [hM]
  refine Prod.ext ?_ (Prod.ext rfl ?_)
  · show (if m ≤ 2 then yoe + era * 400 + 1 else yoe + era * 400) = y
    split_ifs at hy' ⊢ <;> omega
  · show doy - (153 * mp + 2) / 5 + 1 = d
    omega

/-- Every day number is that of a date of the calendar. -/
theorem c42_every_day (z : ℤ) : ∃ y m d, Spec.Date y m d ∧ sysDays y m d = z := by
  have first : Spec.Date 1970 1 1 := ⟨by norm_num, by norm_num, by norm_num, by decide⟩
  have next : ∀ y m d, Spec.Date y m d → Spec.Date (Spec.nextDay y m d).1 (Spec.nextDay y m d).2.1 (Spec.nextDay y m d).2.2 := by
    rintro y m d ⟨m1, m2, d1, d2⟩
    unfold Spec.nextDay
    have pos : ∀ y m, 1 ≤ Spec.monthLength y m := by intro y m; unfold Spec.monthLength; split_ifs <;> norm_num
    split_ifs
    · exact ⟨m1, m2, show 1 ≤ d + 1 by omega, show d + 1 ≤ Spec.monthLength y m by omega⟩
    · exact ⟨show 1 ≤ m + 1 by omega, show m + 1 ≤ 12 by omega, le_rfl, pos _ _⟩
    · exact ⟨le_rfl, by norm_num, le_rfl, pos _ _⟩
  have fwd : ∀ n : ℕ, ∀ y m d z, Spec.Date y m d → sysDays y m d = z → ∃ y' m' d', Spec.Date y' m' d' ∧ sysDays y' m' d' = z + n := by
    intro n
    induction n with
    | zero => intro y m d z h e; exact ⟨y, m, d, h, by simpa using e⟩
    | succ n ih =>
      intro y m d z h e
      obtain ⟨a, b, c, h', e'⟩ := ih _ _ _ (z + 1) (next y m d h) (by rw [c42_counts_days.2 y m d h, e])
      exact ⟨a, b, c, h', by push_cast; omega⟩
  -- start from 1 January of a year early enough
  obtain ⟨y, hy⟩ : ∃ y : ℤ, sysDays y 1 1 ≤ z := by
    refine ⟨z / 365 - |z|, ?_⟩
    rw [sysDays_eq]; norm_num
    rcases abs_cases z with ⟨h, _⟩ | ⟨h, _⟩ <;> rw [h] <;> omega
  have hd : Spec.Date y 1 1 := ⟨by norm_num, by norm_num, by norm_num, by unfold Spec.monthLength; norm_num⟩
  obtain ⟨a, b, c, h', e'⟩ := fwd (z - sysDays y 1 1).toNat y 1 1 _ hd rfl
  exact ⟨a, b, c, h', by omega⟩

/-- **C42 (order of dates).** Later dates have larger day numbers. -/
theorem c42_date_order (y m d y' m' d' : ℤ) (h : Spec.Date y m d) (h' : Spec.Date y' m' d')
    (hlt : y < y' ∨ y = y' ∧ (m < m' ∨ m = m' ∧ d < d')) : sysDays y m d < sysDays y' m' d' := by
  have yearMono : ∀ y y' : ℤ, y < y' → 365 * y + y / 4 - y / 100 + y / 400 + 365 ≤ 365 * y' + y' / 4 - y' / 100 + y' / 400 := by
    intro y y' h
    omega
  -- day of the year between 0 and its length
  have len : ∀ y m d, Spec.Date y m d → sysDays y 1 1 ≤ sysDays y m d ∧ sysDays y m d < sysDays (y + 1) 1 1 := by
    rintro y m d ⟨m1, m2, d1, d2⟩
    have hl := leap_count y
    simp only [sysDays_eq]
    unfold Spec.monthLength at d2
    by_cases hL : Spec.Leap y
    · rw [if_pos hL] at hl
      simp only [hL, if_true] at d2
      interval_cases m <;> norm_num at d2 ⊢ <;> omega
    · rw [if_neg hL] at hl
      simp only [hL, if_false] at d2
      interval_cases m <;> norm_num at d2 ⊢ <;> omega
  rcases hlt with hy | ⟨rfl, hm⟩
  · have a := (len y m d h).2
    have b := (len y' m' d' h').1
    have c : sysDays (y + 1) 1 1 ≤ sysDays y' 1 1 := by
      simp only [sysDays_eq]; norm_num
      rcases (show y + 1 = y' ∨ y + 1 < y' by omega) with e | e
      · subst e; norm_num
      · have := yearMono y (y' - 1) (by omega); omega
    omega
  · rcases hm with hm | ⟨rfl, hd⟩
    · have hl := leap_count y
      have m1 := h.m1; have m3 := h.m2; have m2 := h'.m2; have d2 := h.d2; have d1' := h'.d1
      simp only [sysDays_eq]
      unfold Spec.monthLength at d2
      by_cases hL : Spec.Leap y
      · rw [if_pos hL] at hl
        simp only [hL, if_true] at d2
        interval_cases m <;> norm_num at d2 ⊢ <;> split_ifs <;> omega
      · rw [if_neg hL] at hl
        simp only [hL, if_false] at d2
        interval_cases m <;> norm_num at d2 ⊢ <;> split_ifs <;> omega
    · simp only [sysDays_eq]; omega

section
variable {K : Type} [Field K] [LinearOrder K] [IsStrictOrderedRing K] [FloorRing K]

theorem llround_near (s : ℤ) (x : K) (h : |x - s| < 1 / 2) : llround x = s := by
  rw [abs_lt] at h
  unfold llround
  split_ifs with h0
  · rw [Int.floor_eq_iff]; constructor <;> linarith
  · rw [Int.ceil_eq_iff]; constructor <;> linarith

theorem Spec.DateTime.valid {t : CTime} (h : Spec.DateTime t) :
    (validHMS t.hour t.min t.sec && validYMD t.year t.month t.day) = true := by
  have a := h.h1; have b := h.h2; have c := h.mi1; have d := h.mi2; have e := h.s1; have f := h.s2
  have m1 := h.date.m1; have m2 := h.date.m2; have d1 := h.date.d1; have d2 := h.date.d2
  have y1 := h.y1; have y2 := h.y2
  rw [Bool.and_eq_true]
  constructor
  · unfold validHMS
    simp only [Bool.not_eq_true', Bool.or_eq_false_iff, decide_eq_false_iff_not]
    omega
  · unfold validYMD
    rw [lastDay_eq, decide_eq_true_eq]
    exact ⟨y1, y2, m1, m2, d1, d2⟩

/-- **C42 (round trip).** Every date-time is accepted and comes back unchanged, even if the day number was altered by
a numerical error of less than half a second. -/
theorem c42_round_trip (t : CTime) (h : Spec.DateTime t) : ∃ x : K, toMJD t = some x ∧
    ∀ x' : K, |x' - x| * 86400 < 1 / 2 → fromMJD x' = t := by
  refine ⟨secondsToMjd (sysSeconds t), by unfold toMJD; rw [if_pos h.valid], ?_⟩
  intro x' hx
  have hr : llround ((x' - 40587) * 86400) = sysSeconds t := by
    apply llround_near
    have : (x' - 40587) * 86400 - (sysSeconds t : K) = (x' - secondsToMjd (sysSeconds t)) * 86400 := by
      unfold secondsToMjd; ring
    rw [this, abs_mul, abs_of_pos (by norm_num : (0 : K) < 86400)]
    exact hx
  have a := h.h1; have b := h.h2; have c := h.mi1; have d := h.mi2; have e := h.s1; have f := h.s2
  unfold fromMJD
  dsimp only
  rw [hr]
  have hD : sysSeconds t / 86400 = sysDays t.year t.month t.day := by unfold sysSeconds; omega
  rw [hD, c42_date_round_trip _ _ _ h.date]
  have hT : sysSeconds t - sysDays t.year t.month t.day * 86400 = t.hour * 3600 + t.min * 60 + t.sec := by
    unfold sysSeconds; ring
  rw [hT]
  have hH : (t.hour * 3600 + t.min * 60 + t.sec) / 3600 = t.hour := by omega
  rw [hH]
  have hM : (t.hour * 3600 + t.min * 60 + t.sec - t.hour * 3600) / 60 = t.min := by omega
  rw [hM]
  have hS : t.hour * 3600 + t.min * 60 + t.sec - t.hour * 3600 - t.min * 60 = t.sec := by ring
  rw [hS]

/-- **C42 (order).** Day numbers are strictly increasing in the calendar order. -/
theorem c42_order (a b : CTime) (ha : Spec.DateTime a) (hb : Spec.DateTime b) (hlt : Spec.before a b) (x y : K)
    (hx : toMJD a = some x) (hy : toMJD b = some y) : x < y := by
  unfold toMJD at hx hy
  rw [if_pos ha.valid] at hx
  rw [if_pos hb.valid] at hy
  cases hx; cases hy
  have key : sysSeconds a < sysSeconds b := by
    have := ha.h1; have := ha.h2; have := ha.mi1; have := ha.mi2; have := ha.s1; have := ha.s2
    have := hb.h1; have := hb.h2; have := hb.mi1; have := hb.mi2; have := hb.s1; have := hb.s2
    unfold sysSeconds
    by_cases hd : a.year < b.year ∨ a.year = b.year ∧ (a.month < b.month ∨ a.month = b.month ∧ a.day < b.day)
    · have := c42_date_order _ _ _ _ _ _ ha.date hb.date hd
      omega
    · unfold Spec.before at hlt
      have e1 : a.year = b.year := by omega
      have e2 : a.month = b.month := by omega
      have e3 : a.day = b.day := by omega
      rw [e1, e2, e3]
      omega
  unfold secondsToMjd
  have : (sysSeconds a : K) < sysSeconds b := by exact_mod_cast key
  have h8 : (0 : K) < 86400 := by norm_num
  have := div_lt_div_of_pos_right this h8
  linarith

/-- **C42 (day of year).** One plus the number of days elapsed since 1 January. -/
theorem c42_day_of_year (t : CTime) (h : Spec.DateTime t) (x : K) (hx : toMJD t = some x) (hpos : 0 < x) :
    dayOfYear x = sysDays t.year t.month t.day - sysDays t.year 1 1 + 1 := by
  obtain ⟨x0, h1, h2⟩ := c42_round_trip (K := K) t h
  rw [hx] at h1; cases h1
  have hf := h2 x (by simp)
  unfold dayOfYear
  rw [if_neg (not_le.2 hpos), hf]
  dsimp only
  have m1 := h.date.m1; have m2 := h.date.m2
  rw [if_neg (by omega)]
  have hl := leap_count t.year
  have hL := isLeap_iff t.year
  simp only [sysDays_eq]
  generalize t.year = y at *
  generalize t.day = d at *
  generalize t.month = m at *
  by_cases hy : Spec.Leap y
  · rw [if_pos hy] at hl
    simp only [hL.2 hy, Bool.true_and]
    interval_cases m <;> simp [cumMonthDays] <;> omega
  · rw [if_neg hy] at hl
    have : isLeap y = false := by
      cases hh : isLeap y
      · rfl
      · exact absurd (hL.1 hh) hy
    simp only [this, Bool.false_and]
    interval_cases m <;> simp [cumMonthDays] <;> omega

end

/-! ## Concrete cases -/

example : Spec.DateTime ⟨2024, 2, 29, 23, 59, 59⟩ :=
  ⟨⟨by norm_num, by norm_num, by norm_num, by decide⟩, by norm_num, by norm_num, by norm_num, by norm_num,
    by norm_num, by norm_num, by norm_num, by norm_num⟩

example : toMJD (K := ℚ) ⟨2024, 2, 29, 12, 0, 0⟩ = some (60369 + 1/2) := by decide +kernel
example : fromMJD (60369 + 1/2 : ℚ) = ⟨2024, 2, 29, 12, 0, 0⟩ := by decide +kernel
example : dayOfYear (60369 + 1/2 : ℚ) = 60 := by decide +kernel

/-- Second 60 is accepted on any day and comes back as the following minute. -/
theorem c42_second_sixty : ∃ x : ℚ, toMJD ⟨2023, 5, 4, 10, 20, 60⟩ = some x ∧ fromMJD x = ⟨2023, 5, 4, 10, 21, 0⟩ :=
  ⟨60068 + 69/160, by decide +kernel, by decide +kernel⟩

end HB
