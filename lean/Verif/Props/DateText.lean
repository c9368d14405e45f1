import Verif.Model.DateTextReading
import Mathlib.Data.Rat.Floor

/-!
# C60: dates given as text

A date-time between 1900 and 2100 written in any of the ways an announced format covers is read as that date-time, and so
is the period of a run.  Whatever is accepted follows one of these ways and denotes a date between 1900 and 2100.
-/

namespace HB.DateText

set_option linter.unusedSectionVars false

variable {K : Type} [Field K] [LinearOrder K] [IsStrictOrderedRing K] [FloorRing K]

/-! ## Accepted dates lie between 1900 and 2100 -/

/-- The date-time of a number of seconds. -/
theorem date_of_seconds (secs : ℤ) : ∃ y m d, HB.Spec.Date y m d ∧ civil (secs / 86400) = (y, m, d) ∧
    sysSeconds ⟨y, m, d, secs % 86400 / 3600, secs % 86400 % 3600 / 60, secs % 86400 % 3600 % 60⟩ = secs := by
  obtain ⟨y, m, d, hd, hz⟩ := c42_every_day (secs / 86400)
  refine ⟨y, m, d, hd, ?_, ?_⟩
  · rw [← hz]; exact c42_date_round_trip y m d hd
  · unfold sysSeconds; dsimp only; rw [hz]; omega

theorem isValidDate_iff (secs : ℤ) : isValidDate secs = true ↔ ∃ t, Spec.Modern t ∧ sysSeconds t = secs := by
  constructor
  · intro h
    obtain ⟨y, m, d, hd, hc, hs⟩ := date_of_seconds secs
    unfold isValidDate at h
    rw [hc] at h
    have h := of_decide_eq_true h
    have b := Int.emod_nonneg secs (show (86400 : ℤ) ≠ 0 by norm_num)
    have b' := Int.emod_lt_of_pos secs (show (0 : ℤ) < 86400 by norm_num)
    refine ⟨_, ⟨⟨hd, ?_, ?_, ?_, ?_, ?_, ?_, ?_, ?_⟩, ?_, ?_⟩, hs⟩ <;> dsimp only at h ⊢ <;> omega
  · rintro ⟨t, ht, rfl⟩
    have h := ht.valid
    have := h.h1; have := h.h2; have := h.mi1; have := h.mi2; have := h.s1; have := h.s2
    have hq : sysSeconds t / 86400 = sysDays t.year t.month t.day := by unfold sysSeconds; omega
    unfold isValidDate
    rw [hq, c42_date_round_trip _ _ _ h.date]
    have l : HB.Spec.monthLength t.year t.month ≤ 31 := by unfold HB.Spec.monthLength; split_ifs <;> norm_num
    have := h.date.m1; have := h.date.m2; have := h.date.d1; have := h.date.d2; have := ht.y0; have := ht.y1
    apply decide_eq_true
    dsimp only
    omega

theorem parse_cases {s : String} {fmt : TimeFormat} {secs : ℤ} (h : parseSeconds s fmt = some secs) :
    isValidDate secs = true ∧ ∃ q ∈ Spec.ways fmt, ∃ tm, parseTm (s.toList.takeWhile (· != '\x00')) q = some tm ∧
      (secs = sysDays tm.year tm.month tm.day * 86400 + tm.hour * 3600 + tm.min * 60 + tm.sec ∨
       dateOnly (items q.toList) = true ∧ secs = sysDays tm.year tm.month tm.day * 86400) := by
  have key1 : ∀ (w : List Char) (pats : List String) (secs : ℤ), (∀ q ∈ pats, q ∈ Spec.ways fmt) → trySeconds w pats = some secs →
      isValidDate secs = true ∧ ∃ q ∈ Spec.ways fmt, ∃ tm, parseTm w q = some tm ∧
      (secs = sysDays tm.year tm.month tm.day * 86400 + tm.hour * 3600 + tm.min * 60 + tm.sec ∨
       dateOnly (items q.toList) = true ∧ secs = sysDays tm.year tm.month tm.day * 86400) := by
    intro w pats secs hsub ht
    unfold trySeconds at ht
    rw [Option.filter_eq_some_iff] at ht
    obtain ⟨hf, hv⟩ := ht
    obtain ⟨q, hq, hp⟩ := List.exists_of_findSome?_eq_some hf
    unfold parseExact at hp
    obtain ⟨tm, htm, rfl⟩ := Option.map_eq_some_iff.1 hp
    exact ⟨hv, q, hsub q hq, tm, htm, Or.inl rfl⟩
  have key2 : ∀ (w : List Char) (pats : List String) (secs : ℤ), (∀ q ∈ pats, q ∈ Spec.ways fmt ∧ dateOnly (items q.toList) = true) →
      tryDays w pats = some secs →
      isValidDate secs = true ∧ ∃ q ∈ Spec.ways fmt, ∃ tm, parseTm w q = some tm ∧
      (secs = sysDays tm.year tm.month tm.day * 86400 + tm.hour * 3600 + tm.min * 60 + tm.sec ∨
       dateOnly (items q.toList) = true ∧ secs = sysDays tm.year tm.month tm.day * 86400) := by
    intro w pats secs hsub ht
    unfold tryDays at ht
    rw [Option.filter_eq_some_iff] at ht
    obtain ⟨hf, hv⟩ := ht
    obtain ⟨q, hq, hp⟩ := List.exists_of_findSome?_eq_some hf
    unfold parseDateOnly at hp
    obtain ⟨tm, htm, rfl⟩ := Option.map_eq_some_iff.1 hp
    exact ⟨hv, q, (hsub q hq).1, tm, htm, Or.inr ⟨(hsub q hq).2, rfl⟩⟩
  unfold parseSeconds at h
  cases fmt <;> dsimp only at h
  · exact key2 _ _ _ (by decide +kernel) h
  · exact key1 _ _ _ (by decide +kernel) h
  · exact key2 _ _ _ (by decide +kernel) h
  · exact key1 _ _ _ (by decide +kernel) h
  · exact key1 _ _ _ (by decide +kernel) h
  · exact key2 _ _ _ (by decide +kernel) h
  · exact key1 _ _ _ (by decide +kernel) h
  · exact key1 _ _ _ (by decide +kernel) h
  · split at h
    · cases h
      rename_i hx
      exact key1 _ _ _ (by decide +kernel) hx
    · exact key2 _ _ _ (by decide +kernel) h

/-- **C60 (accepted dates).** Whatever the text and the announced format, the result is the date of a valid date-time
between 1 January 1900 and 31 December 2100; anything else is refused. -/
theorem c60_result_in_range (s : String) (fmt : TimeFormat) (x : K) (h : parseToMJD s fmt = some x) :
    ∃ t, Spec.Modern t ∧ toMJD t = some x := by
  unfold parseToMJD at h
  obtain ⟨secs, hs, rfl⟩ := Option.map_eq_some_iff.1 h
  obtain ⟨t, ht, rfl⟩ := (isValidDate_iff secs).1 (parse_cases hs).1
  exact ⟨t, ht, by unfold toMJD; rw [if_pos ht.valid.valid]⟩

/-! ## Written dates are read -/

theorem fill_seconds {t : CTime} (h : Spec.Modern t) {pat : String} (hs : Spec.Shown pat t)
    (hd : dated (items pat.toList) = true) :
    let tm := fill t (items pat.toList) {}
    sysDays tm.year tm.month tm.day * 86400 + tm.hour * 3600 + tm.min * 60 + tm.sec = sysSeconds t := by
  obtain ⟨hY, hm, hdd⟩ := of_decide_eq_true hd
  obtain ⟨s1, s2, s3⟩ := hs
  have v := h.valid
  have := v.h1; have := v.mi1; have := v.s1; have := v.date.m1; have := v.date.d1; have := h.y0
  dsimp only
  rw [fill_year, fill_month, fill_day, fill_hour, fill_min, fill_sec, if_pos hY, if_pos hm, if_pos hdd]
  rw [Int.toNat_of_nonneg (by omega), Int.toNat_of_nonneg (by omega), Int.toNat_of_nonneg (by omega)]
  have e1 : ((if Item.num 'H' ∈ items pat.toList then t.hour.toNat else 0 : ℕ) : ℤ) = t.hour := by
    split
    · omega
    · rename_i hn; rw [s3 hn]; rfl
  have e2 : ((if Item.num 'M' ∈ items pat.toList then t.min.toNat else 0 : ℕ) : ℤ) = t.min := by
    split
    · omega
    · rename_i hn; rw [s2 hn]; rfl
  have e3 : ((if Item.num 'S' ∈ items pat.toList then t.sec.toNat else 0 : ℕ) : ℤ) = t.sec := by
    split
    · omega
    · rename_i hn; rw [s1 hn]; rfl
  rw [e1, e2, e3]
  rfl

theorem fill_days {t : CTime} (h : Spec.Modern t) {pat : String} (hs : Spec.Shown pat t)
    (hd : dated (items pat.toList) = true) (ho : dateOnly (items pat.toList) = true) :
    let tm := fill t (items pat.toList) {}
    sysDays tm.year tm.month tm.day * 86400 = sysSeconds t := by
  have e := fill_seconds h hs hd
  obtain ⟨h1, h2, h3⟩ := of_decide_eq_true ho
  dsimp only at e ⊢
  rw [fill_hour, fill_min, fill_sec, if_neg h1, if_neg h2, if_neg h3] at e
  simpa using e

/-- **C60 (written dates are read).** For every announced format, every way of writing it covers and every valid date-time
between 1900 and 2100 whose unwritten parts are zero: the text is read as that date-time. -/
theorem c60_written_date_is_read (fmt : TimeFormat) (pat : String) (hp : pat ∈ Spec.ways fmt) (t : CTime)
    (ht : Spec.Modern t) (hs : Spec.Shown pat t) : ∃ x : K, toMJD t = some x ∧ parseToMJD (Spec.text pat t) fmt = some x := by
  refine ⟨secondsToMjd (sysSeconds t), by unfold toMJD; rw [if_pos ht.valid.valid], ?_⟩
  have hv : isValidDate (sysSeconds t) = true := (isValidDate_iff _).2 ⟨t, ht, rfl⟩
  have hg := List.all_eq_true.1 (goodWay_all fmt) pat hp
  unfold goodWay at hg
  dsimp only at hg
  rw [Bool.and_eq_true, Bool.and_eq_true, Bool.and_eq_true] at hg
  obtain ⟨⟨⟨g1, g2⟩, g3⟩, g4⟩ := hg
  have es := fill_seconds ht hs g2
  have hw : (Spec.text pat t).toList.takeWhile (· != '\x00') = Spec.write t (items pat.toList) := by
    unfold Spec.text
    rw [String.toList_ofList]
    exact write_noNul t _ g3
  have onSeconds : ∀ pats, found (items pat.toList) pats = true → trySeconds (Spec.write t (items pat.toList)) pats = some (sysSeconds t) := by
    intro pats hf
    have := found_sound ht g1 pats hf
      (fun tm => sysDays tm.year tm.month tm.day * 86400 + tm.hour * 3600 + tm.min * 60 + tm.sec)
    unfold trySeconds parseExact
    rw [this, es]
    simp [Option.filter, hv]
  have onDays : ∀ pats, dateOnly (items pat.toList) = true → found (items pat.toList) pats = true →
      tryDays (Spec.write t (items pat.toList)) pats = some (sysSeconds t) := by
    intro pats ho hf
    have := found_sound ht g1 pats hf (fun tm => sysDays tm.year tm.month tm.day * 86400)
    unfold tryDays parseDateOnly
    rw [this, fill_days ht hs g2 ho]
    simp [Option.filter, hv]
  unfold parseToMJD parseSeconds
  rw [hw]
  cases fmt <;> dsimp only at g4 ⊢
  · rw [Bool.and_eq_true] at g4; rw [onDays _ g4.1 g4.2]; rfl
  · rw [onSeconds _ g4]; rfl
  · rw [Bool.and_eq_true] at g4; rw [onDays _ g4.1 g4.2]; rfl
  · rw [onSeconds _ g4]; rfl
  · rw [onSeconds _ g4]; rfl
  · rw [Bool.and_eq_true] at g4; rw [onDays _ g4.1 g4.2]; rfl
  · rw [onSeconds _ g4]; rfl
  · rw [onSeconds _ g4]; rfl
  · rw [Bool.or_eq_true] at g4
    rcases g4 with g4 | g4
    · rw [onSeconds _ g4]; rfl
    · rw [Bool.and_eq_true, Bool.and_eq_true] at g4
      have hn : trySeconds (Spec.write t (items pat.toList)) patsGuessTime = none := by
        have := refuses_all ht patsGuessTime g4.1.2
          (fun tm => sysDays tm.year tm.month tm.day * 86400 + tm.hour * 3600 + tm.min * 60 + tm.sec)
        unfold trySeconds parseExact
        rw [this]; rfl
      rw [hn, onDays _ g4.1.1 g4.2]; rfl

/-- **C60 (accepted texts follow the format).** Whatever is accepted follows one of the ways of writing the announced format
covers (the text being taken up to its first NUL), with fields in their ranges, and the result is the day count of these
fields; in particular it is the date-time shown whenever the day exists in its month. -/
theorem c60_accepted_text (s : String) (fmt : TimeFormat) (x : K) (h : parseToMJD s fmt = some x) :
    ∃ pat ∈ Spec.ways fmt, ∃ r, Spec.Reading (items pat.toList) (s.toList.takeWhile (· != '\x00')) r ∧
      x = 40587 + (sysDays (Spec.fields r).year (Spec.fields r).month (Spec.fields r).day : K) +
        ((Spec.fields r).hour * 3600 + (Spec.fields r).min * 60 + (Spec.fields r).sec : ℤ) / 86400 ∧
      (HB.Spec.DateTime (Spec.fields r) → toMJD (Spec.fields r) = some x) := by
  have hways : ∀ fmt, ∀ q ∈ Spec.ways fmt, once (items q.toList) = true ∧ dated (items q.toList) = true := by
    intro fmt; cases fmt <;> decide +kernel
  unfold parseToMJD at h
  obtain ⟨secs, hs, rfl⟩ := Option.map_eq_some_iff.1 h
  obtain ⟨_, q, hq, tm, htm, hc⟩ := parse_cases hs
  obtain ⟨r, h1, h2, h3⟩ := parseTm_reading htm (hways fmt q hq).1 (hways fmt q hq).2
  have e : secs = sysDays tm.year tm.month tm.day * 86400 + tm.hour * 3600 + tm.min * 60 + tm.sec := by
    rcases hc with hc | ⟨ho, hc⟩
    · exact hc
    · obtain ⟨o1, o2, o3⟩ := of_decide_eq_true ho
      have absent : ∀ c, Item.num c ∉ items q.toList → (r.lookup c).getD 0 = 0 := by
        intro c hc
        have : r.lookup c = none := by
          rw [List.lookup_eq_none_iff]
          intro p hp
          simp only [bne_iff_ne, ne_eq]
          rintro rfl
          exact hc ((mem_nums _ _).1 (by rw [← h2]; exact List.mem_map.2 ⟨p, hp, rfl⟩))
        rw [this]; rfl
      have a1 : ((r.lookup 'H').getD 0 : ℤ) = tm.hour := congrArg CTime.hour h3
      have a2 : ((r.lookup 'M').getD 0 : ℤ) = tm.min := congrArg CTime.min h3
      have a3 : ((r.lookup 'S').getD 0 : ℤ) = tm.sec := congrArg CTime.sec h3
      rw [absent _ o1] at a1
      rw [absent _ o2] at a2
      rw [absent _ o3] at a3
      rw [hc, ← a1, ← a2, ← a3]
      simp
  refine ⟨q, hq, r, h1, ?_, ?_⟩
  · rw [h3, e]
    unfold secondsToMjd
    push_cast
    ring
  · intro hv
    unfold toMJD
    rw [if_pos hv.valid, h3, e]
    rfl

/-! ## The period of a run -/

/-- **C60 (the period of a run).** Start and end written in any of the ways the reader guesses are the ones of the run, with
the time step announced; another unit, or a start or end it cannot read, is refused. -/
theorem c60_run_period (cfg : TimerSettings) (pa pb : String) (ha : pa ∈ Spec.ways .guess) (hb : pb ∈ Spec.ways .guess)
    (a b : CTime) (hA : Spec.Modern a) (hB : Spec.Modern b) (sa : Spec.Shown pa a) (sb : Spec.Shown pb b)
    (ea : cfg.start = Spec.text pa a) (eb : cfg.stop = Spec.text pb b) :
    ∃ x y : K, toMJD a = some x ∧ toMJD b = some y ∧
      (cfg.timeStepUnit = "day" → initTimer cfg = some (x, y, (cfg.timeStep : K))) ∧
      (cfg.timeStepUnit = "hour" → initTimer cfg = some (x, y, (cfg.timeStep : K) / 24)) ∧
      (cfg.timeStepUnit = "minute" → initTimer cfg = some (x, y, (cfg.timeStep : K) / 1440)) ∧
      (cfg.timeStepUnit ∉ ["day", "hour", "minute"] → initTimer (K := K) cfg = none) := by
  obtain ⟨x, hx, px⟩ := c60_written_date_is_read (K := K) .guess pa ha a hA sa
  obtain ⟨y, hy, py⟩ := c60_written_date_is_read (K := K) .guess pb hb b hB sb
  refine ⟨x, y, hx, hy, ?_, ?_, ?_, ?_⟩
  · intro h; unfold initTimer; rw [ea, eb, px, py, h]; simp
  · intro h; unfold initTimer; rw [ea, eb, px, py, h]; simp
  · intro h; unfold initTimer; rw [ea, eb, px, py, h]; simp
  · intro h
    simp only [List.mem_cons, List.not_mem_nil, or_false, not_or] at h
    unfold initTimer; rw [ea, eb, px, py]; simp [h.1, h.2.1, h.2.2]

theorem c60_run_period_readable (cfg : TimerSettings) (x y step : K) (h : initTimer cfg = some (x, y, step)) :
    ∃ a b, Spec.Modern a ∧ Spec.Modern b ∧ toMJD a = some x ∧ toMJD b = some y := by
  unfold initTimer at h
  split at h
  · rename_i x' y' hx hy
    obtain ⟨a, ha, ea⟩ := c60_result_in_range _ _ _ hx
    obtain ⟨b, hb, eb⟩ := c60_result_in_range _ _ _ hy
    split_ifs at h <;> cases h <;> exact ⟨a, b, ha, hb, ea, eb⟩
  · cases h

/-! ## Announcing the wrong order of day, month and year -/

/-- No pattern of the list reads a year from 1899 on in a modern date written with `p`. -/
def lateRefused (p : List Item) (pats : List String) : Bool :=
  pats.all fun q => once (items q.toList) && dateOnly (items q.toList) &&
    eras.all fun y => !aMatch 1899 (items q.toList) (shape y p)

/-- Days of a year before 1899 are refused, even when the day exceeds its month. -/
theorem early_invalid (y m d : ℕ) (hy : y < 1899) (hm : m ≤ 12) (hd : d ≤ 31) : isValidDate (sysDays y m d * 86400) = false := by
  by_contra hne
  rw [Bool.not_eq_false] at hne
  obtain ⟨t, ht, hs⟩ := (isValidDate_iff _).1 hne
  have v := ht.valid
  have := v.h1; have := v.h2; have := v.mi1; have := v.mi2; have := v.s1; have := v.s2
  have h1 : sysDays t.year t.month t.day = sysDays y m d := by unfold sysSeconds at hs; omega
  have d0 : HB.Spec.Date 1900 1 1 := ⟨by norm_num, by norm_num, by norm_num, by decide⟩
  have h2 : sysDays 1900 1 1 ≤ sysDays t.year t.month t.day := by
    by_cases he : t.year = 1900 ∧ t.month = 1 ∧ t.day = 1
    · rw [he.1, he.2.1, he.2.2]
    · have := v.date.m1; have := v.date.d1; have := ht.y0
      exact le_of_lt (c42_date_order _ _ _ _ _ _ d0 v.date (by omega))
  rw [h1] at h2
  simp only [sysDays_eq] at h2
  split_ifs at h2 <;> omega

theorem lateRefused_sound {t : CTime} (h : Spec.Modern t) {p : List Item} (pats : List String)
    (hl : lateRefused p pats = true) (hd : pats.all (fun q => dated (items q.toList)) = true) :
    tryDays (Spec.write t p) pats = none := by
  unfold tryDays
  rw [Option.filter_eq_none_iff]
  intro secs hs
  rw [Bool.not_eq_true]
  obtain ⟨q, hq, hp⟩ := List.exists_of_findSome?_eq_some hs
  unfold parseDateOnly at hp
  obtain ⟨tm, htm, rfl⟩ := Option.map_eq_some_iff.1 hp
  have hq1 := List.all_eq_true.1 hl q hq
  rw [Bool.and_eq_true, Bool.and_eq_true] at hq1
  obtain ⟨⟨ho, _⟩, ha⟩ := hq1
  obtain ⟨r, h1, h2, h3⟩ := parseTm_reading htm ho (List.all_eq_true.1 hd q hq)
  have em : ((r.lookup 'm').getD 0 : ℤ) = tm.month := congrArg CTime.month h3
  have ed : ((r.lookup 'd').getD 0 : ℤ) = tm.day := congrArg CTime.day h3
  have bm : (r.lookup 'm').getD 0 ≤ 12 := reading_lookup h1 'm'
  have bd : (r.lookup 'd').getD 0 ≤ 31 := reading_lookup h1 'd'
  apply early_invalid
  · by_contra hy
    rw [not_lt] at hy
    obtain ⟨y, hy1, hf⟩ := write_fits h
    unfold parseTm at htm
    split at htm
    · cases htm
    · rename_i tm' rest hs
      split at htm
      · rename_i hr
        cases htm
        have hn : (nums (items q.toList)).Nodup := by
          rw [once, Bool.and_eq_true] at ho
          exact of_decide_eq_true ho.1
        have h4 := aMatch_sound 1899 _ _ _ _ _ _ (hf p) hs hr (Or.inr ⟨hy, hn⟩)
        have h5 := List.all_eq_true.1 ha y hy1
        rw [h4] at h5
        cases h5
      · cases htm
  · omega
  · omega

set_option maxHeartbeats 4000000 in
theorem wrong_order_tables :
    (Spec.ways .DD_MM_YYYY).all (fun pat => noNul (items pat.toList) && lateRefused (items pat.toList) patsYmd) = true ∧
    (Spec.ways .ISOdate).all (fun pat => noNul (items pat.toList) && lateRefused (items pat.toList) patsDmy) = true ∧
    patsYmd.all (fun q => dated (items q.toList)) = true ∧ patsDmy.all (fun q => dated (items q.toList)) = true := by
  decide +kernel

/-- **C60 (wrong order announced).** A date written day first is never misread when the year-first formats are announced, nor
the other way round: it is refused. -/
theorem c60_wrong_order_refused (t : CTime) (ht : Spec.Modern t) :
    (∀ pat ∈ Spec.ways .DD_MM_YYYY, parseToMJD (K := K) (Spec.text pat t) .ISOdate = none ∧
      parseToMJD (K := K) (Spec.text pat t) .YYYY_MM_DD = none) ∧
    (∀ pat ∈ Spec.ways .ISOdate, parseToMJD (K := K) (Spec.text pat t) .DD_MM_YYYY = none) := by
  obtain ⟨t1, t2, t3, t4⟩ := wrong_order_tables
  have hw : ∀ pat : String, noNul (items pat.toList) = true →
      (Spec.text pat t).toList.takeWhile (· != '\x00') = Spec.write t (items pat.toList) := by
    intro pat h
    unfold Spec.text
    rw [String.toList_ofList]
    exact write_noNul t _ h
  refine ⟨fun pat hp => ?_, fun pat hp => ?_⟩
  · have h := List.all_eq_true.1 t1 pat hp
    rw [Bool.and_eq_true] at h
    have e := lateRefused_sound ht patsYmd h.2 t3
    constructor <;> (unfold parseToMJD parseSeconds; dsimp only; rw [hw pat h.1, e]; rfl)
  · have h := List.all_eq_true.1 t2 pat hp
    rw [Bool.and_eq_true] at h
    have e := lateRefused_sound ht patsDmy h.2 t4
    unfold parseToMJD parseSeconds; dsimp only; rw [hw pat h.1, e]; rfl

/-! ## Limits -/

/-- **C60 (silent misreading).** With times the order is not safe: 19 October 2023, 10:20, written `19102023 1020` is
read correctly when the day-first format is announced, but as 2 February 1910, 03:10:20 when the format is guessed (as for the
period of a run) or when a year-first format is announced. -/
theorem c60_compact_time_misread :
    parseToMJD (K := ℚ) "19102023 1020" .DD_MM_YYYY_hh_mm = toMJD ⟨2023, 10, 19, 10, 20, 0⟩ ∧
    parseToMJD (K := ℚ) "19102023 1020" .guess = toMJD ⟨1910, 2, 2, 3, 10, 20⟩ ∧
    parseToMJD (K := ℚ) "19102023 1020" .ISOdateTime = toMJD ⟨1910, 2, 2, 3, 10, 20⟩ ∧
    "19102023 1020" = Spec.text "%d%m%Y %H%M" ⟨2023, 10, 19, 10, 20, 0⟩ := by
  refine ⟨by decide +kernel, by decide +kernel, by decide +kernel, by decide +kernel⟩

/-- **C60 (days that do not exist).** 31 February is accepted and read as 3 March, whereas the constructor from numbers
refuses it; second 61 is accepted too. -/
theorem c60_impossible_day_accepted :
    parseToMJD (K := ℚ) "2023-02-31" .ISOdate = toMJD ⟨2023, 3, 3, 0, 0, 0⟩ ∧ toMJD (K := ℚ) ⟨2023, 2, 31, 0, 0, 0⟩ = none ∧
    parseToMJD (K := ℚ) "2023-02-28 23:59:61" .ISOdateTime = toMJD ⟨2023, 3, 1, 0, 0, 1⟩ := by
  refine ⟨by decide +kernel, by decide +kernel, by decide +kernel⟩

/-- A modern date-time written with `pat` is refused by all patterns of the format. -/
def allRefuse (fmt : TimeFormat) (pat : String) : Bool :=
  let p := items pat.toList
  noNul p && match fmt with
  | .ISOdate | .YYYY_MM_DD => patsYmd.all fun q => refuses (items q.toList) p
  | .ISOdateTime | .YYYY_MM_DD_hh_mm | .YYYY_MM_DD_hh_mm_ss => patsYmdHms.all fun q => refuses (items q.toList) p
  | .DD_MM_YYYY => patsDmy.all fun q => refuses (items q.toList) p
  | .DD_MM_YYYY_hh_mm | .DD_MM_YYYY_hh_mm_ss => patsDmyHms.all fun q => refuses (items q.toList) p
  | .guess => (patsGuessTime.all fun q => refuses (items q.toList) p) && patsGuessDate.all fun q => refuses (items q.toList) p

theorem allRefuse_sound {t : CTime} (h : Spec.Modern t) {fmt : TimeFormat} {pat : String} (ha : allRefuse fmt pat = true) :
    parseToMJD (K := K) (Spec.text pat t) fmt = none := by
  unfold allRefuse at ha
  dsimp only at ha
  rw [Bool.and_eq_true] at ha
  obtain ⟨hn, ha⟩ := ha
  have hw : (Spec.text pat t).toList.takeWhile (· != '\x00') = Spec.write t (items pat.toList) := by
    unfold Spec.text
    rw [String.toList_ofList]
    exact write_noNul t _ hn
  have k1 : ∀ pats : List String, (pats.all fun q => refuses (items q.toList) (items pat.toList)) = true →
      trySeconds (Spec.write t (items pat.toList)) pats = none := by
    intro pats hp
    have := refuses_all h pats hp (fun tm => sysDays tm.year tm.month tm.day * 86400 + tm.hour * 3600 + tm.min * 60 + tm.sec)
    unfold trySeconds parseExact
    rw [this]; rfl
  have k2 : ∀ pats : List String, (pats.all fun q => refuses (items q.toList) (items pat.toList)) = true →
      tryDays (Spec.write t (items pat.toList)) pats = none := by
    intro pats hp
    have := refuses_all h pats hp (fun tm => sysDays tm.year tm.month tm.day * 86400)
    unfold tryDays parseDateOnly
    rw [this]; rfl
  unfold parseToMJD parseSeconds
  rw [hw]
  cases fmt <;> dsimp only at ha ⊢
  · rw [k2 patsYmd ha]; rfl
  · rw [k1 patsYmdHms ha]; rfl
  · rw [k2 patsYmd ha]; rfl
  · rw [k1 patsYmdHms ha]; rfl
  · rw [k1 patsYmdHms ha]; rfl
  · rw [k2 patsDmy ha]; rfl
  · rw [k1 patsDmyHms ha]; rfl
  · rw [k1 patsDmyHms ha]; rfl
  · rw [Bool.and_eq_true] at ha
    rw [k1 patsGuessTime ha.1, k2 patsGuessDate ha.2]; rfl

/-- **C60 (ways that are not covered).** Whatever the date: a dotted year-first date is refused when the format is guessed
although it is read when announced; ISO date-times without seconds and compact dates with a time in `hh:mm:ss` are
refused. -/
theorem c60_refused_ways (t : CTime) (ht : Spec.Modern t) :
    parseToMJD (K := K) (Spec.text "%Y.%m.%d" t) .guess = none ∧
    parseToMJD (K := K) (Spec.text "%Y-%m-%dT%H:%M" t) .ISOdateTime = none ∧
    parseToMJD (K := K) (Spec.text "%Y-%m-%dT%H:%M" t) .guess = none ∧
    parseToMJD (K := K) (Spec.text "%Y%m%d %H:%M:%S" t) .ISOdateTime = none :=
  ⟨allRefuse_sound ht (by decide +kernel), allRefuse_sound ht (by decide +kernel), allRefuse_sound ht (by decide +kernel),
   allRefuse_sound ht (by decide +kernel)⟩

/-! ## The hypotheses are met -/

example : Spec.text "%d.%m.%Y %H:%M" ⟨2024, 2, 29, 6, 5, 0⟩ = "29.02.2024 06:05" := by decide +kernel

/-- A leap day, written day first without seconds, is read whether announced or guessed. -/
theorem c60_example : Spec.Modern ⟨2024, 2, 29, 6, 5, 0⟩ ∧ Spec.Shown "%d.%m.%Y %H:%M" ⟨2024, 2, 29, 6, 5, 0⟩ ∧
    "%d.%m.%Y %H:%M" ∈ Spec.ways .DD_MM_YYYY_hh_mm ∧ "%d.%m.%Y %H:%M" ∈ Spec.ways .guess ∧
    parseToMJD (K := ℚ) "29.02.2024 06:05" .guess = toMJD ⟨2024, 2, 29, 6, 5, 0⟩ := by
  refine ⟨⟨⟨⟨by norm_num, by norm_num, by norm_num, by decide⟩, ?_, ?_, ?_, ?_, ?_, ?_, ?_, ?_⟩, ?_, ?_⟩, ⟨?_, ?_, ?_⟩,
    by decide +kernel, by decide +kernel, by decide +kernel⟩
  all_goals first | (intro h; exact absurd (by decide +kernel) h) | norm_num

end HB.DateText
