import Verif.Props.Periods
import Mathlib.Data.Rat.Defs
import Mathlib.Algebra.Order.Field.Rat

/-! # C84: the periods, the spin-up, acceptance, limits -/

namespace HB.Periods

open HB.Spec.Periods

variable {K R : Type}

/-! ## Acceptance -/

theorem mapM_ok {α β ε : Type} (f : α → Except ε β) (l : List α) (h : ∀ a ∈ l, ∃ b, f a = .ok b) : ∃ r, l.mapM f = .ok r := by
  induction l with
  | nil => exact ⟨[], rfl⟩
  | cons a l ih =>
    obtain ⟨b, hb⟩ := h a (by simp)
    obtain ⟨r, hr⟩ := ih (fun x hx => h x (List.mem_cons_of_mem _ hx))
    exact ⟨b :: r, by rw [List.mapM_cons, hb, hr]; rfl⟩

/-- **C84 (accepted)**: the table is produced when there is one simulated value per day of the run, the run covers the periods, and
every day of the run in a period has an observation. -/
theorem c84_accepted (metric : List K → List K → R) (start stop : ℤ) (hss : start ≤ stop) (hday : 86400 ∣ stop - start)
    (sim : List K) (hsim : (sim.length : ℤ) = (stop - start) / 86400 + 1) (otime : List ℤ) (obs : List K) (hob : Dated start otime obs)
    (ps : Periods) (hps : ∀ e ∈ ps.defined, start ≤ e.2.start ∧ e.2.stop ≤ stop)
    (hcov : ∀ e ∈ ps.defined, ∀ t, Day start stop t → e.2.start ≤ t → t ≤ e.2.stop → t ∈ otime) :
    ∃ rows, evaluatePeriods metric start stop sim (.dated otime obs) ps = .ok rows := by
  have hlen : (dateRange start stop).length = sim.length := by
    unfold dateRange day
    rw [List.length_map, List.length_range]
    omega
  have hpos : 0 < (dateRange start stop).length := by
    have : 0 ≤ (stop - start) / 86400 := Int.ediv_nonneg (by omega) (by omega)
    omega
  apply mapM_ok
  intro e he
  obtain ⟨h1, h2⟩ := hps e he
  have hhead : (dateRange start stop).head? = some start := by
    cases hh : (dateRange start stop).head? with
    | none => rw [List.head?_eq_none_iff] at hh; rw [hh] at hpos; simp at hpos
    | some a => rw [head_range hh]
  have hlast : (dateRange start stop).getLast? = some stop := by
    rw [List.getLast?_eq_getElem?, List.getElem?_eq_getElem (by omega)]
    congr 1
    have := dateRange_get start stop _ _ (List.getElem?_eq_getElem (show (dateRange start stop).length - 1 < _ by omega))
    rw [this]
    obtain ⟨k, hk⟩ := hday
    omega
  have hs : e.2.slice (dateRange start stop) sim =
      .ok ((((dateRange start stop).zip sim).filter fun x => e.2.mask x.1).map Prod.snd) := by
    unfold Period.slice; rw [if_pos hlen]
  have ho : e.2.slice otime obs = .ok (((otime.zip obs).filter fun x => e.2.mask x.1).map Prod.snd) := by
    unfold Period.slice; rw [if_pos hob.lengths]
  have l1 : ((((dateRange start stop).zip sim).filter fun x => e.2.mask x.1).map Prod.snd).length =
      ((dateRange start stop).filter e.2.mask).length := by
    rw [← slice_days e.2 _ _ hlen, List.length_map, List.length_map]
  have l2 : (((otime.zip obs).filter fun x => e.2.mask x.1).map Prod.snd).length = (otime.filter e.2.mask).length := by
    rw [← slice_days e.2 _ _ hob.lengths, List.length_map, List.length_map]
  have heq : otime.filter e.2.mask = (dateRange start stop).filter e.2.mask := by
    have sort1 : ((dateRange start stop).filter e.2.mask).Pairwise (· < ·) := (dateRange_sorted start stop).filter _
    have sort2 : (otime.filter e.2.mask).Pairwise (· < ·) := hob.increasing.filter _
    refine List.Perm.eq_of_pairwise (fun a b _ _ h h' => absurd (lt_trans h h') (lt_irrefl a)) sort2 sort1 ?_
    rw [List.perm_ext_iff_of_nodup (sort2.imp (fun h => ne_of_lt h)) (sort1.imp (fun h => ne_of_lt h))]
    intro t
    rw [List.mem_filter, List.mem_filter, mem_dateRange]
    refine and_congr_left fun hm => ?_
    have hm' : e.2.start ≤ t ∧ t ≤ e.2.stop := of_decide_eq_true hm
    constructor
    · intro ht
      obtain ⟨k, hk⟩ := hob.daily t ht
      exact ⟨k.toNat, by omega, by omega⟩
    · intro ht
      exact hcov e he t ht hm'.1 hm'.2
  have hon : onPeriod metric (dateRange start stop) sim otime obs e.2 = .ok (metric
      ((((dateRange start stop).zip sim).filter fun x => e.2.mask x.1).map Prod.snd)
      (((otime.zip obs).filter fun x => e.2.mask x.1).map Prod.snd)) := by
    unfold onPeriod
    rw [hhead, hlast]
    simp only
    rw [if_neg (by omega), hs, ho]
    simp only
    rw [if_neg]
    rw [not_not, l1, l2, heq]
  exact ⟨_, by rw [hon]; rfl⟩

/-! ## The periods -/

theorem make_ok {b : ℤ × ℤ} {p : Period} (h : Period.make b = .ok p) : p = ⟨b.1, b.2⟩ ∧ b.1 ≤ b.2 := by
  unfold Period.make at h
  split at h
  · cases h
  · next hb => cases h; exact ⟨rfl, not_lt.1 hb⟩

theorem optional_ok {b : Option (ℤ × ℤ)} {p : Option Period} (h : optional b = .ok p) :
    p = b.map (fun x => ⟨x.1, x.2⟩) ∧ ∀ x ∈ b, x.1 ≤ x.2 := by
  unfold optional at h
  split at h
  · cases h; simp
  · next b =>
    split at h
    · next p' hp =>
      cases h
      obtain ⟨rfl, hb⟩ := make_ok hp
      exact ⟨rfl, fun x hx => by rw [Option.mem_some_iff] at hx; subst hx; exact hb⟩
    · cases h

/-- **C84 (periods)**: accepted periods are those that were given, none ends before its start, the calibration and the validation lie
within the simulation; without a simulation span, it is the smallest one that contains them. -/
theorem c84_periods (c v s : Option (ℤ × ℤ)) (sp : Spinup) (ps : Periods) (h : Periods.make c v s sp = .ok ps) :
    ps.calibration = c.map (fun x => ⟨x.1, x.2⟩) ∧ ps.validation = v.map (fun x => ⟨x.1, x.2⟩) ∧ ps.spinup = sp ∧
    (∀ b, s = some b → ps.simulation = ⟨b.1, b.2⟩) ∧
    (∀ e ∈ ps.defined, e.2.start ≤ e.2.stop ∧ ps.simulation.start ≤ e.2.start ∧ e.2.stop ≤ ps.simulation.stop) ∧
    (s = none → (c ≠ none ∨ v ≠ none) ∧ ∀ q : Period, (∀ p, ps.calibration = some p ∨ ps.validation = some p → q.start ≤ p.start ∧ p.stop ≤ q.stop) →
      q.start ≤ ps.simulation.start ∧ ps.simulation.stop ≤ q.stop) := by
  unfold Periods.make at h
  split at h
  · next c' v' hc hv =>
    obtain ⟨rfl, hc'⟩ := optional_ok hc
    obtain ⟨rfl, hv'⟩ := optional_ok hv
    simp only at h
    split at h
    · cases h
    · next sim hsim =>
      split at h
      · cases h
      · next hany =>
        split at h
        · cases h
        · next n hn =>
          cases h
          have hin : ∀ p : Period, (c.map (fun x => (⟨x.1, x.2⟩ : Period)) = some p ∨ v.map (fun x => (⟨x.1, x.2⟩ : Period)) = some p) →
              sim.start ≤ p.start ∧ p.stop ≤ sim.stop := by
            intro p hp
            by_contra hcon
            apply hany
            rw [List.any_eq_true]
            refine ⟨p, ?_, ?_⟩
            · rw [List.mem_filterMap]
              rcases hp with hp | hp
              · exact ⟨some p, by rw [hp]; simp, rfl⟩
              · exact ⟨some p, by rw [hp]; simp, rfl⟩
            · rw [decide_eq_true_eq]; omega
          have hok : ∀ p : Period, (c.map (fun x => (⟨x.1, x.2⟩ : Period)) = some p ∨ v.map (fun x => (⟨x.1, x.2⟩ : Period)) = some p) →
              p.start ≤ p.stop := by
            intro p hp
            rcases hp with hp | hp
            · rw [Option.map_eq_some_iff] at hp
              obtain ⟨x, hx, rfl⟩ := hp
              exact hc' x hx
            · rw [Option.map_eq_some_iff] at hp
              obtain ⟨x, hx, rfl⟩ := hp
              exact hv' x hx
          have hsimok : sim.start ≤ sim.stop := by
            split at hsim
            · obtain ⟨rfl, hb⟩ := make_ok hsim; exact hb
            · obtain ⟨rfl, hb⟩ := make_ok hsim; exact hb
            · cases hsim
          refine ⟨rfl, rfl, rfl, ?_, ?_, ?_⟩
          · rintro b rfl
            exact (make_ok hsim).1
          · intro e he
            simp only [Periods.defined, List.mem_append, Option.mem_toList, List.mem_singleton] at he
            rcases he with (he | he) | he
            · rw [Option.map_eq_some_iff] at he
              obtain ⟨p, hp, rfl⟩ := he
              exact ⟨hok p (.inl hp), hin p (.inl hp)⟩
            · rw [Option.map_eq_some_iff] at he
              obtain ⟨p, hp, rfl⟩ := he
              exact ⟨hok p (.inr hp), hin p (.inr hp)⟩
            · subst he
              exact ⟨hsimok, le_refl _, le_refl _⟩
          · rintro rfl
            cases c with
            | none =>
              cases v with
              | none => simp at hsim
              | some y =>
                obtain ⟨rfl, _⟩ := make_ok hsim
                refine ⟨.inr (by simp), fun q hq => ?_⟩
                exact hq _ (.inr rfl)
            | some x =>
              cases v with
              | none =>
                obtain ⟨rfl, _⟩ := make_ok hsim
                refine ⟨.inl (by simp), fun q hq => ?_⟩
                exact hq _ (.inl rfl)
              | some y =>
                obtain ⟨rfl, _⟩ := make_ok hsim
                refine ⟨.inl (by simp), fun q hq => ?_⟩
                have h1 := hq _ (.inl rfl)
                have h2 := hq _ (.inr rfl)
                exact ⟨le_min h1.1 h2.1, max_le h1.2 h2.2⟩
  · cases h
  · cases h

/-- **C84 (spin-up)**: the spin-up of a period is never negative and never longer than the period. -/
theorem c84_spinup (ps : Periods) (p : Period) (hp : p.start ≤ p.stop) (n : ℤ) (h : ps.spinupFor p = .ok n) : 0 ≤ n ∧ n ≤ p.nDays := by
  unfold Periods.spinupFor at h
  split at h
  · next d hd =>
    cases h
    have hnd : 0 ≤ p.nDays := by
      unfold Period.nDays day
      have : 0 ≤ (p.stop - p.start) / 86400 := Int.ediv_nonneg (by omega) (by omega)
      omega
    cases hsp : ps.spinup <;> rw [hsp] at hd <;> simp only [Spinup.toDays] at hd <;> split at hd <;>
      first
      | (cases hd; done)
      | (next hneg =>
          cases hd
          exact ⟨le_min (not_lt.1 hneg) hnd, min_le_right _ _⟩)
  · cases h

/-- **C84 (years)**: a spin-up of `n` years from a date is the number of days to the same date `n` years later (28 February for
29 February when that year is not a leap year). -/
theorem c84_years (y m d n k : ℤ) (hd : Spec.Date y m d) (sec : ℤ) (h0 : 0 ≤ sec) (h1 : sec < 86400)
    (h : (Spinup.years n).toDays (sysDays y m d * 86400 + sec) = .ok k) :
    sysDays y m d + k = sysDays (y + n) m (if m = 2 ∧ d = 29 ∧ ¬ Spec.Leap (y + n) then 28 else d) ∧
      Spec.Date (y + n) m (if m = 2 ∧ d = 29 ∧ ¬ Spec.Leap (y + n) then 28 else d) := by
  unfold Spinup.toDays day at h
  simp only at h
  have e : (sysDays y m d * 86400 + sec) / 86400 = sysDays y m d := by omega
  rw [e] at h
  unfold plusYears at h
  rw [c42_date_round_trip y m d hd] at h
  simp only at h
  split at h
  · cases h
  · cases h
    have hmin : min d (lastDay (y + n) m) = if m = 2 ∧ d = 29 ∧ ¬ Spec.Leap (y + n) then 28 else d := by
      rw [lastDay_eq]
      have h1 := hd.d1
      have h2 := hd.d2
      unfold Spec.monthLength at h2 ⊢
      by_cases hl : Spec.Leap (y + n) <;> by_cases hl' : Spec.Leap y <;> simp only [hl, hl', not_true, not_false_eq_true, and_true, and_false, if_true, if_false] at h2 ⊢ <;> split_ifs at h2 ⊢ <;> omega
    rw [hmin]
    refine ⟨by ring, hd.m1, hd.m2, ?_, ?_⟩
    · have h1 := hd.d1
      split_ifs <;> omega
    · have h2 := hd.d2
      unfold Spec.monthLength at h2 ⊢
      by_cases hl : Spec.Leap (y + n) <;> by_cases hl' : Spec.Leap y <;> simp only [hl, hl', not_true, not_false_eq_true, and_true, and_false, if_true, if_false] at h2 ⊢ <;> split_ifs at h2 ⊢ <;> omega

end HB.Periods
