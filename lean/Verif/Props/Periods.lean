import Verif.Spec.Periods
import Verif.Props.Calendar
import Mathlib.Data.List.Perm.Subperm
import Mathlib.Data.List.Sort
import Mathlib.Tactic.Linarith
import Mathlib.Tactic.Ring

/-!
# C84: scores on a period compare the simulated and the observed values of the same days
-/

namespace HB.Periods

open HB.Spec.Periods

variable {K R : Type}

theorem mem_dateRange (start stop t : ℤ) : t ∈ dateRange start stop ↔ Day start stop t := by
  unfold dateRange Day day
  rw [List.mem_map]
  constructor
  · rintro ⟨k, hk, rfl⟩
    rw [List.mem_range] at hk
    exact ⟨k, rfl, by omega⟩
  · rintro ⟨k, rfl, h⟩
    exact ⟨k, List.mem_range.2 (by omega), rfl⟩

theorem dateRange_sorted (start stop : ℤ) : (dateRange start stop).Pairwise (· < ·) := by
  unfold dateRange day
  rw [List.pairwise_map]
  exact List.pairwise_lt_range.imp (fun {a b} h => by omega)

theorem dateRange_get (start stop t : ℤ) (i : ℕ) (h : (dateRange start stop)[i]? = some t) : t = start + 86400 * (i : ℤ) := by
  unfold dateRange day at h
  rw [List.getElem?_map, Option.map_eq_some_iff] at h
  obtain ⟨k, hk, rfl⟩ := h
  obtain ⟨_, h2⟩ := List.getElem?_eq_some_iff.1 hk
  rw [List.getElem_range] at h2
  rw [h2]

theorem slice_days (p : Period) (time : List ℤ) (xs : List K) (h : time.length = xs.length) :
    ((time.zip xs).filter fun e => p.mask e.1).map Prod.fst = time.filter p.mask := by
  conv_rhs => rw [← List.map_fst_zip (l₁ := time) (l₂ := xs) (by omega)]
  rw [List.filter_map]
  rfl

theorem valueAt_mem {time : List ℤ} {xs : List K} (hn : time.Pairwise (· < ·)) {e : ℤ × K} (he : e ∈ time.zip xs) :
    valueAt time xs e.1 = some e.2 := by
  unfold valueAt
  induction time generalizing xs with
  | nil => simp at he
  | cons a time ih =>
    cases xs with
    | nil => simp at he
    | cons x xs =>
      rw [List.pairwise_cons] at hn
      rw [List.zip_cons_cons] at he ⊢
      rcases List.mem_cons.1 he with rfl | he
      · rw [List.find?_cons_of_pos (by simp)]; rfl
      · rw [List.find?_cons_of_neg]
        · exact ih hn.2 he
        · have := hn.1 e.1 (List.of_mem_zip he).1
          simp only [decide_eq_true_eq]
          omega

theorem slice_values {p : Period} {time : List ℤ} {xs s : List K} (hn : time.Pairwise (· < ·)) (h : p.slice time xs = .ok s) :
    time.length = xs.length ∧ s.map some = (time.filter p.mask).map (valueAt time xs) := by
  unfold Period.slice at h
  split at h
  · next hl =>
    cases h
    refine ⟨hl, ?_⟩
    rw [← slice_days p time xs hl, List.map_map, List.map_map]
    apply List.map_congr_left
    intro e he
    exact (valueAt_mem hn (List.mem_of_mem_filter he)).symm
  · cases h

theorem valueAt_range {start stop : ℤ} {sim : List K} {t : ℤ} {x : K}
    (h : valueAt (dateRange start stop) sim t = some x) : ∃ i : ℕ, t = start + 86400 * (i : ℤ) ∧ sim[i]? = some x := by
  unfold valueAt at h
  rw [Option.map_eq_some_iff] at h
  obtain ⟨e, he, rfl⟩ := h
  have hm := List.mem_of_find?_eq_some he
  have ht := List.find?_some he
  simp only [decide_eq_true_eq] at ht
  obtain ⟨i, hi⟩ := List.mem_iff_getElem?.1 hm
  rw [List.getElem?_zip_eq_some] at hi
  exact ⟨i, by rw [← ht]; exact dateRange_get _ _ _ _ hi.1, hi.2⟩

theorem head_range {start stop a : ℤ} (h : (dateRange start stop).head? = some a) : a = start := by
  rw [List.head?_eq_getElem?] at h
  have := dateRange_get _ _ _ _ h
  simpa using this

theorem last_range {start stop b : ℤ} (h : (dateRange start stop).getLast? = some b) : Day start stop b :=
  (mem_dateRange _ _ _).1 (List.mem_of_getLast? h)

/-- The heart of the matter: equal numbers of values on the days of a period are values of the same days. -/
theorem same_days {start stop b : ℤ} (p : Period) {sim : List K} {otime : List ℤ} {obs : List K} {s o : List K}
    (hob : Dated start otime obs) (hb : Day start stop b) (h1 : start ≤ p.start) (h2 : p.stop ≤ b)
    (hs : p.slice (dateRange start stop) sim = .ok s) (ho : p.slice otime obs = .ok o) (hl : o.length = s.length) :
    SameDays start stop sim otime obs p.start p.stop s o := by
  obtain ⟨_, vs⟩ := slice_values (dateRange_sorted start stop) hs
  obtain ⟨_, vo⟩ := slice_values hob.increasing ho
  have l1 : s.length = ((dateRange start stop).filter p.mask).length := by simpa using congrArg List.length vs
  have l2 : o.length = (otime.filter p.mask).length := by simpa using congrArg List.length vo
  have sort1 : ((dateRange start stop).filter p.mask).Pairwise (· < ·) := (dateRange_sorted start stop).filter _
  have sort2 : (otime.filter p.mask).Pairwise (· < ·) := hob.increasing.filter _
  have nod2 : (otime.filter p.mask).Nodup := sort2.imp (fun h => ne_of_lt h)
  have sub : otime.filter p.mask ⊆ (dateRange start stop).filter p.mask := by
    intro t ht
    rw [List.mem_filter] at ht ⊢
    refine ⟨(mem_dateRange _ _ _).2 ?_, ht.2⟩
    have hm : p.start ≤ t ∧ t ≤ p.stop := of_decide_eq_true ht.2
    obtain ⟨k, hk⟩ := hob.daily t ht.1
    obtain ⟨_, _, hbs⟩ := hb
    exact ⟨k.toNat, by omega, by omega⟩
  have hperm : (otime.filter p.mask).Perm ((dateRange start stop).filter p.mask) :=
    (nod2.subperm sub).perm_of_length_le (by omega)
  have heq : otime.filter p.mask = (dateRange start stop).filter p.mask :=
    hperm.eq_of_pairwise (fun a b _ _ h h' => absurd (lt_trans h h') (lt_irrefl a)) sort2 sort1
  refine ⟨(dateRange start stop).filter p.mask, sort1, ?_, ?_, ?_, l1⟩
  · intro t
    rw [List.mem_filter, mem_dateRange]
    simp [Period.mask]
  · intro k x hx
    have hk : (s.map some)[k]? = some (some x) := by rw [List.getElem?_map, hx]; rfl
    rw [vs, List.getElem?_map, Option.map_eq_some_iff] at hk
    obtain ⟨t, ht, hv⟩ := hk
    obtain ⟨i, hi, hxi⟩ := valueAt_range hv
    exact ⟨t, i, ht, hi, hxi⟩
  · rw [vo, heq]

theorem onPeriod_ok {metric : List K → List K → R} {start stop : ℤ} {sim : List K} {otime : List ℤ} {obs : List K} {p : Period} {v : R}
    (hob : Dated start otime obs) (h : onPeriod metric (dateRange start stop) sim otime obs p = .ok v) :
    start ≤ p.start ∧ p.stop ≤ stop ∧ ∃ ss os, SameDays start stop sim otime obs p.start p.stop ss os ∧ v = metric ss os := by
  unfold onPeriod at h
  split at h
  · next a b ha hb =>
    have ea := head_range ha
    have eb := last_range hb
    split at h
    · cases h
    · next hin =>
      rw [not_or, not_lt, not_lt] at hin
      split at h
      · next s o hs ho =>
        split at h
        · cases h
        · next hl =>
          cases h
          have hb' := eb
          obtain ⟨_, _, hbs⟩ := hb'
          exact ⟨ea ▸ hin.1, by omega, s, o, same_days p hob eb (ea ▸ hin.1) hin.2 hs ho (not_not.1 hl), rfl⟩
      · cases h
      · cases h
  · cases h

theorem mapM_get {α β ε : Type} (f : α → Except ε β) (l : List α) (r : List β) (h : l.mapM f = .ok r) :
    r.length = l.length ∧ ∀ (i : ℕ) (a : α), l[i]? = some a → ∃ b, r[i]? = some b ∧ f a = .ok b := by
  induction l generalizing r with
  | nil => rw [List.mapM_nil] at h; cases h; exact ⟨rfl, fun i a h => by simp at h⟩
  | cons a l ih =>
    rw [List.mapM_cons] at h
    cases hf : f a with
    | error e => rw [hf] at h; cases h
    | ok b =>
      rw [hf] at h
      cases hl : l.mapM f with
      | error e => rw [hl] at h; cases h
      | ok r' =>
        rw [hl] at h
        cases h
        obtain ⟨h1, h2⟩ := ih r' hl
        refine ⟨by simp [h1], fun i x hx => ?_⟩
        cases i with
        | zero => simp at hx; subst hx; exact ⟨b, rfl, hf⟩
        | succ i => simpa using h2 i x (by simpa using hx)

theorem dated_self (start stop : ℤ) (xs : List K) (h : (dateRange start stop).length = xs.length) :
    Dated start (dateRange start stop) xs := by
  refine ⟨h, dateRange_sorted start stop, fun t ht => ?_⟩
  obtain ⟨k, rfl, _⟩ := (mem_dateRange _ _ _).1 ht
  exact ⟨k, by ring⟩

/-- **C84 (scores)**: when the table of scores is produced, it has one row per defined period, in order, and the score of a
period is the metric of the simulated and the observed values of exactly the days of the run in that period; dated observations are found
by their dates. -/
theorem c84_scores (metric : List K → List K → R) (start stop : ℤ) (sim : List K) (otime : List ℤ) (obs : List K)
    (hob : Dated start otime obs) (ps : Periods) (rows : List (String × R))
    (h : evaluatePeriods metric start stop sim (.dated otime obs) ps = .ok rows) :
    rows.map Prod.fst = ps.defined.map Prod.fst ∧
    ∀ (i : ℕ) (name : String) (p : Period), ps.defined[i]? = some (name, p) → ∃ v, rows[i]? = some (name, v) ∧
      start ≤ p.start ∧ p.stop ≤ stop ∧ ∃ ss os, SameDays start stop sim otime obs p.start p.stop ss os ∧ v = metric ss os := by
  obtain ⟨hlen, hget⟩ := mapM_get _ _ _ h
  have key : ∀ (i : ℕ) (name : String) (p : Period), ps.defined[i]? = some (name, p) → ∃ v, rows[i]? = some (name, v) ∧
      start ≤ p.start ∧ p.stop ≤ stop ∧ ∃ ss os, SameDays start stop sim otime obs p.start p.stop ss os ∧ v = metric ss os := by
    intro i name p hi
    obtain ⟨b, hb, hv⟩ := hget i _ hi
    cases hf : onPeriod metric (dateRange start stop) sim otime obs p with
    | error e => simp only [hf] at hv; cases hv
    | ok v =>
      simp only [hf] at hv
      cases hv
      exact ⟨v, hb, onPeriod_ok hob hf⟩
  refine ⟨?_, key⟩
  apply List.ext_getElem?
  intro i
  rw [List.getElem?_map, List.getElem?_map]
  cases hd : ps.defined[i]? with
  | none =>
    rw [List.getElem?_eq_none_iff] at hd
    rw [List.getElem?_eq_none (by omega)]
    rfl
  | some e =>
    obtain ⟨v, hv, _⟩ := key i e.1 e.2 hd
    rw [hv]; rfl

/-- **C84 (array)**: an array of observations is taken as the values of the days of the run, and must have one value per simulated value. -/
theorem c84_array (metric : List K → List K → R) (start stop : ℤ) (sim obs : List K) (ps : Periods) :
    evaluatePeriods metric start stop sim (.array obs) ps =
      if obs.length = sim.length then evaluatePeriods metric start stop sim (.dated (dateRange start stop) obs) ps else .error .data := by
  unfold evaluatePeriods
  by_cases h : obs.length = sim.length
  · simp [h]
  · simp [h]

end HB.Periods
