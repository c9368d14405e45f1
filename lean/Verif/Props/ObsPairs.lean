import Verif.Model.MassBalance
import Verif.Model.SnowObs
import Verif.Model.RefMetric

/-! # C86, C87, C88: what is compared with what (added after edits of the model that no theorem noticed) -/

set_option linter.unusedSectionVars false

namespace HB.MassBalance

variable {K : Type} [Field K] [LinearOrder K]

/-- **C86 (pairs)**: the i-th observed value and the i-th simulated one belong to the i-th target, with its own dates and band. -/
theorem c86_pairs (start : ℤ) (n : ℕ) (us : List (Unit' K)) (ts : List (Target K)) (i : ℕ) :
    (observed ts)[i]? = (ts[i]?).map (fun t => t.value) ∧ (simulated start n us ts)[i]? = (ts[i]?).map (simulatedOne start n us) ∧
      (observed ts).length = ts.length ∧ (simulated start n us ts).length = ts.length := by
  unfold observed simulated
  exact ⟨by rw [List.getElem?_map], by rw [List.getElem?_map], List.length_map .., List.length_map ..⟩

/-- **C86 (rows)**: the targets are the complete rows, with start, end, value and band as given; complete rows are kept in order. -/
theorem c86_rows (rows : List (Option ℤ × Option ℤ × Option K × Option (K × K))) (t : Target K) :
    (t ∈ addTargets rows ↔ (some t.t0, some t.t1, some t.value, t.band) ∈ rows) ∧
      ∀ ts : List (Target K), addTargets (ts.map fun t => (some t.t0, some t.t1, some t.value, t.band)) = ts := by
  constructor
  · unfold addTargets
    rw [List.mem_filterMap]
    constructor
    · rintro ⟨⟨a, b, v, band⟩, hr, h⟩
      cases a with
      | none => simp at h
      | some a =>
        cases b with
        | none => simp at h
        | some b =>
          cases v with
          | none => simp at h
          | some v => simp at h; subst h; exact hr
    · intro h; exact ⟨_, h, rfl⟩
  · intro ts
    unfold addTargets
    induction ts with
    | nil => rfl
    | cons t ts ih => simp only [List.map_cons, List.filterMap_cons, Option.bind_some, Option.map_some, ih]

end HB.MassBalance

namespace HB.SnowObs

variable {K : Type} [Field K] [LinearOrder K]

/-- **C87 (pairs)**: the i-th observed value and the i-th simulated one belong to the i-th target. -/
theorem c87_pairs (full : K) (wanted : Option (List String)) (r : Recorded K) (ts : List (Target K)) (vs : List (Option K)) (h : simulated full wanted r ts = .ok vs) :
    (∀ i : ℕ, (observed ts)[i]? = (ts[i]?).map (fun t => t.value)) ∧ vs.length = ts.length ∧
      ∃ l, (ts = [] ∨ contributions r (usedCovers wanted r) = .ok l) ∧ ∀ i : ℕ, vs[i]? = (ts[i]?).map (simulatedOne full r l) := by
  refine ⟨fun i => by unfold observed; rw [List.getElem?_map], ?_⟩
  unfold simulated at h
  split at h
  · rename_i he
    rw [List.isEmpty_iff] at he
    injection h with h
    subst h; subst he
    exact ⟨rfl, [], Or.inl rfl, fun i => by simp⟩
  · cases hc : contributions r (usedCovers wanted r) with
    | error e => rw [hc] at h; cases h
    | ok l =>
      rw [hc] at h
      simp only [Except.bind] at h
      split at h
      · cases h
      · injection h with h
        subst h
        exact ⟨List.length_map .., l, Or.inr rfl, fun i => by rw [List.getElem?_map]⟩

/-- **C87 (chosen covers)**: with chosen covers the simulated values are those of a model that has only these covers; with none chosen, or an empty list, those of all covers. -/
theorem c87_chosen_covers (full : K) (r : Recorded K) (ts : List (Target K)) :
    (∀ c cs, simulated full (some (c :: cs)) r ts = simulated full none { r with covers := c :: cs } ts) ∧ simulated full (some []) r ts = simulated full none r ts := by
  have hc : ∀ (l cs : List String), contributions { r with covers := l } cs = contributions r cs := by
    intro l cs
    induction cs with
    | nil => rfl
    | cons c cs ih =>
      simp only [contributions, ih]
  refine ⟨fun c cs => ?_, rfl⟩
  unfold simulated usedCovers
  simp only [hc]
  rfl

end HB.SnowObs

namespace HB.RefMetric

variable {K : Type}

/-- **C88 (lengths)**: series of different lengths are refused, whichever is longer; others are compared. -/
theorem c88_lengths (metric : List (Option K) → List (Option K) → K) (sim obs : List (Option K)) :
    (evaluate metric sim obs = .error .lengths ↔ sim.length ≠ obs.length) ∧ (sim.length = obs.length → evaluate metric sim obs = .ok (metric sim obs)) := by
  unfold evaluate
  by_cases h : sim.length = obs.length <;> simp [h]

theorem prepared_same (rows : List (ℤ × Option K)) (z : ℤ) (hz : monthDay z ≠ (2, 29)) :
    (prepared rows).filterMap (fun r => if monthDay r.1 = monthDay z then r.2 else none) = rows.filterMap fun r => if monthDay r.1 = monthDay z then r.2 else none := by
  unfold prepared
  induction rows with
  | nil => rfl
  | cons r rows ih =>
    rw [List.filter_cons]
    by_cases hr : monthDay r.1 = (2, 29)
    · have hne : monthDay r.1 ≠ monthDay z := by rw [hr]; exact fun h => hz h.symm
      rw [if_neg (by simp [hr]), ih, List.filterMap_cons, if_neg hne]
    · rw [if_pos (by simp [hr]), List.filterMap_cons, List.filterMap_cons, ih]

/-- **C88 (mean discharge)**: the days of the period, without 29 February, are compared with the mean over the whole record of the values of the same day of the year. -/
theorem c88_mean_of_days [Field K] (metric : List (Option K) → List (Option K) → K) (rows : List (ℤ × Option K)) (start stop : Option ℤ) (fuel : ℕ) :
    let days := rows.filter fun r => decide (monthDay r.1 ≠ (2, 29) ∧ (∀ s, start = some s → s ≤ r.1) ∧ (∀ e, stop = some e → r.1 ≤ e))
    let same := fun z => rows.filterMap fun r => if monthDay r.1 = monthDay z then r.2 else none
    reference metric rows start stop fuel .meanDischarge =
      some (.ok (metric (days.map fun r => if same r.1 = [] then none else some ((same r.1).sum / ((same r.1).length : K))) (days.map fun r => r.2))) := by
  intro days same
  have hw : within start stop (prepared rows) = days := by
    unfold within prepared
    rw [List.filter_filter]
    refine List.filter_congr (fun r _ => ?_)
    rw [Bool.eq_iff_iff]
    cases start <;> cases stop <;> simp <;> tauto
  have hs : ∀ z, monthDay z ≠ (2, 29) → dayMean (prepared rows) z = if same z = [] then none else some ((same z).sum / ((same z).length : K)) := by
    intro z hz
    have e : (prepared rows).filterMap (fun r => if monthDay r.1 = monthDay z then r.2 else none) = same z := prepared_same rows z hz
    unfold dayMean mean
    simp only [e]
    cases hsame : same z <;> simp
  show some (meanDischarge metric (prepared rows) start stop) = _
  unfold meanDischarge
  simp only [hw]
  have hmap : (days.map fun r => dayMean (prepared rows) r.1) = days.map fun r => if same r.1 = [] then none else some ((same r.1).sum / ((same r.1).length : K)) := by
    refine List.map_congr_left (fun r hr => hs r.1 ?_)
    have := List.of_mem_filter hr
    rw [decide_eq_true_eq] at this
    exact this.1
  rw [hmap, (c88_lengths metric _ _).2 (by rw [List.length_map, List.length_map])]

end HB.RefMetric
