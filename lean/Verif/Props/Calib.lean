import Verif.Spec.Calib
import Verif.Props.Periods2
import Mathlib.Tactic.FieldSimp

/-! # C85: the score of a parameter set in a calibration -/

set_option linter.unusedSectionVars false

namespace HB.Calib

open HB.Spec.Calib HB.Periods

section
variable {V : Type}

theorem lastAt_spec {otime : List ℤ} {obs : List V} {t : ℤ} {v : V} (hl : otime.length = obs.length)
    (h : lastAt otime obs t = some v) : LastDated otime obs t v := by
  induction otime generalizing obs with
  | nil => simp [lastAt] at h
  | cons a otime ih =>
    cases obs with
    | nil => simp at hl
    | cons x obs =>
      have hl' : otime.length = obs.length := by simpa using hl
      unfold lastAt at h
      rw [List.zip_cons_cons] at h
      cases hr : lastAt otime obs t with
      | some w =>
        have e : w = v := by
          unfold lastAt at hr
          rw [Option.map_eq_some_iff] at hr
          obtain ⟨p, hp, rfl⟩ := hr
          rw [List.filter_cons] at h
          split at h
          · rw [List.getLast?_cons, hp] at h
            simpa using h
          · rw [hp] at h
            simpa using h
        subst e
        obtain ⟨i, h1, h2, h3⟩ := ih hl' hr
        refine ⟨i + 1, by simpa using h1, by simpa using h2, fun j hj => ?_⟩
        cases j with
        | zero => omega
        | succ j => simpa using h3 j (by omega)
      | none =>
        unfold lastAt at hr
        rw [Option.map_eq_none_iff, List.getLast?_eq_none_iff, List.filter_eq_nil_iff] at hr
        rw [List.filter_cons] at h
        split at h
        · next ha =>
          rw [List.filter_eq_nil_iff.2 hr] at h
          simp only [decide_eq_true_eq] at ha
          simp only [List.getLast?_singleton, Option.map_some, Option.some.injEq] at h
          refine ⟨0, by simp [ha], by simp [h], fun j hj => ?_⟩
          cases j with
          | zero => omega
          | succ j =>
            rw [List.getElem?_cons_succ]
            intro hc
            obtain ⟨hjl, hjt⟩ := List.getElem?_eq_some_iff.1 hc
            have hm : (otime.zip obs)[j]? = some (t, obs[j]'(by omega)) := by
              rw [List.getElem?_zip_eq_some]
              exact ⟨hc, List.getElem?_eq_getElem _⟩
            exact hr _ (List.mem_of_getElem? hm) (by simp)
        · rw [List.filter_eq_nil_iff.2 hr] at h
          simp at h

theorem lastAt_some {otime : List ℤ} {obs : List V} {t : ℤ} (hl : otime.length = obs.length) :
    (lastAt otime obs t).isSome ↔ t ∈ otime := by
  unfold lastAt
  rw [Option.isSome_map, ← Option.ne_none_iff_isSome, ne_eq, List.getLast?_eq_none_iff]
  constructor
  · intro h
    obtain ⟨e, he⟩ := List.exists_mem_of_ne_nil _ h
    rw [List.mem_filter] at he
    have := (List.of_mem_zip (show (e.1, e.2) ∈ otime.zip obs from he.1)).1
    rw [← of_decide_eq_true he.2]; exact this
  · intro h hn
    obtain ⟨j, hj⟩ := List.mem_iff_getElem?.1 h
    obtain ⟨hjl, _⟩ := List.getElem?_eq_some_iff.1 hj
    have hm : (otime.zip obs)[j]? = some (t, obs[j]'(by omega)) := by
      rw [List.getElem?_zip_eq_some]
      exact ⟨hj, List.getElem?_eq_getElem _⟩
    rw [List.filter_eq_nil_iff] at hn
    exact hn _ (List.mem_of_getElem? hm) (by simp)

theorem filterMap_all {α β : Type} (f : α → Option β) (l : List α) (h : ∀ a ∈ l, (f a).isSome) :
    (l.filterMap f).map some = l.map f := by
  induction l with
  | nil => rfl
  | cons a l ih =>
    obtain ⟨b, hb⟩ := Option.isSome_iff_exists.1 (h a (by simp))
    rw [List.filterMap_cons_some (f := f) hb, List.map_cons, List.map_cons, hb, ih (fun x hx => h x (List.mem_cons_of_mem _ hx))]

theorem dateRange_length (start stop : ℤ) : (dateRange start stop).length = ((stop - start) / 86400 + 1).toNat := by
  unfold dateRange day
  rw [List.length_map, List.length_range]

/-- **C85 (alignment)**: dated observations are refused when the warm-up leaves no day or when some day of the period has no
observation; otherwise there is one value per day of the period, the last observation dated that day. -/
theorem c85_aligned (start stop : ℤ) (warmup : ℕ) (otime : List ℤ) (obs : List V) (hl : otime.length = obs.length) :
    ((∃ xs, align start stop warmup otime obs = .ok xs) ↔
      (warmup : ℤ) < (stop - start) / 86400 + 1 ∧ ∀ t, Spec.Periods.Day start stop t → t ∈ otime) ∧
    ∀ xs, align start stop warmup otime obs = .ok xs →
      (xs.length : ℤ) = (stop - start) / 86400 + 1 ∧
      ∀ (i : ℕ) (v : V), xs[i]? = some v → LastDated otime obs (start + 86400 * (i : ℤ)) v := by
  have hlen := dateRange_length start stop
  have hall : ((dateRange start stop).all fun t => (lastAt otime obs t).isSome) = true ↔ ∀ t, Spec.Periods.Day start stop t → t ∈ otime := by
    rw [List.all_eq_true]
    exact ⟨fun h t ht => (lastAt_some hl).1 (h t ((mem_dateRange _ _ _).2 ht)), fun h t ht => (lastAt_some hl).2 (h t ((mem_dateRange _ _ _).1 ht))⟩
  unfold align
  rw [if_neg (not_not.2 hl)]
  simp only
  by_cases hw : (dateRange start stop).length ≤ warmup
  · rw [if_pos hw]
    refine ⟨⟨(fun h => by obtain ⟨_, h⟩ := h; cases h), fun h => by omega⟩, fun xs h => by cases h⟩
  · rw [if_neg hw]
    by_cases ha : ((dateRange start stop).all fun t => (lastAt otime obs t).isSome) = true
    · have hany : ((dateRange start stop).any fun t => (lastAt otime obs t).isSome) = true := by
        rw [List.any_eq_true]
        obtain ⟨t, ht⟩ := List.exists_mem_of_length_pos (show 0 < (dateRange start stop).length by omega)
        exact ⟨t, ht, (List.all_eq_true.1 ha) t ht⟩
      rw [if_pos hany, if_pos ha]
      have hmap := filterMap_all (lastAt otime obs) (dateRange start stop) (List.all_eq_true.1 ha)
      refine ⟨⟨fun _ => ⟨by omega, hall.1 ha⟩, fun _ => ⟨_, rfl⟩⟩, fun xs h => ?_⟩
      cases h
      constructor
      · have := congrArg List.length hmap
        simp only [List.length_map] at this
        omega
      · intro i v hv
        have h2 : ((dateRange start stop).map (lastAt otime obs))[i]? = some (some v) := by
          rw [← hmap, List.getElem?_map, hv]; rfl
        rw [List.getElem?_map, Option.map_eq_some_iff] at h2
        obtain ⟨t, ht, hv'⟩ := h2
        rw [← dateRange_get _ _ _ _ ht]
        exact lastAt_spec hl hv'
    · have hno : ¬ ∀ t, Spec.Periods.Day start stop t → t ∈ otime := fun h => ha (hall.2 h)
      rw [if_neg ha, ite_self]
      · exact ⟨⟨(fun h => by obtain ⟨_, h⟩ := h; cases h), fun h => absurd h.2 hno⟩, fun xs h => by cases h⟩

end

section
variable {K : Type} [Field K] [LinearOrder K] [IsStrictOrderedRing K]

theorem orient_orient (c : Cfg K) (x : K) : c.orient (c.orient x) = x := by
  unfold Cfg.orient; split_ifs <;> simp

/-- **C85 (direction)**: whether the algorithm minimises or maximises, it prefers the higher skill, and the score reported is the skill. -/
theorem c85_direction (c : Cfg K) (x y : K) :
    (Prefers c (c.orient x) (c.orient y) ↔ y < x) ∧ c.reported (.num (c.orient x)) = .num x := by
  constructor
  · unfold Prefers Cfg.orient
    split_ifs
    · exact neg_lt_neg_iff
    · rfl
  · show Val.num (c.orient (c.orient x)) = _
    rw [orient_orient]

theorem orient_sum (c : Cfg K) (l : List K) : (l.map c.orient).sum = c.orient l.sum := by
  induction l with
  | nil => unfold Cfg.orient; simp
  | cons a l ih =>
    rw [List.map_cons, List.sum_cons, List.sum_cons, ih]
    unfold Cfg.orient
    split_ifs
    · ring
    · rfl

theorem orient_div (c : Cfg K) (x n : K) : c.orient x / n = c.orient (x / n) := by
  unfold Cfg.orient
  split_ifs
  · rw [neg_div]
  · rfl

theorem meanVal_num (l : List K) : meanVal (l.map Val.num) = .num (l.sum / (l.length : K)) := by
  unfold meanVal
  rw [if_neg]
  · rw [List.map_map, List.length_map]
    have : (Val.get ∘ Val.num : K → K) = id := rfl
    rw [this, List.map_id]
  · rw [Bool.not_eq_true, List.any_eq_false]
    intro v hv
    rw [List.mem_map] at hv
    obtain ⟨x, _, rfl⟩ := hv
    simp [Val.isBad]

/-- The observations of all the models, aligned. -/
def alignAll {V : Type} (warmup : ℕ) (ms : List (Member V)) : Except Err (List (List V)) :=
  ms.mapM fun m => align m.start m.stop warmup m.otime m.obs

/-- **C85 (score)**: the score handed to the optimiser for a set that was run is, up to the direction of the algorithm, the mean over the
models of the skill of the simulated and observed discharges of the same days, those of the period after the warm-up. -/
theorem c85_score (M : Metrics K) (c : Cfg K) (hx : c.extras = []) (warmup : ℕ) (ms : List (Member (Option K)))
    (hdates : ∀ m ∈ ms, m.otime.length = m.obs.length)
    (hrun : ∀ m ∈ ms, (m.run.length : ℤ) = (m.stop - m.start) / 86400 + 1)
    (obss : List (Ser K)) (h : alignAll warmup ms = .ok obss) :
    ∃ pairs : List (Ser K × Ser K), pairs.length = ms.length ∧
      (∀ (i : ℕ) (m : Member (Option K)), ms[i]? = some m → ∃ p, pairs[i]? = some p ∧ After warmup m p.1 p.2) ∧
      objective M c (simulation true (ms.map fun m => some m.run) warmup none) (evaluation obss warmup none) =
        .one (.num (c.orient (mean (pairs.map fun p => dischargeSkill M c p.1 p.2)))) := by
  obtain ⟨hlen, hget⟩ := mapM_get _ _ _ h
  have hpos : ∀ (i : ℕ) (m : Member (Option K)), ms[i]? = some m → ∃ o, obss[i]? = some o ∧ o.length = m.run.length ∧ warmup < m.run.length ∧
      ∀ (j : ℕ) (v : Option K), o[j]? = some v → LastDated m.otime m.obs (m.start + 86400 * (j : ℤ)) v := by
    intro i m hm
    obtain ⟨o, ho, ha⟩ := hget i m hm
    have hmem := List.mem_of_getElem? hm
    obtain ⟨h1, h2⟩ := c85_aligned m.start m.stop warmup m.otime m.obs (hdates m hmem)
    obtain ⟨h3, h4⟩ := h2 o ha
    have h5 := (h1.1 ⟨o, ha⟩).1
    have h6 := hrun m hmem
    exact ⟨o, ho, by omega, by omega, h4⟩
  have hsims : (ms.map fun m => some m.run).mapM (kept warmup) = some (ms.map fun m => m.run.drop warmup) := by
    have hne : ∀ m ∈ ms, m.run.length ≠ 0 := by
      intro m hm
      obtain ⟨i, hi⟩ := List.mem_iff_getElem?.1 hm
      obtain ⟨_, _, _, h, _⟩ := hpos i m hi
      omega
    clear hpos hget hlen h hrun hdates
    induction ms with
    | nil => rfl
    | cons m ms ih =>
      rw [List.map_cons, List.mapM_cons, ih (fun x hx => hne x (List.mem_cons_of_mem _ hx))]
      have : kept warmup (some m.run) = some (m.run.drop warmup) := by
        exact if_neg (hne m (by simp))
      rw [this]; rfl
  refine ⟨(ms.map fun m => m.run.drop warmup).zip (obss.map fun o => o.drop warmup), by simp [hlen], ?_, ?_⟩
  · intro i m hm
    obtain ⟨o, ho, hl, hw, hv⟩ := hpos i m hm
    refine ⟨(m.run.drop warmup, o.drop warmup), ?_, ?_⟩
    · rw [List.getElem?_zip_eq_some, List.getElem?_map, List.getElem?_map, hm, ho]
      exact ⟨rfl, rfl⟩
    · have h6 := hrun m (List.mem_of_getElem? hm)
      refine ⟨by simp [hl], by simp only [List.length_drop]; omega, fun j => by rw [List.getElem?_drop], fun j v hj => ?_⟩
      rw [List.getElem?_drop] at hj
      have := hv _ _ hj
      push_cast at this
      exact this
  · have hs : simulation true (ms.map fun m => some m.run) warmup none = some (ms.map fun m => m.run.drop warmup) := by
      unfold simulation
      rw [hsims]; rfl
    have he : evaluation obss warmup none = obss.map fun o => o.drop warmup := rfl
    rw [hs, he]
    unfold objective
    simp only
    rw [if_pos (by rw [hx]; rfl)]
    congr 1
    unfold plain
    have hmap : (((ms.map fun m => m.run.drop warmup).zip (obss.map fun o => o.drop warmup)).map fun e : Ser K × Ser K =>
        if e.1.length = 0 then (.bad : Val K) else if e.1.length ≠ e.2.length then .bad else .num (c.orient (dischargeSkill M c e.1 e.2))) =
        ((((ms.map fun m => m.run.drop warmup).zip (obss.map fun o => o.drop warmup)).map fun p => dischargeSkill M c p.1 p.2).map c.orient).map
          Val.num := by
      rw [List.map_map, List.map_map]
      apply List.map_congr_left
      intro e he
      obtain ⟨i, hi⟩ := List.mem_iff_getElem?.1 he
      rw [List.getElem?_zip_eq_some, List.getElem?_map, List.getElem?_map] at hi
      obtain ⟨h1, h2⟩ := hi
      rw [Option.map_eq_some_iff] at h1 h2
      obtain ⟨m, hm, h1⟩ := h1
      obtain ⟨o, ho, h2⟩ := h2
      obtain ⟨o', ho', hl, hw, _⟩ := hpos i m hm
      rw [ho] at ho'
      cases ho'
      have e1 : e.1.length = m.run.length - warmup := by rw [← h1, List.length_drop]
      have e2 : e.2.length = m.run.length - warmup := by rw [← h2, List.length_drop, hl]
      rw [if_neg (by omega), if_neg (by omega)]
      rfl
    rw [hmap, meanVal_num, orient_sum, List.length_map, orient_div]
    unfold mean
    rfl

end
end HB.Calib
