import Verif.Props.RefMetric
import Verif.Props.Periods2
import Mathlib.Data.Rat.Defs
import Mathlib.Algebra.Order.Field.Rat
import Mathlib.Algebra.Order.Ring.Rat

/-! # C88: samples, means, random draws; examples -/

set_option linter.unusedSectionVars false

namespace HB.RefMetric

open HB.Spec.RefMetric

variable {K : Type}

theorem mem_combinations (ys : List ℤ) : ∀ (n : ℕ) (s : List ℤ), s ∈ combinations ys n ↔ s.length = n ∧ ∀ y ∈ s, y ∈ ys := by
  intro n
  induction n with
  | zero =>
    intro s
    unfold combinations
    rw [List.mem_singleton]
    constructor
    · rintro rfl; exact ⟨rfl, by simp⟩
    · rintro ⟨h, _⟩; exact List.length_eq_zero_iff.1 h
  | succ n ih =>
    intro s
    unfold combinations
    rw [List.mem_flatMap]
    constructor
    · rintro ⟨y, hy, h⟩
      obtain ⟨r, hr, rfl⟩ := List.mem_map.1 h
      obtain ⟨h1, h2⟩ := (ih r).1 hr
      refine ⟨by rw [List.length_cons, h1], ?_⟩
      intro x hx
      rcases List.mem_cons.1 hx with rfl | hx
      · exact hy
      · exact h2 x hx
    · rintro ⟨h1, h2⟩
      cases s with
      | nil => simp at h1
      | cons y r =>
        exact ⟨y, h2 y (List.mem_cons_self ..), List.mem_map.2 ⟨r, (ih r).2 ⟨by simpa using h1, fun x hx => h2 x (List.mem_cons_of_mem _ hx)⟩, rfl⟩⟩

theorem combinations_nodup (ys : List ℤ) (h : ys.Nodup) : ∀ n, (combinations ys n).Nodup := by
  intro n
  induction n with
  | zero => unfold combinations; simp
  | succ n ih =>
    unfold combinations
    rw [List.nodup_flatMap]
    constructor
    · intro y _
      exact ih.map fun a b e => by cases e; rfl
    · apply h.imp
      intro a b hab x hx hx'
      obtain ⟨r, _, rfl⟩ := List.mem_map.1 hx
      obtain ⟨r', _, e⟩ := List.mem_map.1 hx'
      cases e
      exact hab rfl

theorem combinations_length (ys : List ℤ) : ∀ n, (combinations ys n).length = ys.length ^ n := by
  intro n
  induction n with
  | zero => rfl
  | succ n ih =>
    unfold combinations
    rw [List.length_flatMap]
    simp only [List.length_map, ih, List.map_const', List.sum_replicate]
    rw [pow_succ, Nat.mul_comm]
    rfl

theorem excluded_iff (s c : List ℤ) : excluded s c = true ↔ ∃ (i : ℕ) (y : ℤ), s[i]? = some y ∧ c[i]? = some y := by
  unfold excluded
  rw [List.any_eq_true]
  constructor
  · rintro ⟨⟨x, y⟩, h, e⟩
    simp only [decide_eq_true_eq] at e
    subst e
    obtain ⟨i, hi⟩ := List.mem_iff_getElem?.1 h
    rw [List.getElem?_zip_eq_some] at hi
    exact ⟨i, x, hi⟩
  · rintro ⟨i, y, h1, h2⟩
    exact ⟨(y, y), List.mem_of_getElem? (i := i) (List.getElem?_zip_eq_some.2 ⟨h1, h2⟩), by simp⟩

/-- **C88 (samples)**: all samples are used, each one once: a sample draws one of the years for each year compared, with exclusion never that year
itself. Without exclusion there are as many as combinations. -/
theorem c88_samples (ys c : List ℤ) (hn : ys.Nodup) (exclusion : Bool) :
    (∀ s, s ∈ samples ys c exclusion ↔ (s.length = c.length ∧ ∀ y ∈ s, y ∈ ys) ∧
      (exclusion = true → ∀ (i : ℕ) (y y' : ℤ), s[i]? = some y → c[i]? = some y' → y ≠ y')) ∧
    (samples ys c exclusion).Nodup ∧ (samples ys c false).length = ys.length ^ c.length := by
  refine ⟨?_, ?_, ?_⟩
  · intro s
    unfold samples
    rw [List.mem_filter, mem_combinations]
    apply and_congr_right
    intro _
    cases exclusion with
    | false => simp
    | true =>
      simp only [Bool.true_and, Bool.not_eq_true', true_imp_iff]
      rw [← Bool.not_eq_true, excluded_iff]
      constructor
      · intro h i y y' h1 h2 e
        subst e
        exact h ⟨i, y, h1, h2⟩
      · rintro h ⟨i, y, h1, h2⟩
        exact h i y y h1 h2 rfl
  · exact (combinations_nodup ys hn _).filter _
  · unfold samples
    simp [combinations_length]

/-- **C88 (there is a sample)**: with two years of observations there always is a sample that excludes the compared years. -/
theorem c88_nonempty (ys c : List ℤ) (hn : ys.Nodup) (h2 : 2 ≤ ys.length) (exclusion : Bool) : samples ys c exclusion ≠ [] := by
  have pick : ∀ y : ℤ, ∃ x ∈ ys, x ≠ y := by
    intro y
    match ys, hn, h2 with
    | a :: b :: r, hn, _ =>
      have hab : a ≠ b := by
        intro e
        subst e
        simp at hn
      by_cases h : a = y
      · exact ⟨b, by simp, fun e => hab (h.trans e.symm)⟩
      · exact ⟨a, by simp, h⟩
  have : ∃ s : List ℤ, (s.length = c.length ∧ ∀ y ∈ s, y ∈ ys) ∧ ∀ (i : ℕ) (y y' : ℤ), s[i]? = some y → c[i]? = some y' → y ≠ y' := by
    refine ⟨c.map fun y => (pick y).choose, ⟨List.length_map _, ?_⟩, ?_⟩
    · intro x hx
      obtain ⟨y, _, rfl⟩ := List.mem_map.1 hx
      exact (pick y).choose_spec.1
    · intro i x y' h1 h2'
      rw [List.getElem?_map, h2'] at h1
      cases h1
      exact (pick y').choose_spec.2
  obtain ⟨s, h1, h3⟩ := this
  intro h0
  have := ((c88_samples ys c hn exclusion).1 s).2 ⟨h1, fun _ => h3⟩
  rw [h0] at this
  simp at this

section
variable [Field K]

/-- **C88 (mean over the samples)**: for observations of at least two whole years and a period of whole years inside, the reference over all
combinations is the mean over the samples of the metric of the sampled series against the observed one. -/
theorem c88_all (metric : List (Option K) → List (Option K) → K) (a b a' b' : ℤ) (ha : a ≤ a') (hb : b' ≤ b) (hab : a' ≤ b') (h2 : a < b)
    (q : ℤ → Option K) (exclusion : Bool) (fuel : ℕ) :
    reference metric (wholeYears a b q) (some (sysDays a' 1 1)) (some (sysDays b' 12 31)) fuel (.all exclusion) =
      some (.ok (((samples (yearList a b) (yearList a' b') exclusion).map fun s =>
        metric ((loc (prepared (wholeYears a b q)) s).map Prod.snd)
          ((within (some (sysDays a' 1 1)) (some (sysDays b' 12 31)) (prepared (wholeYears a b q))).map Prod.snd)).sum /
        ((samples (yearList a b) (yearList a' b') exclusion).length : K))) := by
  have hlen : ¬ (years (prepared (wholeYears a b q))).length < 2 := by
    rw [years_whole]; unfold yearList; rw [List.length_map, List.length_range]; omega
  unfold reference
  simp only
  rw [if_neg hlen]
  congr 1
  unfold allMetrics
  rw [years_whole, comparison_whole a b a' b' ha hb hab, within_blocks a b a' b' ha hb]
  simp only
  have key : ∀ (l : List (List ℤ)), (∀ s ∈ l, s ∈ samples (yearList a b) (yearList a' b') exclusion) →
      l.mapM (sampleMetric metric (prepared (wholeYears a b q)) ((yearList a' b').flatMap (block q))) =
        .ok (l.map fun s => metric ((loc (prepared (wholeYears a b q)) s).map Prod.snd) (((yearList a' b').flatMap (block q)).map Prod.snd)) := by
    intro l
    induction l with
    | nil => intro _; rfl
    | cons s l ih =>
      intro hl
      have hs := ((c88_samples (yearList a b) (yearList a' b') ((yearList_sorted a b).imp fun h => ne_of_lt h) exclusion).1 s).1 (hl s (List.mem_cons_self ..))
      have e : sampleMetric metric (prepared (wholeYears a b q)) ((yearList a' b').flatMap (block q)) s =
          .ok (metric ((loc (prepared (wholeYears a b q)) s).map Prod.snd) (((yearList a' b').flatMap (block q)).map Prod.snd)) := by
        unfold sampleMetric evaluate
        rw [if_pos]
        rw [List.length_map, List.length_map, loc_blocks a b q s fun y hy => (mem_yearList a b y).1 (hs.1.2 y hy), blocks_length, blocks_length, hs.1.1]
      rw [List.mapM_cons, e, ih fun x hx => hl x (List.mem_cons_of_mem _ hx)]
      rfl
  rw [key _ fun s hs => hs]
  show Except.ok (mean _) = _
  unfold mean
  rw [List.length_map]

/-- **C88 (too few years)**: with the days of one year only there is no reference. -/
theorem c88_one_year (metric : List (Option K) → List (Option K) → K) (rows : List (ℤ × Option K)) (start stop : Option ℤ) (fuel : ℕ)
    (h : ∃ y, ∀ r ∈ rows, yearOf r.1 = y) (exclusion : Bool) :
    reference metric rows start stop fuel (.all exclusion) = some (.error .tooFewYears) := by
  unfold reference
  simp only
  rw [if_pos]
  obtain ⟨y, hy⟩ := h
  have h1 : ∀ x ∈ years (prepared rows), x = y := by
    intro x hx
    obtain ⟨r, hr, rfl⟩ := (mem_years _ _).1 hx
    unfold prepared at hr
    exact hy r (List.mem_filter.1 hr).1
  have hn := years_nodup (prepared rows)
  match hl : years (prepared rows) with
  | [] => simp
  | [_] => simp
  | u :: v :: w =>
    exfalso
    rw [hl] at hn h1
    have e1 := h1 u (by simp)
    have e2 := h1 v (by simp)
    rw [e1, e2] at hn
    simp at hn

/-- The draws that are kept. -/
def admitted (exclusion : Bool) (comparing : List ℤ) (s : List ℤ) : Bool := !(exclusion && excluded s comparing)

/-- **C88 (random sampling)**: when it ends without error, the values are the metrics of the first `n` admitted draws: those among the first draws,
in their order, of which there are `n`. -/
theorem c88_random (metric : List (Option K) → List (Option K) → K) (df cmp : List (ℤ × Option K)) (comparing : List ℤ) (exclusion : Bool) :
    ∀ (n fuel : ℕ) (draw : ℕ → List ℤ) (l : List K), randomMetrics metric df cmp comparing exclusion draw n fuel = some (.ok l) →
    l.length = n ∧ ∃ used ≤ fuel,
      l = (((List.range used).map draw).filter (admitted exclusion comparing)).map fun s => metric ((loc df s).map Prod.snd) (cmp.map Prod.snd) := by
  intro n fuel
  induction fuel generalizing n with
  | zero =>
    intro draw l h
    cases n with
    | zero => unfold randomMetrics at h; cases h; exact ⟨rfl, 0, _root_.le_refl _, rfl⟩
    | succ n => unfold randomMetrics at h; cases h
  | succ fuel ih =>
    intro draw l h
    cases n with
    | zero => unfold randomMetrics at h; cases h; exact ⟨rfl, 0, Nat.zero_le _, rfl⟩
    | succ n =>
      unfold randomMetrics at h
      have hr : ∀ used, (List.range (used + 1)).map draw = draw 0 :: (List.range used).map fun i => draw (i + 1) := by
        intro used
        rw [List.range_succ_eq_map, List.map_cons, List.map_map]
        rfl
      split at h
      · rename_i hx
        obtain ⟨h1, used, hu, h2⟩ := ih (n + 1) (fun i => draw (i + 1)) l h
        refine ⟨h1, used + 1, by omega, ?_⟩
        rw [hr, List.filter_cons_of_neg (by unfold admitted; simp only [hx, Bool.not_true]; decide)]
        exact h2
      · rename_i hx
        cases hm : sampleMetric metric df cmp (draw 0) with
        | error e => rw [hm] at h; cases h
        | ok v =>
          rw [hm] at h
          simp only at h
          cases hrest : randomMetrics metric df cmp comparing exclusion (fun i => draw (i + 1)) n fuel with
          | none => rw [hrest] at h; cases h
          | some r =>
            rw [hrest] at h
            cases r with
            | error e => cases h
            | ok l' =>
              change some (Except.ok (v :: l')) = _ at h
              cases h
              obtain ⟨h1, used, hu, h2⟩ := ih n (fun i => draw (i + 1)) l' hrest
              have hv : v = metric ((loc df (draw 0)).map Prod.snd) (cmp.map Prod.snd) := by
                unfold sampleMetric evaluate at hm
                split at hm
                · cases hm; rfl
                · cases hm
              refine ⟨by rw [List.length_cons, h1], used + 1, by omega, ?_⟩
              rw [hr, List.filter_cons_of_pos (by unfold admitted; simp only [Bool.not_eq_true] at hx; simp [hx]), List.map_cons, ← hv]
              congr 1

/-- **C88 (random sampling ends)**: if among the draws `n` are admitted, of series of the right length, the sampling ends with `n` values. -/
theorem c88_ends (metric : List (Option K) → List (Option K) → K) (df cmp : List (ℤ × Option K)) (comparing : List ℤ) (exclusion : Bool) :
    ∀ (fuel n : ℕ) (draw : ℕ → List ℤ), (∀ i, (loc df (draw i)).length = cmp.length) →
    n ≤ (((List.range fuel).map draw).filter (admitted exclusion comparing)).length →
    ∃ l, randomMetrics metric df cmp comparing exclusion draw n fuel = some (.ok l) := by
  intro fuel
  induction fuel with
  | zero =>
    intro n draw _ h
    have : n = 0 := by simpa using h
    subst this
    exact ⟨[], by unfold randomMetrics; rfl⟩
  | succ fuel ih =>
    intro n draw hd h
    cases n with
    | zero => exact ⟨[], by unfold randomMetrics; rfl⟩
    | succ n =>
      rw [List.range_succ_eq_map, List.map_cons, List.map_map] at h
      unfold randomMetrics
      by_cases hx : (exclusion && excluded (draw 0) comparing) = true
      · rw [if_pos hx]
        apply ih (n + 1) (fun i => draw (i + 1)) (fun i => hd (i + 1))
        rw [List.filter_cons_of_neg (by unfold admitted; simp only [hx, Bool.not_true]; decide)] at h
        exact h
      · rw [if_neg hx]
        rw [List.filter_cons_of_pos (by unfold admitted; simp only [Bool.not_eq_true] at hx; simp [hx]), List.length_cons] at h
        obtain ⟨l, hl⟩ := ih n (fun i => draw (i + 1)) (fun i => hd (i + 1)) (Nat.le_of_succ_le_succ h)
        have e : sampleMetric metric df cmp (draw 0) = .ok (metric ((loc df (draw 0)).map Prod.snd) (cmp.map Prod.snd)) := by
          unfold sampleMetric evaluate
          rw [if_pos (by rw [List.length_map, List.length_map, hd 0])]
        rw [e]
        simp only
        rw [hl]
        exact ⟨_, rfl⟩

theorem filterMap_flatMap {α β γ : Type} (f : β → Option γ) (g : α → List β) (h : α → Option γ) (l : List α)
    (hl : ∀ x ∈ l, (g x).filterMap f = (h x).toList) : (l.flatMap g).filterMap f = l.filterMap h := by
  induction l with
  | nil => rfl
  | cons x l ih =>
    rw [List.flatMap_cons, List.filterMap_append, hl x (List.mem_cons_self ..), ih fun y hy => hl y (List.mem_cons_of_mem _ hy), List.filterMap_cons]
    cases h x <;> rfl

/-- **C88 (mean discharge)**: with `mean_discharge`, the observed series of whole years is compared on every day of the period with the mean over the
years of the values of the same month and day that are not missing. -/
theorem c88_mean_discharge (a b y m d : ℤ) (q : ℤ → Option K) (hc : CommonDay m d) :
    dayMean (prepared (wholeYears a b q)) (sysDays y m d) =
      let l := (yearList a b).filterMap fun y' => q (sysDays y' m d)
      if l = [] then none else some (l.sum / (l.length : K)) := by
  unfold dayMean
  simp only
  have e : ((prepared (wholeYears a b q)).filterMap fun r => if monthDay r.1 = monthDay (sysDays y m d) then r.2 else none) =
      (yearList a b).filterMap fun y' => q (sysDays y' m d) := by
    rw [prepared_blocks]
    apply filterMap_flatMap
    intro y' _
    have hmd : monthDay (sysDays y m d) = (m, d) := by unfold monthDay; rw [c42_date_round_trip y m d (common_date hc y)]
    rw [hmd]
    unfold block
    rw [List.filterMap_map]
    have hmem := (mem_template m d).2 hc
    have hcomm : ∀ p ∈ template, monthDay (sysDays y' p.1 p.2) = p := by
      intro p hp
      unfold monthDay
      rw [c42_date_round_trip y' p.1 p.2 (common_date ((mem_template p.1 p.2).1 hp) y')]
    have hnd : template.Nodup := template_sorted.imp fun {p q} h e => by subst e; omega
    have gen : ∀ (t : List (ℤ × ℤ)), t.Nodup → (∀ p ∈ t, monthDay (sysDays y' p.1 p.2) = p) →
        t.filterMap ((fun r : ℤ × Option K => if monthDay r.1 = (m, d) then r.2 else none) ∘ fun p => (sysDays y' p.1 p.2, q (sysDays y' p.1 p.2))) =
          if (m, d) ∈ t then (q (sysDays y' m d)).toList else [] := by
      intro t
      induction t with
      | nil => intro _ _; rfl
      | cons p t ih =>
        intro hn ht
        rw [List.filterMap_cons, ih (List.nodup_cons.1 hn).2 fun x hx => ht x (List.mem_cons_of_mem _ hx)]
        simp only [Function.comp, ht p (List.mem_cons_self ..)]
        by_cases hp : p = (m, d)
        · subst hp
          have : (m, d) ∉ t := (List.nodup_cons.1 hn).1
          rw [if_pos rfl, if_neg this, if_pos (List.mem_cons_self ..)]
          cases q (sysDays y' m d) <;> rfl
        · rw [if_neg hp]
          have : ((m, d) ∈ p :: t) ↔ (m, d) ∈ t := by
            rw [List.mem_cons]
            exact or_iff_right fun e => hp e.symm
          simp only [this]
    rw [gen template hnd hcomm, if_pos hmem]
  rw [e]
  unfold mean
  simp only [List.isEmpty_iff]

end

namespace Demo

/-- The sum of the absolute differences. -/
def dist (x y : List (Option ℚ)) : ℚ := ((x.zip y).map fun p => |p.1.getD 0 - p.2.getD 0|).sum

/-- Two years of which only a few days are known. -/
def d (y m k : ℤ) : ℤ := sysDays y m k

def rows : List (ℤ × Option ℚ) := [(d 2000 1 1, some 1), (d 2000 2 29, some 50), (d 2000 3 1, some 2), (d 2001 1 1, some 4), (d 2001 3 1, some 8)]

/-- The example: four samples; the one of the observed years has distance 0, the one with the years swapped 18, the others 9. -/
theorem c88_demo : ((reference dist rows none none 0 (.all false)).bind Except.toOption) = some 9 ∧
    ((reference dist rows none none 0 (.all true)).bind Except.toOption) = some 18 ∧
    ((reference dist rows none none 9 (.random true 2 fun i => if i % 2 = 0 then [2000, 2001] else [2001, 2000])).bind Except.toOption) = some 18 := by
  refine ⟨?_, ?_, ?_⟩ <;> decide +kernel

/-- **C88 (one date is not enough)**: a period with a first day only is ignored. -/
theorem c88_start_only : ((reference dist rows (some (d 2001 1 1)) none 0 (.all false)).bind Except.toOption) = some 9 ∧
    (reference dist rows (some (d 2001 1 1)) (some (d 2001 12 31)) 0 (.all false)).bind Except.toOption = some (9 / 2) := by
  constructor <;> decide +kernel

/-- **C88 (part of a year)**: a period that is not made of whole years compares series of different lengths, an error. -/
theorem c88_part_of_year : (reference dist rows (some (d 2000 2 1)) (some (d 2001 1 31)) 0 (.all false)).bind Except.toOption = none ∧
    (reference dist rows (some (d 2000 2 1)) (some (d 2001 1 31)) 0 (.all false)).isSome := by
  constructor <;> decide +kernel

/-- **C88 (gaps)**: with a day missing in each year, other days are compared with each other without an error: here 1 March with 2 March. -/
theorem c88_gaps : (loc (prepared [(d 2000 1 1, some (1 : ℚ)), (d 2000 3 1, some 2), (d 2001 1 1, some 4), (d 2001 3 2, some 8)]) [2001, 2000]).map Prod.fst =
    [d 2001 1 1, d 2001 3 2, d 2000 1 1, d 2000 3 1] ∧
    ((reference dist [(d 2000 1 1, some 1), (d 2000 3 1, some 2), (d 2001 1 1, some 4), (d 2001 3 2, some 8)] none none 0 (.all true)).bind Except.toOption) =
      some 18 := by
  constructor <;> decide +kernel

/-- **C88 (never ends)**: when all draws are excluded, the sampling does not end, whatever the number of draws. -/
theorem c88_stuck (fuel : ℕ) : randomMetrics dist rows rows [2000, 2001] true (fun _ => [2000, 2001]) 1 fuel = none := by
  induction fuel with
  | zero => rfl
  | succ n ih =>
    unfold randomMetrics
    rw [if_pos (by decide)]
    exact ih

end Demo
end HB.RefMetric
