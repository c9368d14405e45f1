import Verif.Spec.RefMetric
import Mathlib.Algebra.Order.BigOperators.Group.List

/-! # C88: sampled years and compared years are aligned -/

set_option linter.unusedSectionVars false

namespace HB.RefMetric

open HB.Spec.RefMetric

variable {K : Type}

theorem sorted_unique {α : Type} (f : α → ℤ) : ∀ (l r : List α), l.Pairwise (fun a b => f a < f b) → r.Pairwise (fun a b => f a < f b) →
    (∀ a, a ∈ l ↔ a ∈ r) → l = r := by
  intro l
  induction l with
  | nil =>
    intro r _ _ h
    cases r with
    | nil => rfl
    | cons b r => exact absurd ((h b).2 (List.mem_cons_self ..)) (by simp)
  | cons a l ih =>
    intro r hl hr h
    cases r with
    | nil => exact absurd ((h a).1 (List.mem_cons_self ..)) (by simp)
    | cons b r =>
      rw [List.pairwise_cons] at hl hr
      have hab : a = b := by
        rcases List.mem_cons.1 ((h a).1 (List.mem_cons_self ..)) with h1 | h1
        · exact h1
        · rcases List.mem_cons.1 ((h b).2 (List.mem_cons_self ..)) with h2 | h2
          · exact h2.symm
          · exact absurd (hl.1 b h2) (not_lt.2 (hr.1 a h1).le)
      subst hab
      congr 1
      apply ih r hl.2 hr.2
      intro x
      constructor
      · intro hx
        rcases List.mem_cons.1 ((h x).1 (List.mem_cons_of_mem _ hx)) with h1 | h1
        · subst h1; exact absurd (hl.1 x hx) (_root_.lt_irrefl _)
        · exact h1
      · intro hx
        rcases List.mem_cons.1 ((h x).2 (List.mem_cons_of_mem _ hx)) with h1 | h1
        · subst h1; exact absurd (hr.1 x hx) (_root_.lt_irrefl _)
        · exact h1

/-- The days of a common year, by month and day. -/
def template : List (ℤ × ℤ) :=
  ((List.range 12).flatMap fun (i : ℕ) => (List.range 31).map fun (j : ℕ) => ((i : ℤ) + 1, (j : ℤ) + 1)).filter fun p => decide (p.2 ≤ lastDay 2001 p.1)

theorem mem_template (m d : ℤ) : (m, d) ∈ template ↔ CommonDay m d := by
  unfold template
  rw [List.mem_filter, List.mem_flatMap]
  simp only [List.mem_map, List.mem_range, decide_eq_true_eq]
  rw [lastDay_eq]
  constructor
  · rintro ⟨⟨i, hi, j, hj, he⟩, h⟩
    cases he
    exact ⟨by omega, by omega, by omega, h⟩
  · rintro ⟨h1, h2, h3, h4⟩
    have : Spec.monthLength 2001 m ≤ 31 := by unfold Spec.monthLength; split_ifs <;> omega
    exact ⟨⟨(m - 1).toNat, by omega, (d - 1).toNat, by omega, by rw [Int.toNat_of_nonneg (by omega), Int.toNat_of_nonneg (by omega)]; simp⟩, h4⟩

theorem template_sorted : template.Pairwise fun p q => p.1 < q.1 ∨ p.1 = q.1 ∧ p.2 < q.2 := by
  unfold template
  apply List.Pairwise.sublist List.filter_sublist
  rw [List.pairwise_flatMap]
  constructor
  · intro i _
    rw [List.pairwise_map]
    apply List.pairwise_lt_range.imp
    intro a b h
    right
    exact ⟨rfl, by simpa using h⟩
  · apply List.pairwise_lt_range.imp
    intro a b h x hx y hy
    obtain ⟨_, _, rfl⟩ := List.mem_map.1 hx
    obtain ⟨_, _, rfl⟩ := List.mem_map.1 hy
    left
    simpa using h

theorem template_length : template.length = 365 := by decide +kernel

theorem common_date {m d : ℤ} (h : CommonDay m d) (y : ℤ) : Spec.Date y m d := by
  obtain ⟨h1, h2, h3, h4⟩ := h
  refine ⟨h1, h2, h3, le_trans h4 ?_⟩
  have : ¬ Spec.Leap 2001 := by unfold Spec.Leap; omega
  unfold Spec.monthLength
  split_ifs <;> omega

theorem common_iff {y m d : ℤ} (h : Spec.Date y m d) : CommonDay m d ↔ (m, d) ≠ (2, 29) := by
  have hl : ¬ Spec.Leap 2001 := by unfold Spec.Leap; omega
  obtain ⟨h1, h2, h3, h4⟩ := h
  constructor
  · rintro ⟨_, _, _, h5⟩ e
    cases e
    unfold Spec.monthLength at h5
    rw [if_pos rfl, if_neg hl] at h5
    omega
  · intro e
    refine ⟨h1, h2, h3, ?_⟩
    unfold Spec.monthLength at h4 ⊢
    split_ifs at h4 ⊢ <;> first | omega | skip
    · rename_i hm _
      subst hm
      have : d ≠ 29 := fun e' => e (by rw [e'])
      omega

/-- The rows of one year. -/
def block (q : ℤ → Option K) (y : ℤ) : List (ℤ × Option K) := template.map fun p => (sysDays y p.1 p.2, q (sysDays y p.1 p.2))

theorem mem_block (q : ℤ → Option K) (y : ℤ) (r : ℤ × Option K) : r ∈ block q y ↔ ∃ m d, CommonDay m d ∧ r = (sysDays y m d, q (sysDays y m d)) := by
  unfold block
  rw [List.mem_map]
  constructor
  · rintro ⟨⟨m, d⟩, h, rfl⟩; exact ⟨m, d, (mem_template m d).1 h, rfl⟩
  · rintro ⟨m, d, h, rfl⟩; exact ⟨(m, d), (mem_template m d).2 h, rfl⟩

theorem block_sorted (q : ℤ → Option K) (y : ℤ) : (block q y).Pairwise fun a b => a.1 < b.1 := by
  unfold block
  rw [List.pairwise_map]
  apply (List.Pairwise.and_mem.1 template_sorted).imp
  rintro ⟨m, d⟩ ⟨m', d'⟩ ⟨hp, hq, h⟩
  exact c42_date_order y m d y m' d' (common_date ((mem_template _ _).1 hp) y) (common_date ((mem_template _ _).1 hq) y) (Or.inr ⟨rfl, h⟩)

theorem mem_yearList (a b y : ℤ) : y ∈ yearList a b ↔ a ≤ y ∧ y ≤ b := by
  unfold yearList
  simp only [List.mem_map, List.mem_range]
  constructor
  · rintro ⟨k, hk, rfl⟩; omega
  · rintro ⟨h1, h2⟩; exact ⟨(y - a).toNat, by omega, by omega⟩

theorem yearList_sorted (a b : ℤ) : (yearList a b).Pairwise (· < ·) := by
  unfold yearList
  rw [List.pairwise_map]
  exact List.pairwise_lt_range.imp fun h => by omega

theorem blocks_sorted (q : ℤ → Option K) (a b : ℤ) : ((yearList a b).flatMap (block q)).Pairwise fun x y => x.1 < y.1 := by
  rw [List.pairwise_flatMap]
  refine ⟨fun y _ => block_sorted q y, ?_⟩
  apply (yearList_sorted a b).imp
  intro y y' h x hx x' hx'
  obtain ⟨m, d, hc, rfl⟩ := (mem_block q y x).1 hx
  obtain ⟨m', d', hc', rfl⟩ := (mem_block q y' x').1 hx'
  exact c42_date_order y m d y' m' d' (common_date hc y) (common_date hc' y') (Or.inl h)

theorem jan (y : ℤ) : Spec.Date y 1 1 := ⟨by norm_num, by norm_num, by norm_num, by unfold Spec.monthLength; norm_num⟩
theorem dec (y : ℤ) : Spec.Date y 12 31 := ⟨by norm_num, by norm_num, by norm_num, by unfold Spec.monthLength; norm_num⟩

/-- Between 1 January of a year and 31 December of another one: the years between. -/
theorem between (a b y m d : ℤ) (h : Spec.Date y m d) : (sysDays a 1 1 ≤ sysDays y m d ∧ sysDays y m d ≤ sysDays b 12 31) ↔ a ≤ y ∧ y ≤ b := by
  obtain ⟨h1, h2, h3, h4⟩ := h
  have hml : Spec.monthLength y m ≤ 31 := by unfold Spec.monthLength; split_ifs <;> omega
  constructor
  · rintro ⟨ha, hb⟩
    constructor
    · by_contra hn
      have := c42_date_order y m d a 1 1 ⟨h1, h2, h3, h4⟩ (jan a) (Or.inl (by omega))
      omega
    · by_contra hn
      have := c42_date_order b 12 31 y m d (dec b) ⟨h1, h2, h3, h4⟩ (Or.inl (by omega))
      omega
  · rintro ⟨ha, hb⟩
    constructor
    · by_cases he : y = a ∧ m = 1 ∧ d = 1
      · obtain ⟨rfl, rfl, rfl⟩ := he; exact _root_.le_refl _
      · exact (c42_date_order a 1 1 y m d (jan a) ⟨h1, h2, h3, h4⟩ (by omega)).le
    · by_cases he : y = b ∧ m = 12 ∧ d = 31
      · obtain ⟨rfl, rfl, rfl⟩ := he; exact _root_.le_refl _
      · exact (c42_date_order y m d b 12 31 ⟨h1, h2, h3, h4⟩ (dec b) (by omega)).le

theorem wholeYears_sorted (a b : ℤ) (q : ℤ → Option K) : (wholeYears a b q).Pairwise fun x y => x.1 < y.1 := by
  unfold wholeYears
  rw [List.pairwise_map]
  exact List.pairwise_lt_range.imp fun h => by simpa using h

theorem mem_wholeYears (a b : ℤ) (q : ℤ → Option K) (r : ℤ × Option K) :
    r ∈ wholeYears a b q ↔ (sysDays a 1 1 ≤ r.1 ∧ r.1 ≤ sysDays b 12 31) ∧ r.2 = q r.1 := by
  unfold wholeYears
  simp only [List.mem_map, List.mem_range]
  constructor
  · rintro ⟨k, hk, rfl⟩
    refine ⟨⟨by simp, ?_⟩, rfl⟩
    simp only
    omega
  · rintro ⟨⟨h1, h2⟩, h3⟩
    refine ⟨(r.1 - sysDays a 1 1).toNat, by omega, ?_⟩
    have : sysDays a 1 1 + ((r.1 - sysDays a 1 1).toNat : ℤ) = r.1 := by omega
    rw [this, ← h3]

theorem mem_prepared (a b : ℤ) (q : ℤ → Option K) (r : ℤ × Option K) :
    r ∈ prepared (wholeYears a b q) ↔ ∃ y, (a ≤ y ∧ y ≤ b) ∧ r ∈ block q y := by
  unfold prepared
  rw [List.mem_filter, mem_wholeYears]
  simp only [decide_eq_true_eq]
  constructor
  · rintro ⟨⟨h1, h2⟩, h3⟩
    obtain ⟨y, m, d, hd, he⟩ := c42_every_day r.1
    refine ⟨y, (between a b y m d hd).1 (he ▸ h1), (mem_block q y r).2 ⟨m, d, ?_, ?_⟩⟩
    · rw [common_iff hd]
      unfold monthDay at h3
      rw [← he, c42_date_round_trip y m d hd] at h3
      exact h3
    · rw [he, ← h2]
  · rintro ⟨y, hy, hr⟩
    obtain ⟨m, d, hc, rfl⟩ := (mem_block q y r).1 hr
    have hd := common_date hc y
    refine ⟨⟨(between a b y m d hd).2 hy, rfl⟩, ?_⟩
    unfold monthDay
    rw [c42_date_round_trip y m d hd]
    exact (common_iff hd).1 hc

theorem prepared_blocks (a b : ℤ) (q : ℤ → Option K) : prepared (wholeYears a b q) = (yearList a b).flatMap (block q) := by
  apply sorted_unique Prod.fst
  · exact (wholeYears_sorted a b q).sublist List.filter_sublist
  · exact blocks_sorted q a b
  · intro r
    rw [mem_prepared, List.mem_flatMap]
    simp only [mem_yearList]

theorem year_block (a b : ℤ) (q : ℤ → Option K) (y : ℤ) (hy : a ≤ y ∧ y ≤ b) :
    ((prepared (wholeYears a b q)).filter fun r => decide (yearOf r.1 = y)) = block q y := by
  apply sorted_unique Prod.fst
  · exact ((wholeYears_sorted a b q).sublist List.filter_sublist).sublist List.filter_sublist
  · exact block_sorted q y
  · intro r
    rw [List.mem_filter, mem_prepared, decide_eq_true_eq]
    constructor
    · rintro ⟨⟨y', hy', hr⟩, he⟩
      obtain ⟨m, d, hc, rfl⟩ := (mem_block q y' r).1 hr
      unfold yearOf at he
      rw [c42_date_round_trip y' m d (common_date hc y')] at he
      subst he
      exact hr
    · intro hr
      refine ⟨⟨y, hy, hr⟩, ?_⟩
      obtain ⟨m, d, hc, rfl⟩ := (mem_block q y r).1 hr
      unfold yearOf
      rw [c42_date_round_trip y m d (common_date hc y)]

theorem loc_blocks (a b : ℤ) (q : ℤ → Option K) (s : List ℤ) (hs : ∀ y ∈ s, a ≤ y ∧ y ≤ b) : loc (prepared (wholeYears a b q)) s = s.flatMap (block q) := by
  unfold loc
  induction s with
  | nil => rfl
  | cons y s ih =>
    rw [List.flatMap_cons, List.flatMap_cons, year_block a b q y (hs y (List.mem_cons_self ..)), ih fun x hx => hs x (List.mem_cons_of_mem _ hx)]

theorem within_blocks (a b a' b' : ℤ) (ha : a ≤ a') (hb : b' ≤ b) (q : ℤ → Option K) :
    within (some (sysDays a' 1 1)) (some (sysDays b' 12 31)) (prepared (wholeYears a b q)) = (yearList a' b').flatMap (block q) := by
  apply sorted_unique Prod.fst
  · exact ((wholeYears_sorted a b q).sublist List.filter_sublist).sublist List.filter_sublist
  · exact blocks_sorted q a' b'
  · intro r
    unfold within
    rw [List.mem_filter, mem_prepared, List.mem_flatMap]
    simp only [Option.all_some, Bool.and_eq_true, decide_eq_true_eq, mem_yearList]
    constructor
    · rintro ⟨⟨y, hy, hr⟩, h⟩
      obtain ⟨m, d, hc, rfl⟩ := (mem_block q y r).1 hr
      exact ⟨y, (between a' b' y m d (common_date hc y)).1 h, hr⟩
    · rintro ⟨y, hy, hr⟩
      refine ⟨⟨y, ⟨by omega, by omega⟩, hr⟩, ?_⟩
      obtain ⟨m, d, hc, rfl⟩ := (mem_block q y r).1 hr
      exact (between a' b' y m d (common_date hc y)).2 hy

theorem mem_years (df : List (ℤ × Option K)) (y : ℤ) : y ∈ years df ↔ ∃ r ∈ df, yearOf r.1 = y := by
  unfold years
  rw [List.mem_reverse, List.mem_dedup, List.mem_reverse, List.mem_map]

theorem years_nodup (df : List (ℤ × Option K)) : (years df).Nodup := by
  unfold years
  exact List.nodup_reverse.2 (List.nodup_dedup _)

theorem year_block_mem (q : ℤ → Option K) (y : ℤ) (r : ℤ × Option K) (h : r ∈ block q y) : yearOf r.1 = y := by
  obtain ⟨m, d, hc, rfl⟩ := (mem_block q y r).1 h
  unfold yearOf
  rw [c42_date_round_trip y m d (common_date hc y)]

theorem block_ne (q : ℤ → Option K) (y : ℤ) : (sysDays y 1 1, q (sysDays y 1 1)) ∈ block q y :=
  (mem_block q y _).2 ⟨1, 1, jan 2001, rfl⟩

theorem years_sorted_of (df : List (ℤ × Option K)) (h : (df.map fun r => yearOf r.1).Pairwise (· ≤ ·)) : (years df).Pairwise (· < ·) := by
  have h1 : (years df).Pairwise (· ≤ ·) := by
    unfold years
    rw [List.pairwise_reverse]
    apply List.Pairwise.sublist (List.dedup_sublist _)
    rw [List.pairwise_reverse]
    exact h
  exact (h1.and (years_nodup df)).imp fun ⟨x, y⟩ => lt_of_le_of_ne x y

theorem years_whole (a b : ℤ) (q : ℤ → Option K) : years (prepared (wholeYears a b q)) = yearList a b := by
  apply sorted_unique id
  · apply years_sorted_of
    rw [prepared_blocks, List.pairwise_map, List.pairwise_flatMap]
    constructor
    · intro y _
      apply List.Pairwise.imp_of_mem (R := fun _ _ => True) _ (List.pairwise_of_forall fun _ _ => trivial)
      intro r r' hr hr' _
      rw [year_block_mem q y r hr, year_block_mem q y r' hr']
    · apply (yearList_sorted a b).imp
      intro y y' h x hx x' hx'
      rw [year_block_mem q y x hx, year_block_mem q y' x' hx']
      exact h.le
  · exact yearList_sorted a b
  · intro y
    rw [mem_years, prepared_blocks, mem_yearList]
    constructor
    · rintro ⟨r, hr, he⟩
      obtain ⟨y', hy', hr'⟩ := List.mem_flatMap.1 hr
      rw [year_block_mem q y' r hr'] at he
      subst he
      exact (mem_yearList a b y').1 hy'
    · intro h
      exact ⟨_, List.mem_flatMap.2 ⟨y, (mem_yearList a b y).2 h, block_ne q y⟩, year_block_mem q y _ (block_ne q y)⟩

theorem comparison_whole (a b a' b' : ℤ) (ha : a ≤ a') (hb : b' ≤ b) (hab : a' ≤ b') (q : ℤ → Option K) :
    comparison (prepared (wholeYears a b q)) (some (sysDays a' 1 1)) (some (sysDays b' 12 31)) = (yearList a' b', (yearList a' b').flatMap (block q)) := by
  unfold comparison
  simp only
  rw [within_blocks a b a' b' ha hb]
  congr 1
  apply sorted_unique id
  · have h1 := List.pairwise_insertionSort (· ≤ ·) (((List.range (sysDays b' 12 31 - sysDays a' 1 1 + 1).toNat).map fun (k : ℕ) => yearOf (sysDays a' 1 1 + (k : ℤ))).dedup)
    have h2 : ((((List.range (sysDays b' 12 31 - sysDays a' 1 1 + 1).toNat).map fun (k : ℕ) => yearOf (sysDays a' 1 1 + (k : ℤ))).dedup).insertionSort (· ≤ ·)).Nodup :=
      (List.perm_insertionSort _ _).nodup_iff.2 (List.nodup_dedup _)
    exact (h1.and h2).imp fun ⟨x, y⟩ => lt_of_le_of_ne x y
  · exact yearList_sorted a' b'
  · intro y
    rw [List.mem_insertionSort, List.mem_dedup, List.mem_map, mem_yearList]
    simp only [List.mem_range]
    constructor
    · rintro ⟨k, hk, he⟩
      obtain ⟨y', m, d, hd, hz⟩ := c42_every_day (sysDays a' 1 1 + (k : ℤ))
      have := (between a' b' y' m d hd).1 (by omega)
      unfold yearOf at he
      rw [← hz, c42_date_round_trip y' m d hd] at he
      subst he
      exact this
    · intro h
      have := (between a' b' y 1 1 (jan y)).2 h
      refine ⟨(sysDays y 1 1 - sysDays a' 1 1).toNat, by omega, ?_⟩
      have e : sysDays a' 1 1 + ((sysDays y 1 1 - sysDays a' 1 1).toNat : ℤ) = sysDays y 1 1 := by omega
      unfold yearOf
      rw [e, c42_date_round_trip y 1 1 (jan y)]

theorem blocks_length (q : ℤ → Option K) (s : List ℤ) : (s.flatMap (block q)).length = 365 * s.length := by
  induction s with
  | nil => rfl
  | cons y s ih => rw [List.flatMap_cons, List.length_append, ih, block, List.length_map, template_length, List.length_cons]; omega

theorem blocks_get (q : ℤ → Option K) : ∀ (s : List ℤ) (k : ℕ) (r : ℤ × Option K), (s.flatMap (block q))[k]? = some r →
    ∃ y m d, s[k / 365]? = some y ∧ template[k % 365]? = some (m, d) ∧ r = (sysDays y m d, q (sysDays y m d)) := by
  intro s
  induction s with
  | nil => intro k r h; simp at h
  | cons y s ih =>
    intro k r h
    rw [List.flatMap_cons] at h
    have hl : (block q y).length = 365 := by rw [block, List.length_map, template_length]
    by_cases hk : k < 365
    · rw [List.getElem?_append_left (by omega)] at h
      unfold block at h
      rw [List.getElem?_map] at h
      obtain ⟨⟨m, d⟩, h1, rfl⟩ := Option.map_eq_some_iff.1 h
      refine ⟨y, m, d, ?_, ?_, rfl⟩
      · rw [Nat.div_eq_of_lt hk]; rfl
      · rw [Nat.mod_eq_of_lt hk]; exact h1
    · rw [List.getElem?_append_right (by omega), hl] at h
      obtain ⟨y', m, d, h1, h2, h3⟩ := ih _ _ h
      refine ⟨y', m, d, ?_, ?_, h3⟩
      · have : k / 365 = (k - 365) / 365 + 1 := by omega
        rw [this]; exact h1
      · have : k % 365 = (k - 365) % 365 := by omega
        rw [this]; exact h2

/-- **C88 (aligned)**: for observations of whole years, and a period of whole years inside, every sample of as many years as are compared gives a
series of the same length as the observed one, which has at each place the value of the same month and day: in the observed series of the year
compared, in the sample of the year drawn for it. -/
theorem c88_aligned (a b a' b' : ℤ) (ha : a ≤ a') (hb : b' ≤ b) (hab : a' ≤ b') (q : ℤ → Option K) (s : List ℤ) (hs : ∀ y ∈ s, y ∈ years (prepared (wholeYears a b q)))
    (c : List ℤ × List (ℤ × Option K)) (hc : c = comparison (prepared (wholeYears a b q)) (some (sysDays a' 1 1)) (some (sysDays b' 12 31)))
    (hl : s.length = c.1.length) :
    c.1 = yearList a' b' ∧ (loc (prepared (wholeYears a b q)) s).length = c.2.length ∧ c.2.length = 365 * s.length ∧
    ∀ (k : ℕ) (x w : ℤ × Option K), (loc (prepared (wholeYears a b q)) s)[k]? = some x → c.2[k]? = some w →
      ∃ y y' m d, s[k / 365]? = some y ∧ c.1[k / 365]? = some y' ∧ CommonDay m d ∧ x = (sysDays y m d, q (sysDays y m d)) ∧
        w = (sysDays y' m d, q (sysDays y' m d)) := by
  rw [comparison_whole a b a' b' ha hb hab] at hc
  subst hc
  simp only at hl ⊢
  have hs' : ∀ y ∈ s, a ≤ y ∧ y ≤ b := by
    intro y hy
    have := hs y hy
    rw [years_whole, mem_yearList] at this
    exact this
  rw [loc_blocks a b q s hs', blocks_length, blocks_length, ← hl]
  refine ⟨trivial, rfl, rfl, ?_⟩
  intro k x w hx hw
  obtain ⟨y, m, d, h1, h2, h3⟩ := blocks_get q _ _ _ hx
  obtain ⟨y', m', d', h1', h2', h3'⟩ := blocks_get q _ _ _ hw
  rw [h2] at h2'
  cases h2'
  exact ⟨y, y', m, d, h1, h1', (mem_template m d).1 (List.mem_of_getElem? h2), h3, h3'⟩

/-- **C88 (without period)**: without a period the same holds for all the years. -/
theorem c88_whole (a b : ℤ) (hab : a ≤ b) (q : ℤ → Option K) (start stop : Option ℤ) (h : start = none ∨ stop = none) :
    comparison (prepared (wholeYears a b q)) start stop = comparison (prepared (wholeYears a b q)) (some (sysDays a 1 1)) (some (sysDays b 12 31)) := by
  rw [comparison_whole a b a b (_root_.le_refl _) (_root_.le_refl _) hab]
  have e : comparison (prepared (wholeYears a b q)) start stop = (years (prepared (wholeYears a b q)), prepared (wholeYears a b q)) := by
    rcases h with rfl | rfl
    · rfl
    · cases start <;> rfl
  rw [e, years_whole, prepared_blocks]

end HB.RefMetric
