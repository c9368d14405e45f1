import Verif.Props.Discretize

/-!
# C82: bands, areas of the units, quantiles
-/

namespace HB.Discretize

open HB.Spec.Discretize

set_option linter.unusedSectionVars false

/-! ## Bands of a sorted list of bounds -/

section
variable {K : Type} [Field K] [LinearOrder K]

theorem pairs_cons (a b : K) (r : List K) : pairs (a :: b :: r) = (a, b) :: pairs (b :: r) := rfl

theorem pairs_mem : ∀ (l : List K) (p : K × K), p ∈ pairs l → p.1 ∈ l ∧ p.2 ∈ l
  | [], p, h => by simp [pairs] at h
  | [_], p, h => by simp [pairs] at h
  | a :: b :: r, p, h => by
    rw [pairs_cons] at h
    rcases List.mem_cons.1 h with rfl | h
    · simp
    · obtain ⟨h1, h2⟩ := pairs_mem (b :: r) p h
      exact ⟨List.mem_cons_of_mem _ h1, List.mem_cons_of_mem _ h2⟩

theorem pairs_length (l : List K) : (pairs l).length = l.length - 1 := by
  simp [pairs]

theorem pairs_order : ∀ (l : List K), l.Pairwise (· ≤ ·) → (pairs l).Pairwise fun p q => p.2 ≤ q.1
  | [], _ => by simp [pairs]
  | [_], _ => by simp [pairs]
  | a :: b :: r, h => by
    rw [pairs_cons, List.pairwise_cons]
    have h2 := (List.pairwise_cons.1 h).2
    refine ⟨?_, pairs_order (b :: r) h2⟩
    intro q hq
    rcases List.mem_cons.1 (pairs_mem _ q hq).1 with e | e
    · rw [e]
    · exact (List.pairwise_cons.1 h2).1 _ e

/-- A value between the first and the last bound is in one of the bands. -/
theorem pairs_cover (x : K) : ∀ (l : List K) (a z : K), l.head? = some a → l.getLast? = some z → a ≤ x → x < z →
    ∃ p ∈ pairs l, p.1 ≤ x ∧ x < p.2
  | [], a, z, h, _, _, _ => by simp at h
  | [b], a, z, h, hz, ha, hx => by
    simp at h hz
    subst h; subst hz
    exact absurd hx (not_lt.2 ha)
  | b :: b' :: r, a, z, h, hz, ha, hx => by
    simp at h
    subst h
    rw [pairs_cons]
    by_cases hb : x < b'
    · exact ⟨(b, b'), List.mem_cons_self, ha, hb⟩
    · obtain ⟨p, hp, h1⟩ := pairs_cover x (b' :: r) b' z rfl (by rw [List.getLast?_cons_cons] at hz; exact hz) (not_lt.1 hb) hx
      exact ⟨p, List.mem_cons_of_mem _ hp, h1⟩

theorem inside_band (c : Cell K) (k : Kind) (lo hi : K) : Inside c (.band k lo hi) ↔ ∃ x, c.value k = some x ∧ lo ≤ x ∧ x < hi := by
  cases k <;> rfl

/-- Bands between increasing bounds exclude each other. -/
theorem bands_exclusive (cells : List (Cell K)) (k : Kind) (l : List K) (h : l.Pairwise (· ≤ ·)) :
    Exclusive cells (bandClasses k (pairs l)) := by
  unfold Exclusive bandClasses
  rw [List.pairwise_map]
  refine (pairs_order l h).imp ?_
  rintro p q hpq c - ⟨h1, h2⟩
  rw [inside_band] at h1 h2
  obtain ⟨x, hx, -, hx2⟩ := h1
  obtain ⟨y, hy, hy1, -⟩ := h2
  rw [hx] at hy
  cases hy
  exact absurd (_root_.lt_of_lt_of_le hx2 (_root_.le_trans hpq hy1)) (_root_.lt_irrefl x)

theorem foldl_min_le : ∀ (l : List K) (a : K), l.foldl min a ≤ a ∧ ∀ x ∈ l, l.foldl min a ≤ x
  | [], a => by simp
  | b :: l, a => by
    obtain ⟨h1, h2⟩ := foldl_min_le l (min a b)
    rw [List.foldl_cons]
    refine ⟨_root_.le_trans h1 (min_le_left _ _), ?_⟩
    intro x hx
    rcases List.mem_cons.1 hx with rfl | hx
    · exact _root_.le_trans h1 (min_le_right _ _)
    · exact h2 x hx

theorem le_foldl_max : ∀ (l : List K) (a : K), a ≤ l.foldl max a ∧ ∀ x ∈ l, x ≤ l.foldl max a
  | [], a => by simp
  | b :: l, a => by
    obtain ⟨h1, h2⟩ := le_foldl_max l (max a b)
    rw [List.foldl_cons]
    refine ⟨_root_.le_trans (le_max_left _ _) h1, ?_⟩
    intro x hx
    rcases List.mem_cons.1 hx with rfl | hx
    · exact _root_.le_trans (le_max_right _ _) h1
    · exact h2 x hx

/-- The aspects exclude each other. -/
theorem c82_aspects [IsStrictOrderedRing K] (cells : List (Cell K)) : Exclusive cells aspectClasses ∧
    ∀ c ∈ cells, (∃ cl ∈ (aspectClasses : List (Class K)), Inside c cl) ↔ ∃ x, c.aspect = some x ∧ 0 ≤ x ∧ x ≤ 360 := by
  constructor
  · unfold Exclusive aspectClasses
    simp only [List.pairwise_cons, List.mem_cons, List.not_mem_nil, or_false, forall_eq_or_imp, forall_eq, Inside,
      IsEmpty.forall_iff, implies_true, and_true, List.Pairwise.nil]
    refine ⟨⟨?_, ?_, ?_⟩, ⟨?_, ?_⟩, ?_⟩ <;>
      · rintro c - ⟨⟨x, hx, h1⟩, ⟨y, hy, h2⟩⟩
        rw [hx] at hy
        cases hy
        first
          | (rcases h1 with ⟨h1, h1'⟩ | ⟨h1, h1'⟩ <;> obtain ⟨h2, h2'⟩ := h2 <;> linarith)
          | (obtain ⟨h1, h1'⟩ := h1; obtain ⟨h2, h2'⟩ := h2; linarith)
  · intro c _
    unfold aspectClasses
    simp only [List.mem_cons, List.not_mem_nil, or_false, exists_eq_or_imp, exists_eq_left, Inside]
    constructor
    · rintro (⟨x, hx, h⟩ | ⟨x, hx, h⟩ | ⟨x, hx, h⟩ | ⟨x, hx, h⟩)
      · refine ⟨x, hx, ?_⟩
        rcases h with ⟨h1, h2⟩ | ⟨h1, h2⟩ <;> constructor <;> linarith
      all_goals exact ⟨x, hx, by linarith [h.1], by linarith [h.2]⟩
    · rintro ⟨x, hx, h1, h2⟩
      by_cases a : x < 45
      · exact Or.inl ⟨x, hx, Or.inr ⟨h1, a⟩⟩
      by_cases b : x < 135
      · exact Or.inr (Or.inl ⟨x, hx, not_lt.1 a, b⟩)
      by_cases d : x < 225
      · exact Or.inr (Or.inr (Or.inl ⟨x, hx, not_lt.1 b, d⟩))
      by_cases e : x < 315
      · exact Or.inr (Or.inr (Or.inr ⟨x, hx, not_lt.1 d, e⟩))
      · exact Or.inl ⟨x, hx, Or.inl ⟨not_lt.1 e, h2⟩⟩

/-- The sub-catchments exclude each other. -/
theorem c82_subs (cells : List (Cell K)) (n : ℕ) : Exclusive cells (subClasses n) ∧
    ∀ c ∈ cells, (∃ cl ∈ (subClasses n : List (Class K)), Inside c cl) ↔ 1 ≤ c.sub ∧ c.sub ≤ n := by
  constructor
  · unfold Exclusive subClasses
    rw [List.pairwise_map]
    refine List.pairwise_lt_range.imp ?_
    rintro a b hab c - ⟨h1, h2⟩
    simp only [Inside] at h1 h2
    omega
  · intro c _
    unfold subClasses
    simp only [List.mem_map, List.mem_range]
    constructor
    · rintro ⟨cl, ⟨i, hi, rfl⟩, h⟩
      simp only [Inside] at h
      omega
    · rintro ⟨h1, h2⟩
      exact ⟨_, ⟨c.sub - 1, by omega, rfl⟩, by simp only [Inside]; omega⟩

end

/-! ## Equal intervals -/

section
variable {K : Type} [Field K] [LinearOrder K] [IsStrictOrderedRing K] [FloorRing K]

theorem arange_sorted (a b d : K) (hd : 0 < d) : (arange a b d).Pairwise (· ≤ ·) := by
  unfold arange
  rw [List.pairwise_map]
  refine List.pairwise_lt_range.imp ?_
  intro i j hij
  have : (i : K) ≤ (j : K) := by exact_mod_cast hij.le
  nlinarith [mul_le_mul_of_nonneg_right this hd.le]

theorem arange_pairs (a b d : K) : ∀ p ∈ pairs (arange a b d), ∃ i : ℕ, p.1 = a + (i : K) * d ∧ p.2 = a + ((i : K) + 1) * d := by
  intro p hp
  unfold pairs at hp
  obtain ⟨i, hi⟩ := List.mem_iff_getElem?.1 hp
  rw [List.getElem?_zip_eq_some] at hi
  obtain ⟨h1, h2⟩ := hi
  rw [List.getElem?_tail] at h2
  unfold arange at h1 h2
  rw [List.getElem?_map, Option.map_eq_some_iff] at h1 h2
  obtain ⟨j, hj, e1⟩ := h1
  obtain ⟨j', hj', e2⟩ := h2
  obtain ⟨_, rfl⟩ := List.getElem?_eq_some_iff.1 hj
  obtain ⟨_, rfl⟩ := List.getElem?_eq_some_iff.1 hj'
  rw [List.getElem_range] at e1 e2
  refine ⟨i, e1.symm, ?_⟩
  rw [← e2]
  push_cast
  ring

/-- With bounds `lo` and `hi`, all the values from `lo` to below `hi` are in a band. -/
theorem arange_cover (lo hi d x : K) (hd : 0 < d) (h1 : lo ≤ x) (h2 : x < hi) :
    ∃ p ∈ pairs (arange lo (hi + d) d), p.1 ≤ x ∧ x < p.2 := by
  have hpos : 0 < (hi + d - lo) / d := by
    apply div_pos _ hd
    linarith
  set n := ⌈(hi + d - lo) / d⌉₊ with hn
  have hn1 : 0 < n := Nat.ceil_pos.2 hpos
  have hle : (hi + d - lo) / d ≤ (n : K) := Nat.le_ceil _
  obtain ⟨m, hm⟩ : ∃ m, n = m + 1 := ⟨n - 1, by omega⟩
  have hlast : hi ≤ lo + (m : K) * d := by
    rw [hm] at hle
    push_cast at hle
    rw [div_le_iff₀ hd] at hle
    nlinarith
  refine pairs_cover x _ lo (lo + (m : K) * d) ?_ ?_ h1 (_root_.lt_of_lt_of_le h2 hlast)
  · unfold arange
    rw [← hn, hm, List.range_succ_eq_map]
    simp
  · unfold arange
    rw [← hn, hm, List.range_succ]
    simp

/-- **C82**, equal intervals: with the bounds chosen by the code, every cell with a value is in exactly one band, whose bounds are
consecutive multiples of the distance. -/
theorem c82_equal (cells : List (Cell K)) (k : Kind) (dist : K) (hd : 0 < dist) (hne : cells.filterMap (·.value k) ≠ []) :
    ∃ bands, equalBands (cells.filterMap (·.value k)) dist none none = some bands ∧ Exclusive cells (bandClasses k bands) ∧
      (∀ c ∈ cells, c.value k ≠ none → ∃ cl ∈ bandClasses k bands, Inside c cl) ∧
      ∀ p ∈ bands, ∃ m : ℤ, p.1 = dist * m ∧ p.2 = dist * (m + 1) := by
  obtain ⟨v, vs, hv⟩ := List.exists_cons_of_ne_nil hne
  set m := vs.foldl min v
  set M := vs.foldl max v
  have hm : ∀ x ∈ cells.filterMap (·.value k), m ≤ x := by
    rw [hv]
    intro x hx
    rcases List.mem_cons.1 hx with rfl | hx
    · exact (foldl_min_le vs x).1
    · exact (foldl_min_le vs v).2 x hx
  have hM : ∀ x ∈ cells.filterMap (·.value k), x ≤ M := by
    rw [hv]
    intro x hx
    rcases List.mem_cons.1 hx with rfl | hx
    · exact (le_foldl_max vs x).1
    · exact (le_foldl_max vs v).2 x hx
  have hlo : m - pyMod m dist = dist * ⌊m / dist⌋ := by unfold pyMod; ring
  have hhi : M + (dist - pyMod M dist) = dist * (⌊M / dist⌋ + 1) := by unfold pyMod; ring
  have hlo' : m - pyMod m dist ≤ m := by
    rw [hlo]
    have := mul_le_mul_of_nonneg_left (Int.floor_le (m / dist)) hd.le
    rwa [mul_div_cancel₀ _ hd.ne'] at this
  have hhi' : M < M + (dist - pyMod M dist) := by
    rw [hhi]
    have := mul_lt_mul_of_pos_left (Int.lt_floor_add_one (M / dist)) hd
    rwa [mul_div_cancel₀ _ hd.ne'] at this
  refine ⟨pairs (arange (m - pyMod m dist) (M + (dist - pyMod M dist) + dist) dist), ?_, bands_exclusive _ _ _ (arange_sorted _ _ _ hd),
    ?_, ?_⟩
  · rw [hv]; rfl
  · intro c hc hval
    obtain ⟨x, hx⟩ := Option.ne_none_iff_exists'.1 hval
    have hxm : x ∈ cells.filterMap (·.value k) := List.mem_filterMap.2 ⟨c, hc, hx⟩
    obtain ⟨p, hp, h1, h2⟩ := arange_cover (m - pyMod m dist) (M + (dist - pyMod M dist)) dist x hd
      (_root_.le_trans hlo' (hm x hxm)) (_root_.lt_of_le_of_lt (hM x hxm) hhi')
    exact ⟨_, List.mem_map.2 ⟨p, hp, rfl⟩, (inside_band c k _ _).2 ⟨x, hx, h1, h2⟩⟩
  · intro p hp
    obtain ⟨i, e1, e2⟩ := arange_pairs _ _ _ p hp
    refine ⟨⌊m / dist⌋ + i, ?_, ?_⟩
    · rw [e1, hlo]; push_cast; ring
    · rw [e2, hlo]; push_cast; ring

/-- With given bounds: every value from the lower one to below the upper one is in exactly one band; values below the lower bound
are in none. -/
theorem c82_given (cells : List (Cell K)) (k : Kind) (dist mn mx : K) (hd : 0 < dist) :
    ∃ bands, equalBands (cells.filterMap (·.value k)) dist (some mn) (some mx) = some bands ∧ Exclusive cells (bandClasses k bands) ∧
      (∀ c ∈ cells, ∀ x, c.value k = some x → mn ≤ x → x < mx → ∃ cl ∈ bandClasses k bands, Inside c cl) ∧
      ∀ c ∈ cells, ∀ x, c.value k = some x → x < mn ∨ mx + dist ≤ x → ¬ ∃ cl ∈ bandClasses k bands, Inside c cl := by
  refine ⟨pairs (arange mn (mx + dist) dist), rfl, bands_exclusive _ _ _ (arange_sorted _ _ _ hd), ?_, ?_⟩
  · intro c _ x hx h1 h2
    obtain ⟨p, hp, h3, h4⟩ := arange_cover mn mx dist x hd h1 h2
    exact ⟨_, List.mem_map.2 ⟨p, hp, rfl⟩, (inside_band c k _ _).2 ⟨x, hx, h3, h4⟩⟩
  · rintro c - x hx hlt ⟨cl, hcl, hin⟩
    obtain ⟨p, hp, rfl⟩ := List.mem_map.1 hcl
    obtain ⟨y, hy, h1, h2⟩ := (inside_band c k _ _).1 hin
    rw [hx] at hy
    cases hy
    rcases hlt with hlt | hlt
    · obtain ⟨i, e1, -⟩ := arange_pairs _ _ _ p hp
      have : (0 : K) ≤ (i : K) * dist := by positivity
      rw [e1] at h1
      linarith
    · have hmem := (pairs_mem _ p hp).2
      unfold arange at hmem
      rw [List.mem_map] at hmem
      obtain ⟨j, hj, e⟩ := hmem
      have hj' := Nat.lt_ceil.1 (List.mem_range.1 hj)
      rw [lt_div_iff₀ hd] at hj'
      rw [← e] at h2
      linarith

/-! ## Areas -/

theorem sum_counts (px : K) (n : ℕ) : ∀ (ids : List ℕ), (∀ i ∈ ids, i ≤ n) →
    ((List.range n).map fun k => unitArea px ids (k + 1)).sum = ((ids.filter fun i => i != 0).length : K) * px
  | [], _ => by simp [unitArea]
  | i :: ids, h => by
    have ih := sum_counts px n ids fun j hj => h j (List.mem_cons_of_mem _ hj)
    have hi := h i List.mem_cons_self
    have hstep : ∀ u, unitArea px (i :: ids) u = (if i = u then px else 0) + unitArea px ids u := by
      intro u
      unfold unitArea
      rw [List.filter_cons]
      by_cases e : i = u
      · simp only [e, beq_self_eq_true, if_true, List.length_cons]; push_cast; ring
      · simp [e]
    simp only [hstep]
    have hsplit : ∀ l : List ℕ, (l.map fun k => (if i = k + 1 then px else 0) + unitArea px ids (k + 1)).sum =
        (l.map fun k => if i = k + 1 then px else 0).sum + (l.map fun k => unitArea px ids (k + 1)).sum := by
      intro l
      induction l with
      | nil => simp
      | cons a l ihl => rw [List.map_cons, List.map_cons, List.map_cons, List.sum_cons, List.sum_cons, List.sum_cons, ihl]; ring
    rw [hsplit, ih]
    have hone : ∀ m, ((List.range m).map fun k => if i = k + 1 then px else 0).sum = if i ≠ 0 ∧ i ≤ m then px else 0 := by
      intro m
      induction m with
      | zero =>
        by_cases e : i ≠ 0 ∧ i ≤ 0
        · omega
        · rw [if_neg e]; rfl
      | succ m ihm =>
        rw [List.range_succ, List.map_append, List.sum_append, ihm, List.map_singleton, List.sum_singleton]
        by_cases e1 : i = m + 1
        · rw [if_neg (by omega), if_pos e1, if_pos (by omega), zero_add]
        · rw [if_neg e1, add_zero]
          by_cases e2 : i ≠ 0 ∧ i ≤ m
          · rw [if_pos e2, if_pos (by omega)]
          · rw [if_neg e2, if_neg (by omega)]
    rw [hone, List.filter_cons]
    by_cases e : i = 0
    · simp [e]
    · rw [if_pos ⟨e, hi⟩]
      simp only [bne_iff_ne, ne_eq, e, not_false_eq_true, if_true, List.length_cons]
      push_cast
      ring

/-- **C82**: the areas of the units add up to the area of the cells that are in a class of every criterion. -/
theorem c82_areas (px : K) (cells : List (Cell K)) (criteria : List (List (Class K)))
    (hx : ∀ classes ∈ criteria, Exclusive cells classes) (ids : List ℕ) (kept : List (List (Class K)))
    (h : discretize cells criteria = .ok (ids, kept)) (hlen : kept.length < 65536) (covered : Cell K → Bool)
    (hcov : ∀ c ∈ cells, covered c = true ↔ Covered criteria c) :
    ((List.range kept.length).map fun k => unitArea px ids (k + 1)).sum = ((cells.filter covered).length : K) * px := by
  obtain ⟨ids', kept', h', hl, hk, -, hids⟩ := c82_units cells criteria hx
  rw [h] at h'
  cases h'
  have hpt : ∀ (i : ℕ) (c : Cell K) (u : ℕ), cells[i]? = some c → ids[i]? = some u → u ≤ kept.length ∧ (u ≠ 0 ↔ covered c = true) := by
    intro i c u hc hu
    obtain ⟨-, -, h3⟩ := hids i c hc
    obtain ⟨h4, h5⟩ := h3 hlen
    have hcm := List.mem_of_getElem? hc
    rw [hcov c hcm]
    constructor
    · by_cases hcc : Covered criteria c
      · have : ∃ combo ∈ product criteria, ∀ x ∈ combo, Inside c x := (product_exists (Inside c) criteria).2 hcc.2
        obtain ⟨combo, hcb, hin⟩ := this
        have hmem := (hk combo).2 ⟨(product_mem _ _).1 hcb, c, hcm, hcc.1, hin⟩
        obtain ⟨k, hk'⟩ := List.mem_iff_getElem?.1 hmem
        have := (h4 k combo hk').2 ⟨hcc.1, hin⟩
        rw [hu] at this
        cases this
        exact (List.getElem?_eq_some_iff.1 hk').1
      · have := h5.2 hcc
        rw [hu] at this
        cases this
        exact Nat.zero_le _
    · constructor
      · intro hne
        by_contra hcc
        have := h5.2 hcc
        rw [hu] at this
        cases this
        exact hne rfl
      · rintro hcc rfl
        exact h5.1 hu hcc
  rw [sum_counts px kept.length ids ?_]
  · congr 2
    clear h hk hids hx hcov hlen
    induction cells generalizing ids with
    | nil =>
      cases ids with
      | nil => rfl
      | cons => simp at hl
    | cons c cells ih =>
      cases ids with
      | nil => simp at hl
      | cons u ids =>
        have h0 := (hpt 0 c u rfl rfl).2
        have ih := ih ids (by simpa using hl) fun i c' u' hc hu => hpt (i + 1) c' u' (by simpa using hc) (by simpa using hu)
        rw [List.filter_cons, List.filter_cons]
        by_cases e : u = 0
        · have : covered c = false := by
            rw [← Bool.not_eq_true]
            intro hcc
            exact h0.2 hcc e
          simp [e, this, ih]
        · simp [e, h0.1 e, ih]
  · intro u hu
    obtain ⟨i, hi⟩ := List.mem_iff_getElem?.1 hu
    have hil := (List.getElem?_eq_some_iff.1 hi).1
    rw [hl] at hil
    exact (hpt i cells[i] u (List.getElem?_eq_getElem hil) hi).1

/-- **C82**: elevation bands of a given height cover the whole catchment. -/
theorem c82_elevation (px : K) (cells : List (Cell K)) (dist : K) (hd : 0 < dist) (hne : cells.filterMap (·.dem) ≠ []) :
    ∃ bands ids kept, equalBands (cells.filterMap (·.dem)) dist none none = some bands ∧
      discretize cells [bandClasses .elevation bands] = .ok (ids, kept) ∧
      (kept.length < 65536 →
        ((List.range kept.length).map fun k => unitArea px ids (k + 1)).sum = ((cells.filter fun c => c.dem.isSome).length : K) * px) := by
  obtain ⟨bands, h1, h2, h3, -⟩ := c82_equal cells .elevation dist hd hne
  have hx : ∀ classes ∈ [bandClasses .elevation bands], Exclusive cells classes := by
    intro classes hc
    rw [List.mem_singleton] at hc
    rw [hc]
    exact h2
  obtain ⟨ids, kept, h4, -⟩ := c82_units cells [bandClasses .elevation bands] hx
  refine ⟨bands, ids, kept, h1, h4, fun hlen => c82_areas px cells _ hx ids kept h4 hlen _ ?_⟩
  intro c hc
  rw [Option.isSome_iff_ne_none]
  constructor
  · intro hdem
    refine ⟨hdem, ?_⟩
    intro classes hcl
    rw [List.mem_singleton] at hcl
    rw [hcl]
    exact h3 c hc hdem
  · intro h
    exact h.1

end
end HB.Discretize
