import Verif.Props.Discretize2

/-!
# C82: quantiles, examples, findings
-/

namespace HB.Discretize

open HB.Spec.Discretize

set_option linter.unusedSectionVars false

section
variable {K : Type} [Field K] [LinearOrder K] [IsStrictOrderedRing K] [FloorRing K]

omit [FloorRing K] in
/-- **C82 (values of the bands)**: a combination with a band of a kind has attributes of this kind: the bounds between which all cells of the combination
lie, and the middle between them. -/
theorem c82_band (k : Kind) (combo : List (Class K)) (lo hi : K) (h : Class.band k lo hi ∈ combo) :
    ∃ mid lo' hi', bandOf k combo = some (mid, lo', hi') ∧ mid - lo' = hi' - mid ∧
      ∀ c : Cell K, (∀ cl ∈ combo, Inside c cl) → ∃ x, c.value k = some x ∧ lo' ≤ x ∧ x < hi' := by
  induction combo with
  | nil => simp at h
  | cons cl combo ih =>
    have skip : (∀ lo' hi', cl ≠ Class.band k lo' hi') → bandOf k (cl :: combo) = bandOf k combo := by
      intro hne
      unfold bandOf
      rw [List.findSome?_cons]
      cases cl with
      | band k' lo' hi' =>
        have hk : ¬ k' = k := by rintro rfl; exact hne lo' hi' rfl
        simp only [if_neg hk]
      | _ => rfl
    by_cases hc : ∃ lo' hi', cl = Class.band k lo' hi'
    · obtain ⟨lo', hi', rfl⟩ := hc
      refine ⟨(lo' + hi') / 2, lo', hi', ?_, by ring, ?_⟩
      · unfold bandOf
        rw [List.findSome?_cons]
        simp
      · intro c hin
        have := hin _ (List.mem_cons_self ..)
        cases k <;> exact this
    · push Not at hc
      have hm : Class.band k lo hi ∈ combo := by
        rcases List.mem_cons.1 h with e | e
        · exact absurd e.symm (hc lo hi)
        · exact e
      obtain ⟨mid, lo', hi', h1, h2, h3⟩ := ih hm
      exact ⟨mid, lo', hi', (skip hc).trans h1, h2, fun c hin => h3 c fun cl hcl => hin cl (List.mem_cons_of_mem _ hcl)⟩

theorem getD_at (l : List K) (d : K) {i : ℕ} (h : i < l.length) : l.getD i d = l[i] := by
  rw [List.getD_eq_getElem?_getD, List.getElem?_eq_getElem h, Option.getD_some]

/-- Between two neighbours of the sorted list. -/
theorem quantile_between (l : List K) (hs : l.Pairwise (· ≤ ·)) (q : K) (h0 : 0 ≤ q) (h1 : q ≤ 1) (hl : l ≠ []) :
    let p := q * ((l.length - 1 : ℕ) : K)
    let i := ⌊p⌋₊
    i < l.length ∧ (i + 1 < l.length ∨ quantile l q = l.getD i 0) ∧ l.getD i 0 ≤ quantile l q ∧
      (i + 1 < l.length → quantile l q ≤ l.getD (i + 1) 0) := by
  intro p i
  have hlen : 0 < l.length := List.length_pos_iff.2 hl
  have hp0 : 0 ≤ p := mul_nonneg h0 (Nat.cast_nonneg _)
  have hp1 : p ≤ ((l.length - 1 : ℕ) : K) := by
    have := mul_le_mul_of_nonneg_right h1 (Nat.cast_nonneg (α := K) (l.length - 1))
    rwa [one_mul] at this
  have hi1 : (i : K) ≤ p := Nat.floor_le hp0
  have hi2 : p < (i : K) + 1 := Nat.lt_floor_add_one p
  have hi : i ≤ l.length - 1 := by
    have : (i : K) ≤ ((l.length - 1 : ℕ) : K) := _root_.le_trans hi1 hp1
    exact_mod_cast this
  have hq : quantile l q = l.getD i 0 + (p - (i : K)) * (l.getD (i + 1) 0 - l.getD i 0) := rfl
  have hw : 0 ≤ p - (i : K) := sub_nonneg.2 hi1
  have hw1 : p - (i : K) ≤ 1 := by linarith
  rcases Nat.lt_or_ge (i + 1) l.length with h | h
  · have hmono : l.getD i 0 ≤ l.getD (i + 1) 0 := by
      rw [getD_at _ _ (by omega), getD_at _ _ h]
      exact List.pairwise_iff_getElem.1 hs i (i + 1) (by omega) h (by omega)
    refine ⟨by omega, Or.inl h, ?_, fun _ => ?_⟩
    · rw [hq]
      have := mul_nonneg hw (sub_nonneg.2 hmono)
      linarith
    · rw [hq]
      have := mul_le_mul_of_nonneg_right hw1 (sub_nonneg.2 hmono)
      linarith
  · have hie : i = l.length - 1 := by omega
    have hpe : p = (i : K) := by
      rw [← hie] at hp1
      exact _root_.le_antisymm hp1 hi1
    have : quantile l q = l.getD i 0 := by rw [hq, hpe]; ring
    exact ⟨by omega, Or.inr this, this.ge, fun hh => absurd hh (by omega)⟩

theorem getD_mono (l : List K) (hs : l.Pairwise (· ≤ ·)) (i j : ℕ) (hij : i ≤ j) (hj : j < l.length) : l.getD i 0 ≤ l.getD j 0 := by
  rcases Nat.lt_or_ge i j with h | h
  · rw [getD_at _ _ (by omega), getD_at _ _ hj]
    exact List.pairwise_iff_getElem.1 hs i j (by omega) hj h
  · rw [Nat.le_antisymm hij h]

theorem quantile_mono (l : List K) (hs : l.Pairwise (· ≤ ·)) (hl : l ≠ []) (q r : K) (h0 : 0 ≤ q) (hqr : q ≤ r) (h1 : r ≤ 1) :
    quantile l q ≤ quantile l r := by
  obtain ⟨a1, a2, a3, a4⟩ := quantile_between l hs q h0 (_root_.le_trans hqr h1) hl
  obtain ⟨b1, b2, b3, b4⟩ := quantile_between l hs r (_root_.le_trans h0 hqr) h1 hl
  have hpr : q * ((l.length - 1 : ℕ) : K) ≤ r * ((l.length - 1 : ℕ) : K) :=
    mul_le_mul_of_nonneg_right hqr (Nat.cast_nonneg _)
  have hij := Nat.floor_le_floor hpr
  rcases Nat.lt_or_ge ⌊q * ((l.length - 1 : ℕ) : K)⌋₊ ⌊r * ((l.length - 1 : ℕ) : K)⌋₊ with h | h
  · exact _root_.le_trans (a4 (by omega)) (_root_.le_trans (getD_mono l hs _ _ h b1) b3)
  · have he := Nat.le_antisymm hij h
    rcases Nat.lt_or_ge (⌊q * ((l.length - 1 : ℕ) : K)⌋₊ + 1) l.length with h | h
    · have hmono := getD_mono l hs _ _ (Nat.le_succ ⌊q * ((l.length - 1 : ℕ) : K)⌋₊) h
      unfold quantile
      simp only
      rw [← he]
      have := mul_le_mul_of_nonneg_right hpr (sub_nonneg.2 hmono)
      nlinarith
    · rcases a2 with a2 | a2
      · omega
      · rcases b2 with b2 | b2
        · omega
        · rw [a2, b2, he]

theorem quantile_ends (l : List K) (hl : l ≠ []) : quantile l 0 = l.getD 0 0 ∧ quantile l 1 = l.getD (l.length - 1) 0 := by
  unfold quantile
  constructor
  · simp
  · simp

theorem linspace_props (n : ℕ) (hn : 2 ≤ n) : (linspace n : List K).Pairwise (· ≤ ·) ∧ (∀ q ∈ (linspace n : List K), 0 ≤ q ∧ q ≤ 1) ∧
    (linspace n : List K).head? = some 0 ∧ (linspace n : List K).getLast? = some 1 := by
  have hpos : (0 : K) < ((n - 1 : ℕ) : K) := by
    have : 0 < n - 1 := by omega
    exact_mod_cast this
  unfold linspace
  refine ⟨?_, ?_, ?_, ?_⟩
  · rw [List.pairwise_map]
    refine List.pairwise_lt_range.imp ?_
    intro i j hij
    have : (i : K) ≤ (j : K) := by exact_mod_cast hij.le
    exact div_le_div_of_nonneg_right this hpos.le
  · intro q hq
    obtain ⟨k, hk, rfl⟩ := List.mem_map.1 hq
    rw [List.mem_range] at hk
    refine ⟨div_nonneg (Nat.cast_nonneg _) hpos.le, ?_⟩
    rw [div_le_one hpos]
    have : k ≤ n - 1 := by omega
    exact_mod_cast this
  · obtain ⟨m, rfl⟩ : ∃ m, n = m + 1 := ⟨n - 1, by omega⟩
    rw [List.range_succ_eq_map]
    simp
  · obtain ⟨m, rfl⟩ : ∃ m, n = m + 1 := ⟨n - 1, by omega⟩
    rw [List.range_succ]
    have : (m : K) ≠ 0 := by simpa using hpos.ne'
    simp [this]

theorem sort_ends (values : List K) (hv : values ≠ []) :
    (values.insertionSort fun a b => a ≤ b) ≠ [] ∧ (values.insertionSort fun a b => a ≤ b).Pairwise (· ≤ ·) ∧
    (∀ x ∈ values, (values.insertionSort fun a b => a ≤ b).getD 0 0 ≤ x ∧
      x ≤ (values.insertionSort fun a b => a ≤ b).getD ((values.insertionSort fun a b => a ≤ b).length - 1) 0) ∧
    (values.insertionSort fun a b => a ≤ b).getD ((values.insertionSort fun a b => a ≤ b).length - 1) 0 ∈ values ∧
    (values.insertionSort fun a b => a ≤ b).getD 0 0 ∈ values := by
  have hperm := List.perm_insertionSort (fun a b : K => a ≤ b) values
  have hs := List.pairwise_insertionSort (fun a b : K => a ≤ b) values
  set s := values.insertionSort fun a b => a ≤ b
  have hne : s ≠ [] := by
    intro h
    rw [h] at hperm
    exact hv (List.nil_perm.1 hperm)
  have hlen : 0 < s.length := List.length_pos_iff.2 hne
  refine ⟨hne, hs, ?_, ?_, ?_⟩
  · intro x hx
    obtain ⟨i, hi⟩ := List.mem_iff_getElem?.1 (hperm.mem_iff.2 hx)
    obtain ⟨h1, rfl⟩ := List.getElem?_eq_some_iff.1 hi
    rw [← getD_at s 0 h1]
    exact ⟨getD_mono s hs 0 i (Nat.zero_le _) h1, getD_mono s hs i _ (by omega) (by omega)⟩
  · rw [getD_at _ _ (by omega)]
    exact hperm.mem_iff.1 (List.getElem_mem _)
  · rw [getD_at _ _ hlen]
    exact hperm.mem_iff.1 (List.getElem_mem _)

/-- Quantiles: `n` asked for gives `n - 1` bands; they exclude each other; a cell is in a band exactly when its value is not the
greatest one. -/
theorem c82_quantiles (cells : List (Cell K)) (k : Kind) (n : ℕ) (hn : 2 ≤ n) (hne : cells.filterMap (·.value k) ≠ []) :
    (quantileBands (cells.filterMap (·.value k)) n).length = n - 1 ∧
    Exclusive cells (bandClasses k (quantileBands (cells.filterMap (·.value k)) n)) ∧
    ∀ c ∈ cells, ∀ x, c.value k = some x →
      ((∃ cl ∈ bandClasses k (quantileBands (cells.filterMap (·.value k)) n), Inside c cl) ↔
        ∃ c' ∈ cells, ∃ y, c'.value k = some y ∧ x < y) := by
  set values := cells.filterMap (·.value k) with hval
  obtain ⟨s1, s2, s3, s4, -⟩ := sort_ends values hne
  set s := values.insertionSort fun a b => a ≤ b
  obtain ⟨l1, l2, l3, l4⟩ := linspace_props (K := K) n hn
  have hbounds : ((linspace n).map (quantile s)).Pairwise (· ≤ ·) := by
    rw [List.pairwise_map]
    have : (linspace n : List K).Pairwise fun a b => (0 ≤ a ∧ a ≤ 1) ∧ (0 ≤ b ∧ b ≤ 1) ∧ a ≤ b := by
      rw [List.pairwise_iff_getElem] at l1 ⊢
      intro i j hi hj hij
      exact ⟨l2 _ (List.getElem_mem hi), l2 _ (List.getElem_mem hj), l1 i j hi hj hij⟩
    exact this.imp fun h => quantile_mono s s2 s1 _ _ h.1.1 h.2.2 h.2.1.2
  obtain ⟨e0, e1⟩ := quantile_ends s s1
  refine ⟨?_, bands_exclusive cells k _ hbounds, ?_⟩
  · unfold quantileBands
    rw [pairs_length]
    simp [linspace]
  · intro c hc x hx
    have hxm : x ∈ values := List.mem_filterMap.2 ⟨c, hc, hx⟩
    constructor
    · rintro ⟨cl, hcl, hin⟩
      obtain ⟨p, hp, rfl⟩ := List.mem_map.1 hcl
      obtain ⟨y, hy, h1, h2⟩ := (inside_band c k _ _).1 hin
      rw [hx] at hy
      cases hy
      have hpm := (pairs_mem _ p hp).2
      obtain ⟨q, hq, e⟩ := List.mem_map.1 hpm
      have hle : p.2 ≤ quantile s 1 := by
        rw [← e]
        exact quantile_mono s s2 s1 _ _ (l2 q hq).1 (l2 q hq).2 le_rfl
      rw [e1] at hle
      obtain ⟨c', hc', hy'⟩ := List.mem_filterMap.1 s4
      exact ⟨c', hc', _, hy', _root_.lt_of_lt_of_le h2 hle⟩
    · rintro ⟨c', hc', y, hy, hlt⟩
      have hym : y ∈ values := List.mem_filterMap.2 ⟨c', hc', hy⟩
      obtain ⟨p, hp, h1, h2⟩ := pairs_cover x ((linspace n).map (quantile s)) (quantile s 0) (quantile s 1)
        (by rw [List.head?_map, l3]; rfl) (by rw [List.getLast?_map, l4]; rfl)
        (by rw [e0]; exact (s3 x hxm).1) (by rw [e1]; exact _root_.lt_of_lt_of_le hlt (s3 y hym).2)
      exact ⟨_, List.mem_map.2 ⟨p, hp, rfl⟩, (inside_band c k _ _).2 ⟨x, hx, h1, h2⟩⟩

/-- The highest cells of a catchment discretised by quantiles of the elevation are in no unit, whatever the catchment and the number
of bands. -/
theorem c82_summit_lost (cells : List (Cell K)) (n : ℕ) (hn : 2 ≤ n) (i : ℕ) (c : Cell K) (x : K) (hi : cells[i]? = some c)
    (hx : c.dem = some x) (htop : ∀ c' ∈ cells, ∀ y, c'.dem = some y → y ≤ x) :
    ∃ ids kept, discretize cells [bandClasses .elevation (quantileBands (cells.filterMap (·.dem)) n)] = .ok (ids, kept) ∧
      ids[i]? = some 0 := by
  have hcm := List.mem_of_getElem? hi
  have hne : cells.filterMap (·.value .elevation) ≠ [] := List.ne_nil_of_mem (List.mem_filterMap.2 ⟨c, hcm, hx⟩)
  obtain ⟨-, h2, h3⟩ := c82_quantiles cells .elevation n hn hne
  obtain ⟨ids, kept, h4, -, -, -, h5⟩ := c82_units cells [bandClasses .elevation (quantileBands (cells.filterMap (·.dem)) n)] (by
    intro classes hc
    rw [List.mem_singleton] at hc
    rw [hc]
    exact h2)
  refine ⟨ids, kept, h4, (h5 i c hi).2.1 ?_⟩
  intro hcov
  obtain ⟨c', hc', y, hy, hlt⟩ := (h3 c hcm x hx).1 (hcov.2 _ (List.mem_singleton.2 rfl))
  exact absurd hlt (not_lt.2 (htop c' hc' y hy))

/-- From 65536 units on the numbers of the map wrap around: the cells of unit 65536 are outside of the catchment for the map. -/
theorem c82_too_many (cells : List (Cell K)) (criteria : List (List (Class K))) (hx : ∀ classes ∈ criteria, Exclusive cells classes)
    (ids : List ℕ) (kept : List (List (Class K))) (h : discretize cells criteria = .ok (ids, kept)) (combo : List (Class K))
    (hk : kept[65535]? = some combo) (i : ℕ) (c : Cell K) (hi : cells[i]? = some c) (hin : InCombo combo c) : ids[i]? = some 0 := by
  obtain ⟨ids', kept', h', -, -, -, h5⟩ := c82_units cells criteria hx
  rw [h] at h'
  cases h'
  exact (h5 i c hi).1 65535 combo hk hin

end

/-! ## Examples -/

/-- Six cells: one outside, one flat (aspect -1). -/
def demoCells : List (Cell ℚ) :=
  [⟨some 1010, some 5, some 350, none, 1⟩, ⟨some 1099, some 5, some 10, none, 1⟩, ⟨some 1100, some 5, some 180, none, 1⟩,
   ⟨none, none, none, none, 0⟩, ⟨some 1250, some 5, some (-1), none, 2⟩, ⟨some 1310, some 5, some 200, none, 2⟩]

/-- Elevation bands of 100 m: four bands with cells. -/
theorem c82_demo : equalBands (demoCells.filterMap (·.dem)) 100 none none =
      some [(1000, 1100), (1100, 1200), (1200, 1300), (1300, 1400)] ∧
    ((discretize demoCells [bandClasses .elevation [(1000, 1100), (1100, 1200), (1200, 1300), (1300, 1400)]]).toOption.map Prod.fst) =
      some [1, 1, 2, 0, 3, 4] := by
  constructor <;> decide +kernel

/-- With the aspect: the flat cell has no unit. -/
theorem c82_demo_aspect :
    (discretize demoCells [bandClasses .elevation [(1000, 1100), (1100, 1200), (1200, 1300), (1300, 1400)], aspectClasses]).toOption =
      some ([1, 1, 2, 0, 0, 3], [[.band .elevation 1000 1100, .aspect .n], [.band .elevation 1100 1200, .aspect .s],
        [.band .elevation 1300 1400, .aspect .s]]) := by
  decide +kernel

/-- Quantiles: three bounds asked for, two bands, the summit (1310 m) is lost. -/
theorem c82_demo_quantiles : quantileBands (demoCells.filterMap (·.dem)) 3 = [(1010, 1100), (1100, 1310)] ∧
    ((discretize demoCells [bandClasses .elevation (quantileBands (demoCells.filterMap (·.dem)) 3)]).toOption.map Prod.fst) =
      some [1, 1, 2, 0, 2, 0] := by
  constructor <;> decide +kernel

/-- Given bounds: what is above is lost without a message. -/
theorem c82_demo_bounds : equalBands (demoCells.filterMap (·.dem)) 100 (some 1000) (some 1200) = some [(1000, 1100), (1100, 1200)] ∧
    ((discretize demoCells [bandClasses .elevation [(1000, 1100), (1100, 1200)]]).toOption.map Prod.fst) = some [1, 1, 2, 0, 0, 0] := by
  constructor <;> decide +kernel

end HB.Discretize
