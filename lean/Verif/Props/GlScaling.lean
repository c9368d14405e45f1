import Verif.Model.GlScalingLemmas
import Verif.Props.Glacier
import Mathlib.Algebra.Order.Field.Rat
import Mathlib.Data.Rat.Floor

/-!
# C80: the look-up tables of the area-scaling method
-/

namespace HB.GlScaling

open HB.Spec.GlScaling

set_option linter.unusedSectionVars false

section
variable {K : Type} [Field K] [LinearOrder K] [IsStrictOrderedRing K]

theorem thicknesses_eq (cells : List (Cell K)) (u : ℤ) : thicknesses cells u = ice cells u := by
  unfold thicknesses ice
  induction cells with
  | nil => rfl
  | cons c cells ih =>
    obtain ⟨v, x⟩ := c
    by_cases hv : v = u
    · rw [List.filter_cons_of_pos (by simpa using hv)]
      rcases x with _ | x
      · rw [List.filter_cons_of_neg (by simp [hasIce]), ih, List.filterMap_cons_none (by simp)]
      · by_cases hx : 0 < x
        · rw [List.filter_cons_of_pos (by simpa [hasIce] using hx), List.map_cons, ih,
            List.filterMap_cons_some (b := x) (by simp [hv, hx])]
          rfl
        · rw [List.filter_cons_of_neg (by simpa [hasIce] using hx), ih, List.filterMap_cons_none (by simp [hx])]
    · rw [List.filter_cons_of_neg (by simpa using hv), ih, List.filterMap_cons_none (by simp [hv])]

theorem patch_eq (cells : List (Cell K)) (u : ℤ) : patch cells u = (ice cells u).length := by
  rw [← thicknesses_eq]
  unfold patch thicknesses
  rw [List.length_map, List.filter_filter, List.filter_filter]
  congr 1
  exact List.filter_congr fun c _ => Bool.and_comm _ _

theorem ice_pos (cells : List (Cell K)) (u : ℤ) : ∀ x ∈ ice cells u, 0 < x := by
  intro x hx
  unfold ice at hx
  rw [List.mem_filterMap] at hx
  obtain ⟨c, -, hc⟩ := hx
  split at hc
  · rw [Option.bind_eq_some_iff] at hc
    obtain ⟨y, -, hy⟩ := hc
    split at hy
    · next h => cases hy; exact h
    · cases hy
  · cases hc

theorem sum_pos_of {xs : List K} (h : ∀ x ∈ xs, 0 < x) (hne : xs ≠ []) : 0 < xs.sum := by
  induction xs with
  | nil => exact absurd rfl hne
  | cons x xs ih =>
    rw [List.sum_cons]
    have h1 := h x List.mem_cons_self
    rcases xs with _ | ⟨y, ys⟩
    · simpa using h1
    · have := ih (fun z hz => h z (List.mem_cons_of_mem _ hz)) (by simp)
      linarith

theorem sum_scale (c : K) (xs : List K) : (xs.map fun x => x * c).sum = xs.sum * c := by
  induction xs with
  | nil => simp
  | cons x xs ih => simp only [List.map_cons, List.sum_cons, ih]; ring

theorem start_px (iceWe cell catchment : K) (cells : List (Cell K)) (u : ℤ) :
    (start iceWe cell catchment cells u).px = (ice cells u).map fun x => x * (iceWe * 1000) := by
  change (thicknesses cells u).map _ = _
  rw [thicknesses_eq]
  exact List.map_congr_left fun x _ => mul_assoc _ _ _

theorem left_zero {xs : List K} (h : ∀ x ∈ xs, 0 < x) : left xs 0 = xs := by
  unfold left
  rw [List.filter_eq_self.2 fun x hx => by simpa using h x hx]
  simp

theorem start_good {iceWe cell catchment : K} (hi : 0 < iceWe) {cells : List (Cell K)} {u : ℤ} (hu : ice cells u ≠ []) :
    Good cell catchment ((ice cells u).map fun x => x * (iceWe * 1000)) 0 (start iceWe cell catchment cells u) := by
  have hx : ∀ x ∈ (ice cells u).map fun x => x * (iceWe * 1000), 0 < x := by
    intro x hx
    obtain ⟨y, hy, rfl⟩ := List.mem_map.1 hx
    exact mul_pos (ice_pos cells u y hy) (by positivity)
  refine ⟨?_, ?_, ?_⟩
  · rw [left_zero hx, start_px]
  · rw [start_px, List.length_map]
    change ((patch cells u : ℕ) : K) * cell / catchment = _
    rw [patch_eq]
  · rw [start_px]
    change (if _ then _ else _) * iceWe * 1000 = _
    rw [thicknesses_eq, if_pos (List.length_pos_iff.2 hu), mean, mean, sum_scale, List.length_map]
    ring

theorem massChange_eq {iceWe cell catchment : K} (hi : 0 < iceWe) {cells : List (Cell K)} {u : ℤ} (hu : ice cells u ≠ []) (n : ℕ) :
    massChange (start iceWe cell catchment cells u) n =
      ((ice cells u).map fun x => x * (iceWe * 1000)).sum / n * cell / catchment := by
  have hg := start_good (cell := cell) (catchment := catchment) hi hu
  unfold massChange
  rw [hg.we, hg.area, start_px, mean, List.length_map]
  have : ((ice cells u).length : K) ≠ 0 := by exact_mod_cast (List.length_pos_iff.2 hu).ne'
  generalize ((ice cells u).map fun x => x * (iceWe * 1000)).sum = S
  field_simp

theorem left_scaled (xs : List K) {c : K} (hc : 0 < c) (t : K) :
    (left (xs.map fun x => x * c) t).length = cellsLeft xs (t / c) ∧
    (left (xs.map fun x => x * c) t).sum = thicknessLeft xs (t / c) * c := by
  constructor
  · unfold left cellsLeft
    rw [List.length_map, List.filter_map, List.length_map]
    congr 1
    refine List.filter_congr fun x _ => ?_
    simp only [Function.comp, decide_eq_decide]
    rw [div_lt_iff₀ hc]
  · rw [left_sum, thicknessLeft, List.map_map, ← sum_scale, List.map_map]
    congr 1
    refine List.map_congr_left fun x _ => ?_
    simp only [Function.comp]
    rw [max_mul_of_nonneg _ _ hc.le, zero_mul, sub_mul, div_mul_cancel₀ _ hc.ne']

variable {iceWe cell catchment : K} {cells : List (Cell K)} {n : ℕ} {u : ℤ}

/-- **C80**: for every unit with ice the tables exist: the loop that shares out the melt ends, no assertion fails.  Row `k` is the
glacier of the unit with one and the same thickness `t` of ice taken off all its cells: its area is the one of the cells that
still have ice, its volume is what is left on them, and that volume is the initial one less `k` `n`-ths. -/
theorem c80_table (hi : 0 < iceWe) (hc : 0 < cell) (hA : 0 < catchment) (hu : ice cells u ≠ []) {k : ℕ} (hk : k < n) :
    ∃ r t, tableRow iceWe cell catchment cells n u k = some r ∧ 0 ≤ t ∧
      r.tabArea catchment = (cellsLeft (ice cells u) t : K) * cell ∧
      r.tabVolume iceWe catchment = thicknessLeft (ice cells u) t * cell ∧
      r.tabVolume iceWe catchment = (ice cells u).sum * cell * (1 - k / n) ∧ 0 < cellsLeft (ice cells u) t := by
  have hg := start_good (cell := cell) (catchment := catchment) hi hu
  have hcc : 0 < iceWe * 1000 := by positivity
  have hs : 0 < ((ice cells u).map fun x => x * (iceWe * 1000)).sum := by
    rw [sum_scale]
    exact mul_pos (sum_pos_of (ice_pos cells u) hu) hcc
  have hn : 0 < n := by omega
  have hn' : (0 : K) < n := by exact_mod_cast hn
  obtain ⟨r, t, hr, ht, hgr, hsr⟩ := rows_ok hc hA hg hs (by rw [start_px]) hn k hk
  obtain ⟨hl, hsl⟩ := left_scaled (ice cells u) hcc t
  have hk1 : (0 : K) < 1 - k / n := by
    rw [sub_pos, div_lt_one hn']
    exact_mod_cast hk
  have hpos : 0 < r.px.length := by
    rw [Nat.pos_iff_ne_zero]
    intro h0
    rw [List.length_eq_zero_iff] at h0
    rw [h0, List.sum_nil] at hsr
    exact (mul_pos hs hk1).ne hsr
  have hlen : (r.px.length : K) ≠ 0 := by exact_mod_cast hpos.ne'
  have hvol : r.tabVolume iceWe catchment = r.px.sum / (iceWe * 1000) * cell := by
    unfold Row.tabVolume
    rw [hgr.we, hgr.area, mean]
    have := hA.ne'
    have := hcc.ne'
    have := hi.ne'
    field_simp
  refine ⟨r, t / (iceWe * 1000), ?_, div_nonneg ht hcc.le, ?_, ?_, ?_, ?_⟩
  · unfold tableRow
    simp only
    rw [if_pos hk, massChange_eq hi hu n]
    exact hr
  · unfold Row.tabArea
    rw [hgr.area, hgr.px, hl, div_mul_cancel₀ _ hA.ne']
  · rw [hvol, hgr.px, hsl, mul_div_cancel_right₀ _ hcc.ne']
  · rw [hvol, hsr, sum_scale]
    have := hcc.ne'
    field_simp
  · rw [← hl, ← hgr.px]; exact hpos

/-- The volume determines the thickness taken off: there is only one such table. -/
theorem c80_unique (xs : List K) (t t' : K) (h : thicknessLeft xs t = thicknessLeft xs t') (hp : 0 < thicknessLeft xs t) :
    t = t' := by
  have key : ∀ (a b : K), a < b → 0 < thicknessLeft xs a → thicknessLeft xs b < thicknessLeft xs a := by
    intro a b hab hpos
    unfold thicknessLeft at *
    clear h hp
    have hle : ∀ ys : List K, (ys.map fun x => max (x - b) 0).sum ≤ (ys.map fun x => max (x - a) 0).sum := by
      intro ys
      induction ys with
      | nil => simp
      | cons y ys ih =>
        simp only [List.map_cons, List.sum_cons]
        exact add_le_add (max_le_max (by linarith) (_root_.le_refl _)) ih
    induction xs with
    | nil => simp at hpos
    | cons x xs ih =>
      simp only [List.map_cons, List.sum_cons] at hpos ⊢
      by_cases hx : a < x
      · refine add_lt_add_of_lt_of_le ?_ (hle xs)
        rw [max_eq_left (show 0 ≤ x - a by linarith)]
        exact max_lt (by linarith) (by linarith)
      · rw [max_eq_right (show x - a ≤ 0 by linarith [not_lt.1 hx]), zero_add] at hpos ⊢
        rw [max_eq_right (show x - b ≤ 0 by linarith [not_lt.1 hx]), zero_add]
        exact ih hpos
  rcases lt_trichotomy t t' with hlt | heq | hlt
  · exact absurd h (key t t' hlt hp).ne'
  · exact heq
  · exact absurd h (key t' t hlt (h ▸ hp)).ne

/-- Row 0 is the glacier of the map; the rows from `n` on are empty. -/
theorem c80_ends (hA : 0 < catchment) (hi : 0 < iceWe) (hu : ice cells u ≠ []) :
    (0 < n → ∃ r, tableRow iceWe cell catchment cells n u 0 = some r ∧
      r.tabArea catchment = ((ice cells u).length : K) * cell ∧ r.tabVolume iceWe catchment = (ice cells u).sum * cell) ∧
    ∀ k, n ≤ k → ∃ r, tableRow iceWe cell catchment cells n u k = some r ∧ r.tabArea catchment = 0 ∧
      r.tabVolume iceWe catchment = 0 := by
  constructor
  · intro hn
    have hg := start_good (cell := cell) (catchment := catchment) hi hu
    refine ⟨start iceWe cell catchment cells u, ?_, ?_, ?_⟩
    · unfold tableRow; simp only; rw [if_pos hn]; rfl
    · unfold Row.tabArea
      rw [hg.area, start_px, List.length_map, div_mul_cancel₀ _ hA.ne']
    · unfold Row.tabVolume
      rw [hg.we, hg.area, start_px, mean, List.length_map, sum_scale]
      have : ((ice cells u).length : K) ≠ 0 := by exact_mod_cast (List.length_pos_iff.2 hu).ne'
      have := hA.ne'
      have := hi.ne'
      field_simp
  · intro k hk
    refine ⟨⟨[], 0, 0⟩, ?_, by simp [Row.tabArea], by simp [Row.tabVolume]⟩
    unfold tableRow; simp only; rw [if_neg (not_lt.2 hk)]

/-- The areas never grow along the table. -/
theorem c80_retreat (hi : 0 < iceWe) (hc : 0 < cell) (hA : 0 < catchment) (hu : ice cells u ≠ []) {k : ℕ} {r r' : Row K}
    (h : tableRow iceWe cell catchment cells n u k = some r) (h' : tableRow iceWe cell catchment cells n u (k + 1) = some r') :
    r'.tabArea catchment ≤ r.tabArea catchment ∧ 0 ≤ r'.tabArea catchment := by
  by_cases hk : k < n
  · obtain ⟨r0, t, hr0, -, ha, -⟩ := c80_table (n := n) hi hc hA hu hk
    rw [hr0] at h; cases h
    have h0 : 0 ≤ r.tabArea catchment := by rw [ha]; positivity
    by_cases hk' : k + 1 < n
    · obtain ⟨r1, t1, hr1, -, ha1, -⟩ := c80_table (n := n) hi hc hA hu hk'
      rw [hr1] at h'; cases h'
      refine ⟨?_, by rw [ha1]; positivity⟩
      have hg := start_good (cell := cell) (catchment := catchment) hi hu
      have hs : 0 < ((ice cells u).map fun x => x * (iceWe * 1000)).sum := by
        rw [sum_scale]
        exact mul_pos (sum_pos_of (ice_pos cells u) hu) (by positivity)
      unfold tableRow at hr0 hr1
      simp only at hr0 hr1
      rw [if_pos hk, massChange_eq hi hu n] at hr0
      rw [if_pos hk', massChange_eq hi hu n] at hr1
      obtain ⟨r2, hr2, hlen⟩ := rows_step hc hA hg hs (by rw [start_px]) (by omega) k hk' r hr0
      rw [hr1] at hr2; cases hr2
      obtain ⟨ra, ta, hra, -, hga, -⟩ := rows_ok hc hA hg hs (by rw [start_px]) (by omega) k hk
      rw [hr0] at hra; cases hra
      obtain ⟨rb, tb, hrb, -, hgb, -⟩ := rows_ok hc hA hg hs (by rw [start_px]) (by omega) (k + 1) hk'
      rw [hr1] at hrb; cases hrb
      unfold Row.tabArea
      rw [hga.area, hgb.area, div_mul_cancel₀ _ hA.ne', div_mul_cancel₀ _ hA.ne']
      exact mul_le_mul_of_nonneg_right (by exact_mod_cast hlen) hc.le
    · obtain ⟨r1, hr1, ha1, -⟩ := (c80_ends (cell := cell) (n := n) hA hi hu).2 (k + 1) (by omega)
      rw [hr1] at h'; cases h'
      rw [ha1]
      exact ⟨h0, _root_.le_refl _⟩
  · obtain ⟨r0, hr0, ha, -⟩ := (c80_ends (cell := cell) (n := n) hA hi hu).2 k (by omega)
    obtain ⟨r1, hr1, ha1, -⟩ := (c80_ends (cell := cell) (n := n) hA hi hu).2 (k + 1) (by omega)
    rw [hr0] at h; cases h
    rw [hr1] at h'; cases h'
    rw [ha, ha1]
    exact ⟨_root_.le_refl _, _root_.le_refl _⟩

omit [IsStrictOrderedRing K] in
/-- The columns are the units that have ice, once each, in order. -/
theorem c80_units (cells : List (Cell K)) : (unitIds cells).Pairwise (· < ·) ∧
    ∀ v : ℤ, v ∈ unitIds cells ↔ v ≠ 0 ∧ ∃ x, (v, some x) ∈ cells ∧ 0 < x := by
  constructor
  · unfold unitIds
    have hs := List.pairwise_insertionSort (fun a b : ℤ => a ≤ b) ((cells.filter hasIce).map Prod.fst).dedup
    have hn : (((cells.filter hasIce).map Prod.fst).dedup.insertionSort fun a b => a ≤ b).Nodup :=
      (List.perm_insertionSort _ _).nodup_iff.2 (List.nodup_dedup _)
    refine List.Pairwise.filter _ ?_
    exact (hs.and hn).imp fun h => lt_of_le_of_ne h.1 h.2
  · intro v
    unfold unitIds
    rw [List.mem_filter, List.mem_insertionSort, List.mem_dedup, List.mem_map]
    constructor
    · rintro ⟨⟨⟨a, o⟩, hm, rfl⟩, hv⟩
      rw [List.mem_filter] at hm
      refine ⟨by simpa using hv, ?_⟩
      rcases o with _ | x
      · simp [hasIce] at hm
      · exact ⟨x, hm.1, by simpa [hasIce] using hm.2⟩
    · rintro ⟨hv, x, hm, hx⟩
      exact ⟨⟨(v, some x), List.mem_filter.2 ⟨hm, by simpa [hasIce] using hx⟩, rfl⟩, by simpa using hv⟩

end

section
variable {K : Type} [Field K] [LinearOrder K] [IsStrictOrderedRing K] [FloorSemiring K]

/-- **C80 with C38**: what the model does with the table.  A unit whose table is the computed one, with some ice left, never meets
an empty row nor leaves the table; the extent it takes is the one of the mapped glacier with a uniform layer taken off, the
volume of which is the volume of ice of the unit to within one increment; the ice is conserved. -/
theorem c80_action {iceWe cell catchment : K} {cells : List (Cell K)} {n : ℕ} {u : ℤ} (hi : 0 < iceWe) (hc : 0 < cell)
    (hA : 0 < catchment) (hu : ice cells u ≠ []) (hn : 0 < n) (g : GlUnit K) (c : String) (density : K) (hd : 0 < density)
    (htab : ∀ k < n, ∀ r, tableRow iceWe cell catchment cells n u k = some r → g.tabArea k = r.tabArea catchment)
    (hw : 0 < Spec.iceVolume c g.area g.hu) :
    let w := Spec.iceVolume c g.area g.hu
    let w0 := (ice cells u).sum * cell * density
    g.areaScaling c (n + 1) w0 ≠ .error .divZero ∧ g.areaScaling c (n + 1) w0 ≠ .error .outOfTable ∧
    (g.hu.generic ≠ some c → 0 < g.area → 0 ≤ g.hu.frac c ∧ g.hu.frac c ≤ 1 →
      (∀ r < n + 1, Spec.CleanFraction (g.tabArea r / g.area)) → c ∈ g.hu.covers → prec < g.hu.frac c → prec < w → w ≤ w0 →
      ∀ v, g.areaScaling c (n + 1) w0 = .ok v → ∃ t, 0 ≤ t ∧ v.frac c * g.area = (cellsLeft (ice cells u) t : K) * cell ∧
        Spec.iceVolume c g.area v = w ∧ w ≤ thicknessLeft (ice cells u) t * cell * density ∧
        thicknessLeft (ice cells u) t * cell * density < w + w0 / n) := by
  intro w w0
  have hn' : (0 : K) < n := by exact_mod_cast hn
  have hw0 : 0 < w0 := mul_pos (mul_pos (sum_pos_of (ice_pos cells u) hu) hc) hd
  have hrow : glRow (n + 1) w0 w < n := by
    have := (c38_row_bounds (n + 1) (by omega) w0 w hw0 hw.le).2.1 hw
    omega
  obtain ⟨r, t, hr, ht, ha, hv, hv', hpos⟩ := c80_table (n := n) hi hc hA hu hrow
  have htr : g.tabArea (glRow (n + 1) w0 w) = (cellsLeft (ice cells u) t : K) * cell := by rw [htab _ hrow r hr, ha]
  have hne : g.tabArea (glRow (n + 1) w0 w) ≠ 0 := by
    rw [htr]
    exact mul_ne_zero (by exact_mod_cast hpos.ne') hc.ne'
  have hres : ∀ x, g.resize c x ≠ .error .divZero ∧ g.resize c x ≠ .error .outOfTable := by
    intro x
    unfold GlUnit.resize
    constructor <;> (split <;> [skip; split] <;> (intro h; cases h))
  have hset : ∀ (h : HU K) x, h.setIce c x ≠ .error .divZero ∧ h.setIce c x ≠ .error .outOfTable := by
    intro h x
    unfold HU.setIce
    constructor <;> (split <;> (intro h; cases h))
  have hE : ∀ e, e = .divZero ∨ e = .outOfTable → g.areaScaling c (n + 1) w0 ≠ .error e := by
    intro e he
    unfold GlUnit.areaScaling
    split
    · intro h; cases h
    · simp only
      split
      · intro h; cases h
      · change (if glRow (n + 1) w0 w < n + 1 then _ else _) ≠ _
        rw [if_pos (by omega)]
        have h1 := hres (g.tabArea (glRow (n + 1) w0 w))
        change ((match g.resize c (g.tabArea (glRow (n + 1) w0 w)) with
          | .error e => .error e
          | .ok h => if g.tabArea (glRow (n + 1) w0 w) = 0 then .error .divZero else
            h.setIce c (w / g.tabArea (glRow (n + 1) w0 w))) : Except GlErr (HU K)) ≠ _
        rcases hq : g.resize c (g.tabArea (glRow (n + 1) w0 w)) with e' | h'
        · rw [hq] at h1
          rcases he with rfl | rfl
          · exact h1.1
          · exact h1.2
        · simp only
          rw [if_neg hne]
          rcases he with rfl | rfl
          · exact (hset _ _).1
          · exact (hset _ _).2
  refine ⟨hE _ (Or.inl rfl), hE _ (Or.inr rfl), ?_⟩
  intro hg ha' hf hcl hcov hfr hpw hww v hok
  have h38 := (c38_area_scaling hg ha' hf hcl hok).1 hcov hfr (by rw [abs_of_pos hw]; exact hpw)
  refine ⟨t, ht, by rw [h38.1, htr], h38.2, ?_, ?_⟩
  all_goals
    have hfl : max 0 ((w0 - w) / w0) * (((n + 1 : ℕ) : K) - 1) = (1 - w / w0) * n := by
      rw [max_eq_right (div_nonneg (by linarith) hw0.le), sub_div, div_self hw0.ne']
      push_cast
      ring
    have h0 : 0 ≤ (1 - w / w0) * (n : K) := mul_nonneg (by rw [sub_nonneg, div_le_one hw0]; exact hww) hn'.le
    have hge := Nat.floor_le h0
    have hlt := Nat.lt_floor_add_one ((1 - w / w0) * (n : K))
    rw [← hfl, ← glRow_eq (n + 1) (by omega) w0 w, hfl] at hge hlt
    rw [← hv, hv']
    generalize glRow (n + 1) w0 w = k at hge hlt
  · have h1 : (k : K) / n ≤ 1 - w / w0 := by rw [div_le_iff₀ hn']; exact hge
    have h2 : w / w0 ≤ 1 - (k : K) / n := by linarith
    rw [div_le_iff₀ hw0] at h2
    calc w ≤ (1 - (k : K) / n) * w0 := h2
      _ = _ := by ring
  · have h1 : 1 - w / w0 < ((k : K) + 1) / n := by rw [lt_div_iff₀ hn']; exact hlt
    have h2 : 1 - (k : K) / n < w / w0 + 1 / n := by rw [add_div] at h1; linarith
    calc (ice cells u).sum * cell * (1 - (k : K) / n) * density = (1 - (k : K) / n) * w0 := by ring
      _ < (w / w0 + 1 / n) * w0 := mul_lt_mul_of_pos_right h2 hw0
      _ = w + w0 / n := by field_simp

end

namespace Demo

/-- Three cells of ice in unit 4, one in unit 2, one outside, one without data, one without ice. -/
def cells : List (Cell ℚ) := [(4, some 1), (0, some 7), (4, some 3), (2, some 5), (4, none), (4, some 8), (4, some 0)]

theorem cells_ice : ice cells 4 = [1, 3, 8] ∧ ice cells 2 = [5] ∧ unitIds cells = [2, 4] := by decide +kernel

/-- Four increments: the thin cells go first; 12 m, then 9, 6 and 3. -/
theorem table : (List.range 6).map (fun k => (tableRow (9 / 10) 100 (10 ^ 6) cells 4 4 k).map fun r =>
    (r.tabArea (10 ^ 6), r.tabVolume (9 / 10) (10 ^ 6))) =
    [some (300, 1200), some (200, 900), some (200, 600), some (100, 300), some (0, 0), some (0, 0)] := by decide +kernel

/-- A unit with that table, and a third of the ice left. -/
def unit : GlUnit ℚ where
  area := 1000
  hu := { covers := ["open", "glacier"]
          frac := fun c => if c = "open" then 7/10 else 3/10
          slot := fun c r => if c = "glacier" ∧ r = .selfIce then some 1200 else if r = .selfWater then some 0 else none }
  tabArea := fun k => if k = 0 then 300 else if k < 3 then 200 else if k < 4 then 100 else 0
  tabVol := fun k => if k = 0 then 1200 else if k = 1 then 900 else if k = 2 then 600 else if k = 3 then 300 else 0

theorem acts : Spec.iceVolume "glacier" unit.area unit.hu = 360000 ∧
    ((unit.areaScaling "glacier" 5 ((ice cells 4).sum * 100 * 900)).toOption.map fun v =>
      (v.frac "glacier", v.depth "glacier" .selfIce)) = some (1 / 5, 1800) ∧
    unit.hu.generic ≠ some "glacier" ∧ (prec : ℚ) < unit.hu.frac "glacier" := by
  refine ⟨?_, ?_, ?_, ?_⟩ <;> decide +kernel

theorem loaded : ∀ k < 4, ∀ r, tableRow (9 / 10) 100 (10 ^ 6) cells 4 4 k = some r → unit.tabArea k = r.tabArea (10 ^ 6) := by
  have h : ∀ k < 4, ((tableRow (9 / 10) 100 (10 ^ 6) cells 4 4 k).map fun r => r.tabArea (10 ^ 6)) = some (unit.tabArea k) := by
    decide +kernel
  intro k hk r hr
  have := h k hk
  rw [hr] at this
  simpa using this.symm

end Demo

end HB.GlScaling
