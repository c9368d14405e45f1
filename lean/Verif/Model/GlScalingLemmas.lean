import Verif.Spec.GlScaling
import Mathlib.Algebra.Order.BigOperators.Group.List
import Mathlib.Algebra.Order.Group.Abs
import Mathlib.Tactic.Linarith
import Mathlib.Tactic.FieldSimp
import Mathlib.Tactic.Ring

/-! # Lemmas for the area-scaling tables -/

namespace HB.GlScaling

set_option linter.unusedSectionVars false

variable {K : Type} [Field K] [LinearOrder K] [IsStrictOrderedRing K]

/-- What is left of the pixels `xs` when `t` is taken off each of them. -/
def left (xs : List K) (t : K) : List K := (xs.filter fun x => decide (t < x)).map fun x => x - t

theorem anyNeg_false {xs : List K} (h : anyNeg xs = false) : ∀ x ∈ xs, 0 ≤ x := by
  intro x hx
  unfold anyNeg at h
  rw [List.any_eq_false] at h
  simpa using h x hx

theorem sum_parts (xs : List K) : (xs.filter fun x => decide (x < 0)).sum + (xs.filter fun x => decide (0 < x)).sum = xs.sum := by
  induction xs with
  | nil => simp
  | cons x xs ih =>
    rcases lt_trichotomy x 0 with h | h | h
    · rw [List.filter_cons_of_pos (by simpa using h), List.filter_cons_of_neg (by simpa using h.le)]
      simp only [List.sum_cons]; linarith
    · subst h
      rw [List.filter_cons_of_neg (by simp), List.filter_cons_of_neg (by simp)]
      simp only [List.sum_cons]; linarith
    · rw [List.filter_cons_of_neg (by simpa using h.le), List.filter_cons_of_pos (by simpa using h)]
      simp only [List.sum_cons]; linarith

theorem neg_sum_nonpos (xs : List K) : (xs.filter fun x => decide (x < 0)).sum ≤ 0 := by
  induction xs with
  | nil => simp
  | cons x xs ih =>
    rw [List.filter_cons]
    split
    · next h => rw [List.sum_cons]; simp only [decide_eq_true_eq] at h; linarith
    · exact ih

theorem sub_sum (m : K) (xs : List K) : (xs.map fun x => if x ≤ 0 then 0 else x - m).sum =
    (xs.filter fun x => decide (0 < x)).sum - ((xs.filter fun x => decide (0 < x)).length : K) * m := by
  induction xs with
  | nil => simp
  | cons x xs ih =>
    rw [List.map_cons, List.sum_cons, ih, List.filter_cons]
    by_cases h : 0 < x
    · rw [if_neg (not_le.2 h), if_pos (by simpa using h)]
      simp only [List.sum_cons, List.length_cons, Nat.cast_add, Nat.cast_one]
      ring
    · rw [if_pos (not_lt.1 h), if_neg (by simpa using h)]
      ring

theorem pos_of_sum {xs : List K} (h : 0 < xs.sum) : 0 < (xs.filter fun x => decide (0 < x)).length := by
  rw [Nat.pos_iff_ne_zero]
  intro h0
  rw [List.length_eq_zero_iff] at h0
  have := sum_parts xs
  rw [h0, List.sum_nil] at this
  have := neg_sum_nonpos xs
  linarith

theorem share_sum {xs : List K} (h : 0 < xs.sum) : (share xs).sum = xs.sum := by
  unfold share
  simp only
  rw [sub_sum]
  have hp : ((xs.filter fun x => decide (0 < x)).length : K) ≠ 0 := by exact_mod_cast (pos_of_sum h).ne'
  rw [mul_div_cancel₀ _ hp]
  have := sum_parts xs
  linarith

/-- Same amount off every pixel, those that are too thin being empty. -/
def Near (xs : List K) (t : K) (ys : List K) : Prop := List.Forall₂ (fun x y => y = x - t ∨ y = 0 ∧ x ≤ t) xs ys

theorem share_near {xs ys : List K} {t : K} (h : Near xs t ys) (hs : 0 < ys.sum) :
    ∃ t', t ≤ t' ∧ Near xs t' (share ys) := by
  refine ⟨t + (-(ys.filter fun x => decide (x < 0)).sum / ((ys.filter fun x => decide (0 < x)).length : K)), ?_, ?_⟩
  · have := neg_sum_nonpos ys
    have : 0 ≤ -(ys.filter fun x => decide (x < 0)).sum / ((ys.filter fun x => decide (0 < x)).length : K) :=
      div_nonneg (by linarith) (Nat.cast_nonneg _)
    linarith
  · have hm : 0 ≤ -(ys.filter fun x => decide (x < 0)).sum / ((ys.filter fun x => decide (0 < x)).length : K) := by
      have := neg_sum_nonpos ys
      exact div_nonneg (by linarith) (Nat.cast_nonneg _)
    unfold share
    simp only
    generalize -(ys.filter fun x => decide (x < 0)).sum / ((ys.filter fun x => decide (0 < x)).length : K) = m at hm ⊢
    unfold Near at *
    rw [List.forall₂_map_right_iff]
    refine List.Forall₂.imp (fun x y hxy => ?_) h
    by_cases hy : y ≤ 0
    · rw [if_pos hy]
      right
      refine ⟨rfl, ?_⟩
      rcases hxy with h | h
      · linarith
      · linarith [h.2]
    · rw [if_neg hy]
      left
      rcases hxy with h | h
      · rw [h]; ring
      · exact absurd h.1.le hy

/-- Positive pixels. -/
def pos (ys : List K) : ℕ := (ys.filter fun x => decide (0 < x)).length

theorem pos_share (m : K) (hm : 0 ≤ m) (ys : List K) :
    pos (ys.map fun x => if x ≤ 0 then 0 else x - m) ≤ pos ys ∧
    (anyNeg (ys.map fun x => if x ≤ 0 then 0 else x - m) = true → pos (ys.map fun x => if x ≤ 0 then 0 else x - m) < pos ys) := by
  induction ys with
  | nil => simp [anyNeg]
  | cons y ys ih =>
    unfold pos anyNeg at *
    rw [List.map_cons]
    by_cases hy : y ≤ 0
    · rw [if_pos hy, List.filter_cons_of_neg (by simp), List.filter_cons_of_neg (by simpa using hy)]
      simpa using ih
    · have hy' : 0 < y := not_le.1 hy
      rw [if_neg hy, List.filter_cons_of_pos (a := y) (by simpa using hy')]
      by_cases hn : 0 < y - m
      · rw [List.filter_cons_of_pos (by simpa using hn)]
        simp only [List.length_cons, List.any_cons, Bool.or_eq_true, decide_eq_true_eq]
        refine ⟨by omega, ?_⟩
        rintro (h | h)
        · exact absurd h (not_lt.2 hn.le)
        · have := ih.2 h; omega
      · rw [List.filter_cons_of_neg (by simpa using hn)]
        simp only [List.length_cons]
        have := ih.1
        exact ⟨by omega, fun _ => by omega⟩

/-- The loop ends, whatever the pixels, as long as the pixels together have enough ice. -/
theorem level_ok : ∀ (fuel : ℕ) (xs ys : List K) (t : K), Near xs t ys → 0 < ys.sum → (pos ys ≤ fuel ∨ anyNeg ys = false) →
    ∃ zs t', level fuel ys = some zs ∧ t ≤ t' ∧ zs = xs.map (fun x => max (x - t') 0) ∧ zs.sum = ys.sum := by
  have hend : ∀ (xs ys : List K) (t : K), Near xs t ys → anyNeg ys = false → ys = xs.map fun x => max (x - t) 0 := by
    intro xs ys t h hn
    replace hn := anyNeg_false hn
    unfold Near at h
    induction h with
    | nil => rfl
    | @cons x y xs ys hxy _ ih =>
      rw [List.map_cons, ← ih fun z hz => hn z (List.mem_cons_of_mem _ hz)]
      congr 1
      have hy := hn y List.mem_cons_self
      rcases hxy with h | h
      · rw [max_eq_left (by linarith), h]
      · rw [max_eq_right (by linarith [h.2]), h.1]
  intro fuel
  induction fuel with
  | zero =>
    intro xs ys t h hs hf
    have hp := pos_of_sum hs
    have hn : anyNeg ys = false := by
      rcases hf with h | h
      · unfold pos at h; omega
      · exact h
    refine ⟨ys, t, ?_, _root_.le_refl _, hend xs ys t h hn, rfl⟩
    rw [level, hn]; simp
  | succ fuel ih =>
    intro xs ys t h hs hf
    rcases hn : anyNeg ys with _ | _
    · refine ⟨ys, t, ?_, _root_.le_refl _, hend xs ys t h hn, rfl⟩
      rw [level, hn]; simp
    · have hf : pos ys ≤ fuel + 1 := by
        rcases hf with h | h
        · exact h
        · rw [hn] at h; cases h
      obtain ⟨t', ht', hnear⟩ := share_near h hs
      have hsum := share_sum hs
      have hm : 0 ≤ -(ys.filter fun x => decide (x < 0)).sum / ((ys.filter fun x => decide (0 < x)).length : K) := by
        have := neg_sum_nonpos ys
        exact div_nonneg (by linarith) (Nat.cast_nonneg _)
      have hps := pos_share _ hm ys
      have hfuel : pos (share ys) ≤ fuel ∨ anyNeg (share ys) = false := by
        rcases hn' : anyNeg (share ys) with _ | _
        · exact Or.inr rfl
        · left
          have := hps.2 hn'
          have : pos (share ys) < pos ys := this
          omega
      obtain ⟨zs, t'', hl, ht'', hz, hzs⟩ := ih xs (share ys) t' hnear (by rw [hsum]; exact hs) hfuel
      refine ⟨zs, t'', ?_, _root_.le_trans ht' ht'', hz, by rw [hzs, hsum]⟩
      rw [level, hn]
      simpa using hl

theorem left_left (xs : List K) (t s : K) (hs : 0 ≤ s) :
    ((left xs t).map fun x => max (x - s) 0).filter (fun x => decide (0 < x)) = left xs (t + s) := by
  unfold left
  induction xs with
  | nil => rfl
  | cons x xs ih =>
    by_cases h : t + s < x
    · have h1 : t < x := by linarith
      rw [List.filter_cons_of_pos (by simpa using h1), List.filter_cons_of_pos (by simpa using h), List.map_cons, List.map_cons,
        List.map_cons, List.filter_cons_of_pos, ih, max_eq_left (by linarith)]
      · congr 1; ring
      · simp only [decide_eq_true_eq, lt_max_iff]; left; linarith
    · rw [List.filter_cons_of_neg (a := x) (p := fun x => decide (t + s < x)) (by simpa using h)]
      by_cases h1 : t < x
      · rw [List.filter_cons_of_pos (by simpa using h1), List.map_cons, List.map_cons, List.filter_cons_of_neg, ih]
        simp only [decide_eq_true_eq, lt_max_iff, lt_irrefl, or_false, not_lt]
        linarith
      · rw [List.filter_cons_of_neg (by simpa using h1), ih]

theorem max_nonzero (xs : List K) (s : K) : ((xs.map fun x => max (x - s) 0).filter fun x => decide (x ≠ 0)) =
    (xs.map fun x => max (x - s) 0).filter fun x => decide (0 < x) := by
  refine List.filter_congr fun y hy => ?_
  obtain ⟨x, -, rfl⟩ := List.mem_map.1 hy
  rw [decide_eq_decide]
  exact ⟨fun h => lt_of_le_of_ne (le_max_right _ _) (Ne.symm h), fun h => h.ne'⟩

theorem filter_pos_sum (xs : List K) (s : K) : ((xs.map fun x => max (x - s) 0).filter fun x => decide (0 < x)).sum =
    (xs.map fun x => max (x - s) 0).sum := by
  have h := sum_parts (xs.map fun x => max (x - s) 0)
  have e : (xs.map fun x => max (x - s) 0).filter (fun x => decide (x < 0)) = [] := by
    rw [List.filter_eq_nil_iff]
    intro y hy
    obtain ⟨x, -, rfl⟩ := List.mem_map.1 hy
    simp
  rw [e, List.sum_nil, zero_add] at h
  exact h

theorem left_sum (xs : List K) (t : K) : (left xs t).sum = (xs.map fun x => max (x - t) 0).sum := by
  unfold left
  induction xs with
  | nil => rfl
  | cons x xs ih =>
    rw [List.map_cons, List.sum_cons, ← ih]
    by_cases h : t < x
    · rw [List.filter_cons_of_pos (by simpa using h), List.map_cons, List.sum_cons, max_eq_left (by linarith)]
    · rw [List.filter_cons_of_neg (by simpa using h), max_eq_right (by linarith [not_lt.1 h]), zero_add]

/-- What a row of the loop is: the pixels with `t` taken off, their area, their mean. -/
structure Good (cell catchment : K) (xs : List K) (t : K) (r : Row K) : Prop where
  px : r.px = left xs t
  area : r.area = (r.px.length : K) * cell / catchment
  we : r.we = mean r.px

theorem sum_sub_const (xs : List K) (m : K) : (xs.map fun x => x - m).sum = xs.sum - (xs.length : K) * m := by
  induction xs with
  | nil => simp
  | cons x xs ih => simp only [List.map_cons, List.sum_cons, List.length_cons, Nat.cast_add, Nat.cast_one, ih]; ring

theorem step_ok {cell catchment : K} (hc : 0 < cell) (hA : 0 < catchment) {xs : List K} {t d : K} {r : Row K}
    (hd : 0 ≤ d) (hg : Good cell catchment xs t r) (hs : d < r.px.sum) :
    ∃ r' t', (melt (d * cell / catchment) r).map (scale cell catchment) = some r' ∧ t ≤ t' ∧ Good cell catchment xs t' r' ∧
      r'.px.sum = r.px.sum - d := by
  have hne : r.px.length ≠ 0 := by
    intro h0
    rw [List.length_eq_zero_iff] at h0
    rw [h0, List.sum_nil] at hs
    linarith
  have hlen : (0 : K) < (r.px.length : K) := by exact_mod_cast Nat.pos_of_ne_zero hne
  have hcA : cell / catchment ≠ 0 := (div_pos hc hA).ne'
  have harea : r.area ≠ 0 := by
    rw [hg.area, mul_div_assoc]
    exact mul_ne_zero hlen.ne' hcA
  have hm : d * cell / catchment / r.area = d / (r.px.length : K) := by
    rw [hg.area]
    have := hlen.ne'
    have := hc.ne'
    have := hA.ne'
    field_simp
  have hm0 : 0 ≤ d / (r.px.length : K) := div_nonneg hd hlen.le
  have hsum : (r.px.map fun x => x - d / (r.px.length : K)).sum = r.px.sum - d := by
    rw [sum_sub_const, mul_div_cancel₀ _ hlen.ne']
  have hnear : Near r.px (d / (r.px.length : K)) (r.px.map fun x => x - d / (r.px.length : K)) := by
    unfold Near
    rw [List.forall₂_map_right_iff, List.forall₂_same]
    intro x _
    exact Or.inl rfl
  have hpos : pos (r.px.map fun x => x - d / (r.px.length : K)) ≤ r.px.length := by
    unfold pos
    calc _ ≤ _ := List.length_filter_le _ _
      _ = _ := List.length_map _
  obtain ⟨zs, s, hl, hs', hz, hzs⟩ := level_ok r.px.length r.px _ _ hnear (by rw [hsum]; linarith) (Or.inl hpos)
  have hs0 : 0 ≤ s := _root_.le_trans hm0 hs'
  have hzlen : zs.length = r.px.length := by rw [hz, List.length_map]
  have hmelt : melt (d * cell / catchment) r = some zs := by
    unfold melt
    rw [if_neg harea, hm, hl]
    have e : mean zs = r.we - d / (r.px.length : K) := by
      unfold mean
      rw [hzs, hsum, hzlen, hg.we, mean, sub_div]
    have : isClose (mean zs) (r.we - d / (r.px.length : K)) = true := by
      unfold isClose
      rw [e, sub_self, abs_zero, decide_eq_true_eq]
      positivity
    simp only [Option.bind_some]
    rw [if_pos this]
  rw [hmelt]
  have hfil : (zs.filter fun x => decide (0 < x)) = left xs (t + s) := by
    rw [hz, hg.px, left_left xs t s hs0]
  have hnz : (zs.filter fun x => decide (x ≠ 0)) = zs.filter fun x => decide (0 < x) := by rw [hz, max_nonzero]
  have hsum' : (zs.filter fun x => decide (0 < x)).sum = r.px.sum - d := by
    rw [hz, filter_pos_sum, ← hz, hzs, hsum]
  refine ⟨scale cell catchment zs, t + s, rfl, by linarith, ⟨hfil, ?_, ?_⟩, hsum'⟩
  · change ((zs.filter fun x => decide (x ≠ 0)).length : K) * cell / catchment = _
    rw [hnz]; rfl
  · change (if _ then _ else _) = _
    rw [if_pos (pos_of_sum (by rw [hzs, hsum]; linarith))]
    rfl

theorem rows_ok {cell catchment : K} (hc : 0 < cell) (hA : 0 < catchment) {xs : List K} {first : Row K}
    (hg : Good cell catchment xs 0 first) (hs : 0 < xs.sum) (hx : first.px.sum = xs.sum) {n : ℕ} (hn : 0 < n) :
    ∀ k, k < n → ∃ r t, rows cell catchment (xs.sum / n * cell / catchment) first k = some r ∧ 0 ≤ t ∧
      Good cell catchment xs t r ∧ r.px.sum = xs.sum * (1 - k / n)
  | 0, _ => ⟨first, 0, rfl, _root_.le_refl _, hg, by rw [hx]; simp⟩
  | k + 1, hk => by
    have hn' : (0 : K) < n := by exact_mod_cast hn
    obtain ⟨r, t, hr, ht, hgr, hsr⟩ := rows_ok hc hA hg hs hx hn k (by omega)
    have hd : 0 ≤ xs.sum / n := div_nonneg hs.le hn'.le
    have hlt : xs.sum / n < r.px.sum := by
      rw [hsr, div_eq_mul_inv]
      refine mul_lt_mul_of_pos_left ?_ hs
      rw [lt_sub_iff_add_lt, inv_eq_one_div, ← add_div, div_lt_one hn']
      have : ((k + 1 : ℕ) : K) < n := by exact_mod_cast hk
      push_cast at this
      linarith
    obtain ⟨r', t', hr', ht', hgr', hsr'⟩ := step_ok hc hA hd hgr hlt
    refine ⟨r', t', ?_, _root_.le_trans ht ht', hgr', ?_⟩
    · rw [rows, hr]; exact hr'
    · rw [hsr', hsr]
      push_cast
      field_simp
      ring

/-- The same with the thresholds in order. -/
theorem rows_step {cell catchment : K} (hc : 0 < cell) (hA : 0 < catchment) {xs : List K} {first : Row K}
    (hg : Good cell catchment xs 0 first) (hs : 0 < xs.sum) (hx : first.px.sum = xs.sum) {n : ℕ} (hn : 0 < n) (k : ℕ)
    (hk : k + 1 < n) (r : Row K) (hr : rows cell catchment (xs.sum / n * cell / catchment) first k = some r) :
    ∃ r', rows cell catchment (xs.sum / n * cell / catchment) first (k + 1) = some r' ∧ r'.px.length ≤ r.px.length := by
  have hn' : (0 : K) < n := by exact_mod_cast hn
  obtain ⟨r0, t, hr0, ht, hgr, hsr⟩ := rows_ok hc hA hg hs hx hn k (by omega)
  rw [hr0] at hr
  cases hr
  have hd : 0 ≤ xs.sum / n := div_nonneg hs.le hn'.le
  have hlt : xs.sum / n < r.px.sum := by
    rw [hsr, div_eq_mul_inv]
    refine mul_lt_mul_of_pos_left ?_ hs
    rw [lt_sub_iff_add_lt, inv_eq_one_div, ← add_div, div_lt_one hn']
    have : ((k + 1 : ℕ) : K) < n := by exact_mod_cast hk
    push_cast at this
    linarith
  obtain ⟨r', t', hr', ht', hgr', hsr'⟩ := step_ok hc hA hd hgr hlt
  refine ⟨r', by rw [rows, hr0]; exact hr', ?_⟩
  rw [hgr'.px, hgr.px]
  unfold left
  rw [List.length_map, List.length_map]
  exact List.Sublist.length_le (List.monotone_filter_right _ fun x hx => by
    simp only [decide_eq_true_eq] at hx ⊢; linarith)

end HB.GlScaling
