import Verif.Props.SnowObs
import Mathlib.Algebra.BigOperators.Group.Finset.Basic

/-! # C87: aggregation of rasters, loaders, cache -/

set_option linter.unusedSectionVars false

namespace HB.SnowObs

open HB.Spec.SnowObs

variable {K : Type} [Field K] [LinearOrder K] [IsStrictOrderedRing K]

theorem valid_iff (o : Opts K) (v w : K) : o.valid (some v) = some w ↔ Good o.nodata o.vmin o.vmax v ∧ w = v := by
  unfold Opts.valid Good
  rw [Option.filter_some]
  split
  · rename_i h
    simp only [Bool.and_eq_true, Option.all_eq_true, decide_eq_true_eq] at h
    constructor
    · intro e; cases e
      exact ⟨⟨fun e => h.1.1 v e rfl, fun m hm => h.1.2 m hm, fun m hm => h.2 m hm⟩, rfl⟩
    · rintro ⟨_, rfl⟩; rfl
  · rename_i h
    constructor
    · intro e; cases e
    · rintro ⟨⟨h1, h2, h3⟩, rfl⟩
      exfalso
      apply h
      simp only [Bool.and_eq_true, Option.all_eq_true, decide_eq_true_eq]
      refine ⟨⟨fun m hm e => h1 (e ▸ hm), fun m hm => h2 m hm⟩, fun m hm => h3 m hm⟩

/-- Value of a pixel if it is good and in the unit. -/
def goodAt (o : Opts K) (uid : ℤ) (p : Option ℤ × Option K) : Option K := if p.1 = some uid then o.valid p.2 else none

theorem sub_filterMap (o : Opts K) (uid : ℤ) (l : List (Option ℤ × Option K)) :
    (l.filter fun p => decide (p.1 = some uid)).filterMap (fun p => o.valid p.2) = l.filterMap (goodAt o uid) := by
  induction l with
  | nil => rfl
  | cons a r ih =>
    by_cases h : a.1 = some uid
    · rw [List.filter_cons_of_pos (by simpa using h), List.filterMap_cons, List.filterMap_cons, ih]
      have : goodAt o uid a = o.valid a.2 := if_pos h
      rw [this]
    · rw [List.filter_cons_of_neg (by simpa using h), ih, List.filterMap_cons]
      have : goodAt o uid a = none := if_neg h
      rw [this]

theorem filterMap_sums (g : Option ℤ × Option K → Option K) : ∀ (arr : List (Option ℤ)) (vals : List (Option K)), arr.length = vals.length →
    ((arr.zip vals).filterMap g).sum = ∑ p ∈ Finset.range arr.length, (((arr.zip vals)[p]?).bind g).getD 0 ∧
    ((arr.zip vals).filterMap g).length = ∑ p ∈ Finset.range arr.length, (((arr.zip vals)[p]?).bind g).elim 0 fun _ => 1 := by
  intro arr
  induction arr with
  | nil => intro vals _; simp
  | cons a r ih =>
    intro vals h
    cases vals with
    | nil => simp at h
    | cons v w =>
      have := ih w (by simpa using h)
      simp only [List.zip_cons_cons, List.length_cons, Finset.sum_range_succ', List.getElem?_cons_succ, List.getElem?_cons_zero, Option.bind_some]
      rcases Option.eq_none_or_eq_some (g (a, v)) with hg | ⟨x, hg⟩
      · rw [List.filterMap_cons_none hg, this.1, this.2, hg]; simp
      · rw [List.filterMap_cons_some (f := g) hg, List.sum_cons, List.length_cons, this.1, this.2, hg]; exact ⟨add_comm _ _, rfl⟩

theorem zip_get (arr : List (Option ℤ)) (vals : List (Option K)) (h : arr.length = vals.length) (p : ℕ) (hp : p < arr.length) :
    (arr.zip vals)[p]? = some (arr[p], vals[p]'(h ▸ hp)) := by
  rw [List.getElem?_eq_getElem (by simp [← h, hp])]
  simp

theorem good_lists (o : Opts K) (arr : List (Option ℤ)) (vals : List (Option K)) (h : arr.length = vals.length) (uid : ℤ) :
    ((arr.zip vals).filterMap (goodAt o uid)).length = (goodPixels o.nodata o.vmin o.vmax arr vals uid).card ∧
    ((arr.zip vals).filterMap (goodAt o uid)).sum = ∑ p ∈ goodPixels o.nodata o.vmin o.vmax arr vals uid, value vals p := by
  classical
  have key : ∀ p, p < arr.length →
      ((((arr.zip vals)[p]?).bind (goodAt o uid)).isSome ↔ p ∈ goodPixels o.nodata o.vmin o.vmax arr vals uid) ∧
      (p ∈ goodPixels o.nodata o.vmin o.vmax arr vals uid → (((arr.zip vals)[p]?).bind (goodAt o uid)).getD 0 = value vals p) := by
    intro p hp
    have hv : p < vals.length := h ▸ hp
    rw [zip_get arr vals h p hp, Option.bind_some]
    unfold goodPixels pixels value
    simp only [Finset.mem_filter, Finset.mem_range, List.getElem?_eq_getElem hp, List.getElem?_eq_getElem hv, Option.some.injEq, Option.bind_some, id]
    unfold goodAt
    simp only
    by_cases hu : arr[p] = some uid
    · rw [if_pos hu]
      cases hx : vals[p] with
      | none =>
        constructor
        · constructor
          · intro e; simp [Opts.valid] at e
          · rintro ⟨_, v, hv', _⟩; cases hv'
        · rintro ⟨_, v, hv', _⟩; cases hv'
      | some x =>
        constructor
        · constructor
          · intro e
            obtain ⟨w, hw⟩ := Option.isSome_iff_exists.1 e
            exact ⟨⟨hp, hu⟩, x, rfl, ((valid_iff o x w).1 hw).1⟩
          · rintro ⟨_, v, hv', hg⟩
            cases hv'
            rw [(valid_iff o x x).2 ⟨hg, rfl⟩]; rfl
        · rintro ⟨_, v, hv', hg⟩
          cases hv'
          rw [(valid_iff o x x).2 ⟨hg, rfl⟩]
    · rw [if_neg hu]
      constructor
      · constructor
        · intro e; cases e
        · rintro ⟨⟨_, h1⟩, _⟩; exact absurd h1 hu
      · rintro ⟨⟨_, h1⟩, _⟩; exact absurd h1 hu
  have hsub : goodPixels o.nodata o.vmin o.vmax arr vals uid ⊆ Finset.range arr.length := by
    intro p hp
    unfold goodPixels pixels at hp
    exact (Finset.mem_filter.1 (Finset.mem_filter.1 hp).1).1
  have hs := filterMap_sums (goodAt o uid) arr vals h
  constructor
  · rw [hs.2, Finset.card_eq_sum_ones, ← Finset.sum_subset hsub (f := fun p => (((arr.zip vals)[p]?).bind (goodAt o uid)).elim 0 fun _ => 1)]
    · apply Finset.sum_congr rfl
      intro p hp
      obtain ⟨x, hx⟩ := Option.isSome_iff_exists.1 ((key p (Finset.mem_range.1 (hsub hp))).1.2 hp)
      rw [hx]; rfl
    · intro p hp hn
      cases hx : ((arr.zip vals)[p]?).bind (goodAt o uid) with
      | none => rfl
      | some x => exact absurd ((key p (Finset.mem_range.1 hp)).1.1 (by rw [hx]; rfl)) hn
  · rw [hs.1, ← Finset.sum_subset hsub (f := fun p => (((arr.zip vals)[p]?).bind (goodAt o uid)).getD 0)]
    · apply Finset.sum_congr rfl
      intro p hp
      exact (key p (Finset.mem_range.1 (hsub hp))).2 hp
    · intro p hp hn
      cases hx : ((arr.zip vals)[p]?).bind (goodAt o uid) with
      | none => rfl
      | some x => exact absurd ((key p (Finset.mem_range.1 hp)).1.1 (by rw [hx]; rfl)) hn

theorem pixels_card (arr : List (Option ℤ)) (uid : ℤ) : (arr.filter fun p => decide (p = some uid)).length = (pixels arr uid).card := by
  unfold pixels
  induction arr with
  | nil => rfl
  | cons a r ih =>
    rw [Finset.card_filter] at ih ⊢
    rw [List.length_cons, Finset.sum_range_succ']
    simp only [List.getElem?_cons_succ, List.getElem?_cons_zero, Option.some.injEq]
    rw [← ih]
    by_cases h : a = some uid
    · rw [List.filter_cons_of_pos (by simpa using h), if_pos h, List.length_cons]
    · rw [List.filter_cons_of_neg (by simpa using h), if_neg h]; rfl

theorem zip_count (uid : ℤ) : ∀ (arr : List (Option ℤ)) (vals : List (Option K)), arr.length = vals.length →
    ((arr.zip vals).filter fun p => decide (p.1 = some uid)).length = (arr.filter fun p => decide (p = some uid)).length := by
  intro arr
  induction arr with
  | nil => intro _ _; rfl
  | cons a r ih =>
    intro vals h
    cases vals with
    | nil => simp at h
    | cons v w =>
      rw [List.zip_cons_cons]
      by_cases hu : a = some uid
      · rw [List.filter_cons_of_pos (by simpa using hu), List.filter_cons_of_pos (by simpa using hu), List.length_cons, List.length_cons, ih w (by simpa using h)]
      · rw [List.filter_cons_of_neg (by simpa using hu), List.filter_cons_of_neg (by simpa using hu), ih w (by simpa using h)]

/-- **C87 (mean of the good pixels)**: on each date, the aggregate of a unit is the mean, scaled, of the values of its pixels that are good; there
is one just when there is a good pixel and the good ones are at least the demanded share of the pixels of the unit. -/
theorem c87_aggregate (o : Opts K) (arr : List (Option ℤ)) (vals : List (Option K)) (h : arr.length = vals.length) (uid : ℤ) (v : K) :
    stackCell o arr vals uid = some v ↔
      0 < (goodPixels o.nodata o.vmin o.vmax arr vals uid).card ∧
      o.ratio * ((pixels arr uid).card : K) ≤ ((goodPixels o.nodata o.vmin o.vmax arr vals uid).card : K) ∧
      v = o.scale * mean vals (goodPixels o.nodata o.vmin o.vmax arr vals uid) := by
  classical
  unfold stackCell
  simp only
  have hg := good_lists o arr vals h uid
  have hc := (zip_count uid arr vals h).trans (pixels_card arr uid)
  have hle : (goodPixels o.nodata o.vmin o.vmax arr vals uid).card ≤ (pixels arr uid).card := by
    unfold goodPixels
    exact Finset.card_filter_le _ _
  split
  · rename_i he
    rw [List.isEmpty_iff] at he
    rw [he] at hc
    simp only [List.length_nil] at hc
    constructor
    · intro e; cases e
    · rintro ⟨h1, _⟩
      omega
  · unfold aggregate mean
    rw [sub_filterMap, hg.1, hg.2, hc]
    by_cases hpos : 0 < (goodPixels o.nodata o.vmin o.vmax arr vals uid).card
    · have hp : (0 : K) < ((pixels arr uid).card : K) := by exact_mod_cast lt_of_lt_of_le hpos hle
      have hd : o.ratio ≤ ((goodPixels o.nodata o.vmin o.vmax arr vals uid).card : K) / ((pixels arr uid).card : K) ↔
        o.ratio * ((pixels arr uid).card : K) ≤ ((goodPixels o.nodata o.vmin o.vmax arr vals uid).card : K) := le_div_iff₀ hp
      split
      · rename_i hh
        constructor
        · intro e; cases e; exact ⟨hh.1, hd.1 hh.2, mul_comm _ _⟩
        · rintro ⟨_, _, rfl⟩; rw [mul_comm]
      · rename_i hh
        constructor
        · intro e; cases e
        · rintro ⟨h1, h2, _⟩; exact absurd ⟨h1, hd.2 h2⟩ hh
    · rw [if_neg (fun e => hpos e.1)]
      constructor
      · intro e; cases e
      · rintro ⟨h1, _⟩; exact absurd h1 hpos

theorem label_get (ids : List ℤ) (hn : ids.Nodup) (j : ℕ) (u : ℤ) (hj : ids[j]? = some u) (p : Option ℤ) : label ids p = some j ↔ p = some u := by
  cases p with
  | none =>
    have : label ids none = none := by
      unfold label
      suffices H : ∀ (l : List (ℤ × ℕ)) (acc : Option ℕ), l.foldl (fun acc q => if (none : Option ℤ) = some q.1 then some q.2 else acc) acc = acc from H _ _
      intro l
      induction l with
      | nil => intro acc; rfl
      | cons a r ih => intro acc; rw [List.foldl_cons, if_neg (by simp)]; exact ih _
    rw [this]; simp
  | some x =>
    have : label ids (some x) = rowOf ids x := by
      unfold label rowOf
      congr 1
      funext acc q
      simp only [Option.some.injEq, eq_comm]
    rw [this]
    by_cases hx : x ∈ ids
    · obtain ⟨i, hi⟩ := List.mem_iff_getElem?.1 hx
      rw [rowOf_get ids hn i x hi]
      constructor
      · intro e; cases e; rw [hi] at hj; cases hj; rfl
      · intro e
        cases e
        obtain ⟨h1, h1'⟩ := List.getElem?_eq_some_iff.1 hi
        obtain ⟨h2, h2'⟩ := List.getElem?_eq_some_iff.1 hj
        rw [(List.Nodup.getElem_inj_iff hn).1 (h1'.trans h2'.symm)]
    · rw [rowOf_none _ _ hx]
      constructor
      · intro e; cases e
      · intro e; cases e; exact absurd (List.mem_of_getElem? hj) hx

/-- **C87 (the loaders agree)**: for units with distinct ids, the loader of MODIS tiles computes from the same pixels what the loader of stacks
computes. -/
theorem c87_loaders (o : Opts K) (arr : List (Option ℤ)) (ids : List ℤ) (hn : ids.Nodup) (vals : List (Option K)) (h : arr.length = vals.length)
    (j : ℕ) (uid : ℤ) (hj : ids[j]? = some uid) : modisCell o arr ids vals j = stackCell o arr vals uid := by
  unfold modisCell stackCell aggregate
  simp only
  have e1 : ((arr.zip vals).filterMap fun p => if label ids p.1 = some j then o.valid p.2 else none) = (arr.zip vals).filterMap (goodAt o uid) := by
    congr 1
    funext p
    unfold goodAt
    exact if_congr (label_get ids hn j uid hj p.1) rfl rfl
  have e2 : (arr.filter fun p => decide (label ids p = some j)) = arr.filter fun p => decide (p = some uid) := by
    congr 1
    funext p
    exact decide_eq_decide.2 (label_get ids hn j uid hj p)
  rw [e1, e2, sub_filterMap, zip_count uid arr vals h]
  by_cases he : ((arr.zip vals).filter fun p => decide (p.1 = some uid)).isEmpty
  · rw [if_pos he]
    have hgood := sub_filterMap o uid (arr.zip vals)
    rw [List.isEmpty_iff.1 he] at hgood
    rw [← hgood, if_neg]
    rintro ⟨h1, _⟩
    simp at h1
  · rw [if_neg he]
    have hpos : 0 < (arr.filter fun p => decide (p = some uid)).length := by
      rw [← zip_count uid arr vals h]
      exact List.length_pos_of_ne_nil fun e => he (List.isEmpty_iff.2 e)
    rw [if_pos hpos]

/-- **C87 (the bounds are kept)**: the aggregate lies between the scaled bounds of the good values. -/
theorem c87_bounds (o : Opts K) (arr : List (Option ℤ)) (vals : List (Option K)) (h : arr.length = vals.length) (uid : ℤ) (v : K)
    (hv : stackCell o arr vals uid = some v) (hs : 0 ≤ o.scale) (lo hi : K) (hlo : o.vmin = some lo) (hhi : o.vmax = some hi) :
    lo * o.scale ≤ v ∧ v ≤ hi * o.scale := by
  classical
  obtain ⟨h1, _, rfl⟩ := (c87_aggregate o arr vals h uid v).1 hv
  have hc : (0 : K) < ((goodPixels o.nodata o.vmin o.vmax arr vals uid).card : K) := by exact_mod_cast h1
  have hb : ∀ p ∈ goodPixels o.nodata o.vmin o.vmax arr vals uid, lo ≤ value vals p ∧ value vals p ≤ hi := by
    intro p hp
    unfold goodPixels at hp
    obtain ⟨_, x, hx, _, hx1, hx2⟩ := Finset.mem_filter.1 hp
    have : value vals p = x := by unfold value; rw [hx]; rfl
    rw [this]
    exact ⟨hx1 lo hlo, hx2 hi hhi⟩
  have hm : lo ≤ mean vals (goodPixels o.nodata o.vmin o.vmax arr vals uid) ∧ mean vals (goodPixels o.nodata o.vmin o.vmax arr vals uid) ≤ hi := by
    unfold mean
    rw [le_div_iff₀ hc, div_le_iff₀ hc]
    constructor
    · have := Finset.card_nsmul_le_sum _ (value vals) lo fun p hp => (hb p hp).1
      rw [nsmul_eq_mul] at this
      linarith [mul_comm lo ((goodPixels o.nodata o.vmin o.vmax arr vals uid).card : K)]
    · have := Finset.sum_le_card_nsmul _ (value vals) hi fun p hp => (hb p hp).2
      rw [nsmul_eq_mul] at this
      linarith [mul_comm hi ((goodPixels o.nodata o.vmin o.vmax arr vals uid).card : K)]
  rw [mul_comm o.scale]
  exact ⟨mul_le_mul_of_nonneg_right hm.1 hs, mul_le_mul_of_nonneg_right hm.2 hs⟩

end HB.SnowObs
