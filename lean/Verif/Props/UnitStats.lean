import Verif.Model.UnitStats
import Mathlib.Tactic.Linarith
import Mathlib.Tactic.Ring
import Mathlib.Tactic.FieldSimp
import Mathlib.Tactic.Positivity
import Mathlib.Tactic.NormNum
import Mathlib.Algebra.Order.BigOperators.Group.List
import Mathlib.Data.List.Perm.Basic
import Mathlib.Algebra.BigOperators.Group.List.Basic

/-! # C94: attributes of the hydro units -/

set_option linter.unusedSectionVars false

namespace HB.UnitStats

/-! ## Rounding -/

theorem roundEven_near (x : ℝ) : |(roundEven x : ℝ) - x| ≤ 1 / 2 := by
  have h1 := Int.floor_le x
  have h2 := Int.lt_floor_add_one x
  unfold roundEven
  rw [abs_le]
  split_ifs with a b c <;> push_cast <;> constructor <;> linarith

theorem roundEven_int (n : ℤ) : roundEven (n : ℝ) = n := by unfold roundEven; simp

theorem roundEven_mono {x y : ℝ} (h : x ≤ y) : roundEven x ≤ roundEven y := by
  have hf : ⌊x⌋ ≤ ⌊y⌋ := Int.floor_mono h
  have h1 := Int.floor_le x
  have h2 := Int.lt_floor_add_one x
  have h3 := Int.floor_le y
  rcases hf.lt_or_eq with hlt | heq
  · have a : roundEven x ≤ ⌊x⌋ + 1 := by unfold roundEven; split_ifs <;> omega
    have b : ⌊y⌋ ≤ roundEven y := by unfold roundEven; split_ifs <;> omega
    omega
  · unfold roundEven
    rw [← heq]
    have hxy : x - ⌊x⌋ ≤ y - ⌊x⌋ := by linarith
    by_cases a1 : x - ⌊x⌋ < 1 / 2
    · rw [if_pos a1]; split_ifs <;> omega
    · rw [if_neg a1]
      by_cases a2 : 1 / 2 < x - ⌊x⌋
      · rw [if_pos a2, if_neg (by linarith), if_pos (by linarith)]
      · rw [if_neg a2]
        by_cases b1 : y - ⌊x⌋ < 1 / 2
        · exfalso; linarith
        · rw [if_neg b1]
          by_cases b2 : 1 / 2 < y - ⌊x⌋
          · rw [if_pos b2]; split_ifs <;> omega
          · rw [if_neg b2]

theorem round2_near (x : ℝ) : |round2 x - x| ≤ 0.005 := by
  have h := roundEven_near (x * 100)
  unfold round2
  have e : (roundEven (x * 100) : ℝ) / 100 - x = ((roundEven (x * 100) : ℝ) - x * 100) / 100 := by ring
  rw [e, abs_div, abs_of_pos (by norm_num : (0:ℝ) < 100), div_le_iff₀ (by norm_num)]
  norm_num at h ⊢; linarith

theorem round2_mono {x y : ℝ} (h : x ≤ y) : round2 x ≤ round2 y := by
  unfold round2
  have : roundEven (x * 100) ≤ roundEven (y * 100) := roundEven_mono (by linarith)
  have : (roundEven (x * 100) : ℝ) ≤ (roundEven (y * 100) : ℝ) := by exact_mod_cast this
  linarith

theorem round2_exact (n : ℤ) : round2 ((n : ℝ) / 100) = (n : ℝ) / 100 := by
  unfold round2
  have : (n : ℝ) / 100 * 100 = (n : ℝ) := by ring
  rw [this, roundEven_int]

/-! ## The least, the mean and the greatest -/

theorem foldl_min_le : ∀ (xs : List ℝ) (x : ℝ), xs.foldl min x ≤ x ∧ ∀ y ∈ xs, xs.foldl min x ≤ y
  | [], x => by simp
  | a :: xs, x => by
    obtain ⟨h1, h2⟩ := foldl_min_le xs (min x a)
    refine ⟨le_trans h1 (min_le_left _ _), fun y hy => ?_⟩
    rcases List.mem_cons.mp hy with rfl | hy
    · exact le_trans h1 (min_le_right _ _)
    · exact h2 y hy

theorem foldl_max_ge : ∀ (xs : List ℝ) (x : ℝ), x ≤ xs.foldl max x ∧ ∀ y ∈ xs, y ≤ xs.foldl max x
  | [], x => by simp
  | a :: xs, x => by
    obtain ⟨h1, h2⟩ := foldl_max_ge xs (max x a)
    refine ⟨le_trans (le_max_left _ _) h1, fun y hy => ?_⟩
    rcases List.mem_cons.mp hy with rfl | hy
    · exact le_trans (le_max_right _ _) h1
    · exact h2 y hy

theorem foldl_mem {f : ℝ → ℝ → ℝ} (hf : ∀ a b, f a b = a ∨ f a b = b) : ∀ (xs : List ℝ) (x : ℝ), xs.foldl f x ∈ x :: xs
  | [], x => by simp
  | a :: xs, x => by
    have := foldl_mem hf xs (f x a)
    rw [List.foldl_cons]
    rcases List.mem_cons.mp this with h | h
    · rw [h]; rcases hf x a with h | h <;> rw [h] <;> simp
    · simp [h]

theorem mean_between {l : List ℝ} (hne : l ≠ []) {lo hi : ℝ} (h1 : ∀ y ∈ l, lo ≤ y) (h2 : ∀ y ∈ l, y ≤ hi) :
    lo ≤ l.sum / (l.length : ℝ) ∧ l.sum / (l.length : ℝ) ≤ hi := by
  have hp : (0:ℝ) < l.length := by have := List.length_pos_of_ne_nil hne; exact_mod_cast this
  have a := List.card_nsmul_le_sum l lo h1
  have b := List.sum_le_card_nsmul l hi h2
  rw [nsmul_eq_mul] at a b
  rw [le_div_iff₀ hp, div_le_iff₀ hp]
  constructor <;> linarith

theorem mem_valid {vs : List (Option ℝ)} {x : ℝ} : x ∈ valid vs ↔ some x ∈ vs := by unfold valid; simp

/-- **The elevations of a unit**: least, mean and greatest are in this order also after rounding, the mean is within 0.005 of the mean of the cells with a value, all
cells lie between the least and the greatest up to 0.005, and both are elevations of cells, rounded. -/
theorem c94_elevations (resX resY : ℝ) (cells : List Cell) (u : ℤ) (h : ∃ c ∈ cells, c.id = u ∧ c.elev ≠ none) :
    ∃ r lo mean hi, row resX resY cells u = .ok r ∧ r.id = u ∧ r.elevationMin = some lo ∧ r.elevationMean = some mean ∧ r.elevationMax = some hi ∧
      lo ≤ mean ∧ mean ≤ hi ∧
      |mean - (valid ((cells.filter fun c => decide (c.id = u)).map (·.elev))).sum / ((valid ((cells.filter fun c => decide (c.id = u)).map (·.elev))).length : ℝ)| ≤ 0.005 ∧
      (∀ c ∈ cells, c.id = u → ∀ e, c.elev = some e → lo - 0.005 ≤ e ∧ e ≤ hi + 0.005) ∧
      (∃ c ∈ cells, c.id = u ∧ ∃ e, c.elev = some e ∧ lo = round2 e) ∧ (∃ c ∈ cells, c.id = u ∧ ∃ e, c.elev = some e ∧ hi = round2 e) := by
  obtain ⟨c0, hc0, hid, hel⟩ := h
  set vs := (cellsOf u cells).map (·.elev) with hvs
  have hmem : ∀ e, e ∈ valid vs ↔ ∃ c ∈ cells, c.id = u ∧ c.elev = some e := by
    intro e
    rw [mem_valid, hvs, List.mem_map]
    unfold cellsOf
    constructor
    · rintro ⟨c, hc, he⟩; rw [List.mem_filter, decide_eq_true_eq] at hc; exact ⟨c, hc.1, hc.2, he⟩
    · rintro ⟨c, hc, hi, he⟩; exact ⟨c, by rw [List.mem_filter, decide_eq_true_eq]; exact ⟨hc, hi⟩, he⟩
  obtain ⟨e0, he0⟩ := Option.ne_none_iff_exists'.mp hel
  have hin : e0 ∈ valid vs := (hmem e0).mpr ⟨c0, hc0, hid, he0⟩
  have hne : valid vs ≠ [] := List.ne_nil_of_mem hin
  have hvne : vs ≠ [] := by rintro h; rw [h] at hin; simp [valid] at hin
  cases hv : valid vs with
  | nil => exact absurd hv hne
  | cons x xs =>
    have hlo : extreme min vs = .ok (some (xs.foldl min x)) := by unfold extreme; rw [if_neg hvne, hv]
    have hhi : extreme max vs = .ok (some (xs.foldl max x)) := by unfold extreme; rw [if_neg hvne, hv]
    have hmean : nanmean vs = some ((valid vs).sum / ((valid vs).length : ℝ)) := by unfold nanmean; rw [if_neg hne]
    have a1 : ∀ y ∈ valid vs, xs.foldl min x ≤ y := by
      intro y hy; rw [hv] at hy
      rcases List.mem_cons.mp hy with rfl | hy
      · exact (foldl_min_le xs y).1
      · exact (foldl_min_le xs x).2 y hy
    have a2 : ∀ y ∈ valid vs, y ≤ xs.foldl max x := by
      intro y hy; rw [hv] at hy
      rcases List.mem_cons.mp hy with rfl | hy
      · exact (foldl_max_ge xs y).1
      · exact (foldl_max_ge xs x).2 y hy
    obtain ⟨b1, b2⟩ := mean_between hne a1 a2
    have m1 : xs.foldl min x ∈ valid vs := by rw [hv]; exact foldl_mem (fun a b => min_choice a b) xs x
    have m2 : xs.foldl max x ∈ valid vs := by rw [hv]; exact foldl_mem (fun a b => max_choice a b) xs x
    refine ⟨(⟨u, round2 (((cellsOf u cells).length : ℝ) * resX * resY), (nanmean vs).map round2, some (round2 (xs.foldl min x)), some (round2 (xs.foldl max x)),
        (nanmean ((cellsOf u cells).map (·.slope))).map round2, meanAspect ((cellsOf u cells).map (·.aspect))⟩ : Row), round2 (xs.foldl min x), round2 ((valid vs).sum / ((valid vs).length : ℝ)), round2 (xs.foldl max x), ?_, ?_, ?_, ?_, ?_, round2_mono b1, round2_mono b2, round2_near _, ?_, ?_, ?_⟩
    · unfold row; simp only []; rw [← hvs, hlo, hhi]; rfl
    · rfl
    · rfl
    · simp only [hmean]; rfl
    · rfl
    · intro c hc hi e he
      have hm := (hmem e).mpr ⟨c, hc, hi, he⟩
      have r1 := abs_le.mp (round2_near (xs.foldl min x))
      have r2 := abs_le.mp (round2_near (xs.foldl max x))
      have := a1 e hm; have := a2 e hm
      constructor <;> linarith
    · obtain ⟨c, hc, hi, he⟩ := (hmem _).mp m1; exact ⟨c, hc, hi, _, he, rfl⟩
    · obtain ⟨c, hc, hi, he⟩ := (hmem _).mp m2; exact ⟨c, hc, hi, _, he, rfl⟩

/-! ## Areas -/

theorem row_area {resX resY : ℝ} {cells : List Cell} {u : ℤ} {r : Row} (h : row resX resY cells u = .ok r) :
    r.id = u ∧ r.area = round2 (((cells.filter fun c => decide (c.id = u)).length : ℝ) * resX * resY) := by
  unfold row at h
  cases h1 : extreme min ((cellsOf u cells).map (·.elev)) with
  | error e => simp only [h1] at h; cases h
  | ok lo =>
    cases h2 : extreme max ((cellsOf u cells).map (·.elev)) with
    | error e => simp only [h1, h2] at h; cases h
    | ok hi =>
      simp only [h1, h2] at h
      cases h
      exact ⟨rfl, rfl⟩

/-- A unit with a cell never fails. -/
theorem row_ok {resX resY : ℝ} {cells : List Cell} {u : ℤ} (h : ∃ c ∈ cells, c.id = u) : ∃ r, row resX resY cells u = .ok r := by
  obtain ⟨c, hc, hu⟩ := h
  have hne : (cellsOf u cells).map (·.elev) ≠ [] := by
    have : c ∈ cellsOf u cells := by unfold cellsOf; rw [List.mem_filter, decide_eq_true_eq]; exact ⟨hc, hu⟩
    rw [Ne, List.map_eq_nil_iff]
    exact List.ne_nil_of_mem this
  have he : ∀ f, ∃ x, extreme f ((cellsOf u cells).map (·.elev)) = .ok x := by
    intro f; unfold extreme; rw [if_neg hne]
    cases valid ((cellsOf u cells).map (·.elev)) with
    | nil => exact ⟨none, rfl⟩
    | cons x xs => exact ⟨_, rfl⟩
  obtain ⟨lo, h1⟩ := he min
  obtain ⟨hi, h2⟩ := he max
  exact ⟨_, by unfold row; simp only []; rw [h1, h2]; rfl⟩

/-- **Slope and aspect of a unit** are taken from its own cells: the slope is within 0.005 of the mean of the cells with a slope, the aspect that of `c94_aspect`. -/
theorem c94_slope (resX resY : ℝ) (cells : List Cell) (u : ℤ) (h : ∃ c ∈ cells, c.id = u ∧ c.slope ≠ none) :
    ∃ r s, row resX resY cells u = .ok r ∧ r.slope = some s ∧ r.aspect = meanAspect ((cells.filter fun c => decide (c.id = u)).map (·.aspect)) ∧
      |s - (valid ((cells.filter fun c => decide (c.id = u)).map (·.slope))).sum / ((valid ((cells.filter fun c => decide (c.id = u)).map (·.slope))).length : ℝ)| ≤ 0.005 := by
  obtain ⟨c, hc, hu, hs⟩ := h
  obtain ⟨r, hr⟩ := row_ok (resX := resX) (resY := resY) (cells := cells) (u := u) ⟨c, hc, hu⟩
  obtain ⟨x, hx⟩ := Option.ne_none_iff_exists'.mp hs
  have hne : valid ((cellsOf u cells).map (·.slope)) ≠ [] := by
    refine List.ne_nil_of_mem (a := x) (mem_valid.mpr ?_)
    rw [List.mem_map]
    exact ⟨c, by unfold cellsOf; rw [List.mem_filter, decide_eq_true_eq]; exact ⟨hc, hu⟩, hx⟩
  have hm : nanmean ((cellsOf u cells).map (·.slope)) = some ((valid ((cellsOf u cells).map (·.slope))).sum / ((valid ((cellsOf u cells).map (·.slope))).length : ℝ)) := by
    unfold nanmean; rw [if_neg hne]
  refine ⟨r, round2 ((valid ((cellsOf u cells).map (·.slope))).sum / ((valid ((cellsOf u cells).map (·.slope))).length : ℝ)), hr, ?_, ?_, round2_near _⟩
  all_goals
    unfold row at hr
    cases h1 : extreme min ((cellsOf u cells).map (·.elev)) with
    | error e => simp only [h1] at hr; cases hr
    | ok lo =>
      cases h2 : extreme max ((cellsOf u cells).map (·.elev)) with
      | error e => simp only [h1, h2] at hr; cases hr
      | ok hi =>
        simp only [h1, h2] at hr
        cases hr
        first
          | (show (nanmean ((cellsOf u cells).map (·.slope))).map round2 = _; rw [hm]; rfl)
          | rfl

theorem mapM_forall {α β : Type} (f : α → Except Err β) : ∀ l : List α, (∀ x ∈ l, ∃ y, f x = .ok y) → ∃ ys, l.mapM f = .ok ys ∧ List.Forall₂ (fun x y => f x = .ok y) l ys
  | [], _ => ⟨[], rfl, .nil⟩
  | x :: l, h => by
    obtain ⟨y, h1⟩ := h x (by simp)
    obtain ⟨ys, h3, h4⟩ := mapM_forall f l (fun z hz => h z (by simp [hz]))
    exact ⟨y :: ys, by rw [List.mapM_cons, h1, h3]; rfl, .cons h1 h4⟩

theorem mem_unitIds {cells : List Cell} {u : ℤ} : u ∈ unitIds cells ↔ u ≠ 0 ∧ ∃ c ∈ cells, c.id = u := by
  unfold unitIds
  rw [List.mem_filter, decide_eq_true_eq, List.mem_mergeSort, List.mem_dedup, List.mem_map, and_comm]

theorem unitIds_nodup (cells : List Cell) : (unitIds cells).Nodup := by
  unfold unitIds
  exact List.Nodup.filter _ ((List.mergeSort_perm _ _).nodup_iff.mpr (List.nodup_dedup _))

/-- Cells counted by their id. -/
theorem count_by_id (cells : List Cell) : ∀ (l : List ℤ), l.Nodup →
    (l.map fun u => (cells.filter fun c => decide (c.id = u)).length).sum = (cells.filter fun c => decide (c.id ∈ l)).length
  | [], _ => by simp
  | u :: l, h => by
    rw [List.nodup_cons] at h
    rw [List.map_cons, List.sum_cons, count_by_id cells l h.2]
    clear * - h
    induction cells with
    | nil => simp
    | cons c cs ih =>
      simp only [List.filter_cons, List.mem_cons]
      by_cases h1 : c.id = u
      · have h2 : c.id ∉ l := by rw [h1]; exact h.1
        simp only [List.mem_cons] at ih
        simp [h1, h.1] at ih ⊢; omega
      · by_cases h2 : c.id ∈ l
        · simp [h1, h2] at ih ⊢; omega
        · simp [h1, h2] at ih ⊢; omega

/-- **The table**: one row for each id but zero, in the order of the ids, never failing; and when the area of a pixel has at most two decimals, the area of each unit is
its number of cells times the area of a pixel, and the area of the catchment that of all cells of units. -/
theorem c94_table (resX resY : ℝ) (cells : List Cell) : ∃ rows area, attributes resX resY cells = .ok (rows, area) ∧
    (rows.map (·.id)) = unitIds cells ∧ (unitIds cells).Pairwise (· < ·) ∧ (∀ u, u ∈ unitIds cells ↔ u ≠ 0 ∧ ∃ c ∈ cells, c.id = u) ∧
    (∀ r ∈ rows, |r.area - ((cells.filter fun c => decide (c.id = r.id)).length : ℝ) * (resX * resY)| ≤ 0.005) ∧
    ((∃ n : ℤ, resX * resY = (n : ℝ) / 100) → (∀ r ∈ rows, r.area = ((cells.filter fun c => decide (c.id = r.id)).length : ℝ) * (resX * resY)) ∧
      area = ((cells.filter fun c => decide (c.id ≠ 0)).length : ℝ) * (resX * resY)) := by
  obtain ⟨rows, h1, h2⟩ := mapM_forall (row resX resY cells) (unitIds cells) (fun u hu => row_ok (mem_unitIds.mp hu).2)
  have hids : ∀ l rs, List.Forall₂ (fun u r => row resX resY cells u = .ok r) l rs → rs.map (·.id) = l := by
    intro l rs h
    induction h with
    | nil => rfl
    | cons h _ ih => rw [List.map_cons, ih, (row_area h).1]
  have hsum : ∀ l rs, List.Forall₂ (fun u r => row resX resY cells u = .ok r) l rs →
      ∀ r ∈ rs, r.area = round2 (((cells.filter fun c => decide (c.id = r.id)).length : ℝ) * resX * resY) := by
    intro l rs h
    induction h with
    | nil => simp
    | cons h _ ih =>
      intro r hr
      rcases List.mem_cons.mp hr with rfl | hr
      · rw [(row_area h).1]; exact (row_area h).2
      · exact ih r hr
  have hsort : (unitIds cells).Pairwise (· < ·) := by
    have hle : (unitIds cells).Pairwise (· ≤ ·) := by
      unfold unitIds
      refine List.Pairwise.filter _ ?_
      have := List.pairwise_mergeSort (le := fun a b : ℤ => decide (a ≤ b)) (by intro a b c; simp; omega) (by intro a b; simp; omega) ((cells.map (·.id)).dedup)
      exact this.imp (by intro a b h; simpa using h)
    exact (hle.and (unitIds_nodup cells)).imp (by rintro a b ⟨h1, h2⟩; exact lt_of_le_of_ne h1 h2)
  refine ⟨rows, (rows.map (·.area)).sum, by unfold attributes; rw [h1]; rfl, hids _ _ h2, hsort, fun u => mem_unitIds, fun r hr => ?_, ?_⟩
  · rw [hsum _ _ h2 r hr]
    have := round2_near (((cells.filter fun c => decide (c.id = r.id)).length : ℝ) * resX * resY)
    rw [mul_assoc] at this ⊢
    exact this
  · rintro ⟨n, hn⟩
    have hex : ∀ r ∈ rows, r.area = ((cells.filter fun c => decide (c.id = r.id)).length : ℝ) * (resX * resY) := by
      intro r hr
      rw [hsum _ _ h2 r hr, mul_assoc, hn]
      have e : ((cells.filter fun c => decide (c.id = r.id)).length : ℝ) * ((n : ℝ) / 100)
          = (((cells.filter fun c => decide (c.id = r.id)).length * n : ℤ) : ℝ) / 100 := by push_cast; ring
      rw [e, round2_exact]
    refine ⟨hex, ?_⟩
    have e1 : rows.map (·.area) = (unitIds cells).map fun u => ((cells.filter fun c => decide (c.id = u)).length : ℝ) * (resX * resY) := by
      rw [← hids _ _ h2, List.map_map]
      exact List.map_congr_left hex
    rw [e1, List.sum_map_mul_right]
    congr 1
    have e2 : (cells.filter fun c => decide (c.id ∈ unitIds cells)).length = (cells.filter fun c => decide (c.id ≠ 0)).length := by
      congr 1
      refine List.filter_congr (fun c hc => ?_)
      rw [decide_eq_decide, mem_unitIds]
      exact ⟨fun h => h.1, fun h => ⟨h, c, hc, rfl⟩⟩
    rw [← e2, ← count_by_id cells _ (unitIds_nodup cells)]
    induction unitIds cells with
    | nil => simp
    | cons u l ih => simp only [List.map_cons, List.sum_cons, Nat.cast_add, ih]

/-! ## Aspects -/

/-- The valid aspects as components. -/
theorem valid_map (f : ℝ → ℝ) (as : List (Option ℝ)) : valid (as.map fun a => a.map f) = (valid as).map f := by
  unfold valid
  induction as with
  | nil => rfl
  | cons a as ih => cases a <;> simp_all

theorem positive_range {t : ℝ} (h1 : -Real.pi < t) (h2 : t ≤ Real.pi) :
    0 ≤ positive (degrees t) ∧ positive (degrees t) < 360 ∧ ∃ k : ℤ, radians (positive (degrees t)) = t + k * (2 * Real.pi) := by
  have hp := Real.pi_pos
  have e : degrees t = t * 180 / Real.pi := by unfold degrees; ring
  have b1 : -180 < degrees t := by rw [e, lt_div_iff₀ hp]; linarith
  have b2 : degrees t ≤ 180 := by rw [e, div_le_iff₀ hp]; linarith
  unfold positive
  split_ifs with h
  · refine ⟨by linarith, by linarith, 1, ?_⟩
    unfold radians degrees; field_simp; push_cast; ring
  · refine ⟨by linarith, by linarith, 0, ?_⟩
    unfold radians degrees; field_simp; push_cast; ring

/-- **The aspect of a unit** is in [0, 360) and has the direction of the sum of the directions of the cells that have an aspect. -/
theorem c94_aspect (as : List (Option ℝ)) (h : ∃ x, some x ∈ as) :
    ∃ a r, meanAspect as = some a ∧ 0 ≤ a ∧ a < 360 ∧ 0 ≤ r ∧
      ((valid as).map fun x => Real.cos (radians x)).sum = r * Real.cos (radians a) ∧
      ((valid as).map fun x => Real.sin (radians x)).sum = r * Real.sin (radians a) := by
  obtain ⟨x, hx⟩ := h
  have hne : valid as ≠ [] := List.ne_nil_of_mem (mem_valid.mpr hx)
  have hn : (0:ℝ) < (valid as).length := by have := List.length_pos_of_ne_nil hne; exact_mod_cast this
  have hm : ∀ f : ℝ → ℝ, nanmean (as.map fun a => a.map f) = some (((valid as).map f).sum / ((valid as).length : ℝ)) := by
    intro f
    unfold nanmean
    rw [valid_map, if_neg (by rw [List.map_eq_nil_iff]; exact hne), List.length_map]
  unfold meanAspect
  rw [hm (fun x => Real.sin (radians x)), hm (fun x => Real.cos (radians x))]
  set S := ((valid as).map fun x => Real.sin (radians x)).sum
  set C := ((valid as).map fun x => Real.cos (radians x)).sum
  set n := ((valid as).length : ℝ)
  set z : ℂ := ⟨C / n, S / n⟩ with hz
  obtain ⟨r1, r2, k, hk⟩ := positive_range (Complex.neg_pi_lt_arg z) (Complex.arg_le_pi z)
  refine ⟨_, ‖z‖ * n, rfl, r1, r2, mul_nonneg (norm_nonneg _) hn.le, ?_, ?_⟩
  · have hc : Real.cos (radians (positive (degrees (atan2 (S / n) (C / n))))) = Real.cos (Complex.arg z) := by
      show Real.cos (radians (positive (degrees (Complex.arg z)))) = _
      rw [hk, Real.cos_add_int_mul_two_pi]
    have := Complex.norm_mul_cos_arg z
    rw [hc, mul_right_comm, this]
    show C = C / n * n
    field_simp
  · have hc : Real.sin (radians (positive (degrees (atan2 (S / n) (C / n))))) = Real.sin (Complex.arg z) := by
      show Real.sin (radians (positive (degrees (Complex.arg z)))) = _
      rw [hk, Real.sin_add_int_mul_two_pi]
    have := Complex.norm_mul_sin_arg z
    rw [hc, mul_right_comm, this]
    show S = S / n * n
    field_simp

/-- The aspect depends neither on the order of the cells nor on those without aspect. -/
theorem c94_aspect_order (as bs : List (Option ℝ)) (h : (valid as).Perm (valid bs)) : meanAspect as = meanAspect bs := by
  have hm : ∀ f : ℝ → ℝ, nanmean (as.map fun a => a.map f) = nanmean (bs.map fun a => a.map f) := by
    intro f
    unfold nanmean
    rw [valid_map, valid_map]
    have hp := h.map f
    have e1 : ((valid as).map f = []) ↔ ((valid bs).map f = []) := by
      constructor
      · intro he; rw [he] at hp; exact hp.symm.eq_nil
      · intro he; rw [he] at hp; exact hp.eq_nil
    by_cases hc : (valid as).map f = []
    · rw [if_pos hc, if_pos (e1.mp hc)]
    · rw [if_neg hc, if_neg (fun h => hc (e1.mpr h)), hp.sum_eq, hp.length_eq]
  unfold meanAspect
  rw [hm, hm]

/-- Cells all facing one direction: this is the aspect of the unit. -/
theorem c94_aspect_same (x : ℝ) (h0 : 0 ≤ x) (h1 : x < 360) (as : List (Option ℝ)) (hs : some x ∈ as) (hall : ∀ y, some y ∈ as → y = x) : meanAspect as = some x := by
  obtain ⟨a, r, ha, a0, a1, r0, hc, hsn⟩ := c94_aspect as ⟨x, hs⟩
  rw [ha]
  have hne : valid as ≠ [] := List.ne_nil_of_mem (mem_valid.mpr hs)
  have hn : (0:ℝ) < (valid as).length := by have := List.length_pos_of_ne_nil hne; exact_mod_cast this
  have hv : ∀ f : ℝ → ℝ, ((valid as).map f).sum = (valid as).length * f x := by
    intro f
    have : (valid as).map f = List.replicate (valid as).length (f x) := by
      rw [List.eq_replicate_iff, List.length_map]
      refine ⟨rfl, fun b hb => ?_⟩
      rw [List.mem_map] at hb
      obtain ⟨y, hy, rfl⟩ := hb
      rw [hall y (mem_valid.mp hy)]
    rw [this, List.sum_replicate, nsmul_eq_mul]
  rw [hv] at hc hsn
  have hr : r = (valid as).length := by
    have e1 := Real.sin_sq_add_cos_sq (radians x)
    have e2 := Real.sin_sq_add_cos_sq (radians a)
    have : r ^ 2 = ((valid as).length : ℝ) ^ 2 := by
      calc r ^ 2 = r ^ 2 * (Real.sin (radians a) ^ 2 + Real.cos (radians a) ^ 2) := by rw [e2, mul_one]
        _ = (r * Real.sin (radians a)) ^ 2 + (r * Real.cos (radians a)) ^ 2 := by ring
        _ = ((valid as).length * Real.sin (radians x)) ^ 2 + ((valid as).length * Real.cos (radians x)) ^ 2 := by rw [hc, hsn]
        _ = ((valid as).length : ℝ) ^ 2 * (Real.sin (radians x) ^ 2 + Real.cos (radians x) ^ 2) := by ring
        _ = _ := by rw [e1, mul_one]
    exact (pow_left_inj₀ r0 hn.le (by norm_num)).mp this
  rw [hr] at hc hsn
  have c1 := mul_left_cancel₀ hn.ne' hc
  have c2 := mul_left_cancel₀ hn.ne' hsn
  have hang : Real.cos (radians x - radians a) = 1 := by
    rw [Real.cos_sub, c1, c2]; have := Real.sin_sq_add_cos_sq (radians a); nlinarith
  obtain ⟨k, hk⟩ := (Real.cos_eq_one_iff _).mp hang
  have hp := Real.pi_pos
  have hd : (k : ℝ) * 360 = x - a := by
    have : (k : ℝ) * (2 * Real.pi) = (x - a) * (Real.pi / 180) := by rw [hk]; unfold radians; ring
    have h2 : ((k : ℝ) * 360 - (x - a)) * Real.pi = 0 := by linarith [this]
    rcases mul_eq_zero.mp h2 with h | h
    · linarith
    · exact absurd h hp.ne'
  have k0 : k = 0 := by
    have l1 : (k : ℝ) < 1 := by linarith
    have l2 : (-1 : ℝ) < k := by linarith
    have l1' : k < 1 := by exact_mod_cast l1
    have l2' : -1 < k := by exact_mod_cast l2
    omega
  rw [k0] at hd
  congr 1; push_cast at hd; linarith

/-- Slopes facing somewhat east and equally west of the north face the north together (the mean of the numbers, 180, is the south). -/
theorem c94_north (x : ℝ) (h0 : 0 ≤ x) (h1 : x < 90) : meanAspect [some x, some (360 - x)] = some 0 := by
  obtain ⟨a, r, ha, a0, a1, r0, hc, hs⟩ := c94_aspect [some x, some (360 - x)] ⟨x, by simp⟩
  have hp := Real.pi_pos
  have e : radians (360 - x) = 2 * Real.pi - radians x := by unfold radians; ring
  have hx0 : 0 ≤ radians x := by unfold radians; positivity
  have hx1 : radians x < Real.pi / 2 := by unfold radians; nlinarith
  have hcos : 0 < Real.cos (radians x) := Real.cos_pos_of_mem_Ioo ⟨by linarith, hx1⟩
  simp only [valid, List.filterMap_cons, List.filterMap_nil, id_eq, List.map_cons, List.map_nil, List.sum_cons, List.sum_nil, e, Real.cos_two_pi_sub, Real.sin_two_pi_sub] at hc hs
  have hrpos : 0 < r := lt_of_le_of_ne r0 (by rintro rfl; simp at hc; linarith)
  have hca : 0 < Real.cos (radians a) := by
    by_contra hn
    have : r * Real.cos (radians a) ≤ 0 := mul_nonpos_of_nonneg_of_nonpos r0 (not_lt.mp hn)
    linarith
  have hsa : Real.sin (radians a) = 0 := by
    have : r * Real.sin (radians a) = 0 := by linarith
    rcases mul_eq_zero.mp this with h | h
    · linarith
    · exact h
  have hone : Real.cos (radians a) = 1 := by
    have := Real.sin_sq_add_cos_sq (radians a)
    rw [hsa] at this
    nlinarith
  obtain ⟨k, hk⟩ := (Real.cos_eq_one_iff _).mp hone
  have hd : (k : ℝ) * 360 = a := by
    have : (k : ℝ) * (2 * Real.pi) = a * (Real.pi / 180) := by rw [hk]; rfl
    have h2 : ((k : ℝ) * 360 - a) * Real.pi = 0 := by linarith [this]
    rcases mul_eq_zero.mp h2 with h | h
    · linarith
    · exact absurd h hp.ne'
  have k0 : k = 0 := by
    have l1 : (k : ℝ) < 1 := by linarith
    have l2 : (-1 : ℝ) < k := by linarith
    have l1' : k < 1 := by exact_mod_cast l1
    have l2' : -1 < k := by exact_mod_cast l2
    omega
  rw [ha, ← hd, k0]; simp

/-- Cells without any aspect: the unit has none. -/
theorem c94_aspect_none (as : List (Option ℝ)) (h : ∀ a ∈ as, a = none) : meanAspect as = none := by
  have : valid as = [] := by
    rw [List.eq_nil_iff_forall_not_mem]; intro x hx; have := h _ (mem_valid.mp hx); cases this
  unfold meanAspect nanmean
  rw [valid_map, valid_map, this]; simp

/-- A flat cell, which the slope library gives the aspect -1, counts as facing the north: a flat unit has the aspect 359. -/
theorem c94_flat : meanAspect [some (-1), some (-1)] = some 359 := by
  have e : meanAspect [some (-1), some (-1)] = meanAspect [some 359, some 359] := by
    have hc : Real.cos (radians 359) = Real.cos (radians (-1)) := by
      have : radians 359 = radians (-1) + 2 * Real.pi := by unfold radians; ring
      rw [this, Real.cos_add_two_pi]
    have hs : Real.sin (radians 359) = Real.sin (radians (-1)) := by
      have : radians 359 = radians (-1) + 2 * Real.pi := by unfold radians; ring
      rw [this, Real.sin_add_two_pi]
    unfold meanAspect
    simp only [List.map_cons, List.map_nil, Option.map_some, hc, hs]
  rw [e]
  exact c94_aspect_same 359 (by norm_num) (by norm_num) _ (by simp) (by simp)

/-- Slopes facing east and west cancel out: the unit faces the north. -/
theorem c94_opposite : meanAspect [some 90, some 270] = some 0 := by
  have s1 : Real.sin (radians 90) = 1 := by have : radians 90 = Real.pi / 2 := by unfold radians; ring
                                            rw [this, Real.sin_pi_div_two]
  have c1 : Real.cos (radians 90) = 0 := by have : radians 90 = Real.pi / 2 := by unfold radians; ring
                                            rw [this, Real.cos_pi_div_two]
  have s2 : Real.sin (radians 270) = -1 := by
    have : radians 270 = Real.pi / 2 + Real.pi := by unfold radians; ring
    rw [this, Real.sin_add_pi, Real.sin_pi_div_two]
  have c2 : Real.cos (radians 270) = 0 := by
    have : radians 270 = Real.pi / 2 + Real.pi := by unfold radians; ring
    rw [this, Real.cos_add_pi, Real.cos_pi_div_two, neg_zero]
  have hz : (⟨0, 0⟩ : ℂ) = 0 := rfl
  unfold meanAspect nanmean valid
  simp [s1, c1, s2, c2, atan2, degrees, positive, hz]

/-- A raster of five cells, two units and one cell outside; a cell of the first unit has no elevation and no slope. -/
def exampleCells : List Cell :=
  [⟨2, some 1500, some 10, some 350⟩, ⟨1, some 1200, some 5, some 90⟩, ⟨0, some 900, some 1, some 10⟩, ⟨1, none, none, none⟩, ⟨2, some 1600, some 20, some 10⟩]

theorem c94_example : unitIds exampleCells = [1, 2] ∧ (∃ c ∈ exampleCells, c.id = 1 ∧ c.elev ≠ none) ∧ (∃ n : ℤ, (25 : ℝ) * 25 = (n : ℝ) / 100) ∧
    ∃ rows, attributes 25 25 exampleCells = .ok (rows, 2500) := by
  have hn : ∃ n : ℤ, (25 : ℝ) * 25 = (n : ℝ) / 100 := ⟨62500, by norm_num⟩
  have hid : unitIds exampleCells = [1, 2] := by
    have hd : (exampleCells.map (·.id)).dedup = [0, 1, 2] := by unfold exampleCells; decide
    unfold unitIds
    rw [hd, List.mergeSort_of_pairwise (by decide)]
    decide
  refine ⟨hid, ⟨⟨1, some 1200, some 5, some 90⟩, by simp [exampleCells], rfl, by simp⟩, hn, ?_⟩
  obtain ⟨rows, area, h, _, _, _, _, h5⟩ := c94_table 25 25 exampleCells
  have := (h5 hn).2
  refine ⟨rows, ?_⟩
  rw [h, this]
  simp [exampleCells]
  norm_num

end HB.UnitStats
