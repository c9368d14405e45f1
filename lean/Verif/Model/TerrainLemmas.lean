import Verif.Spec.Terrain
import Mathlib.Algebra.BigOperators.Intervals
import Mathlib.Algebra.Order.BigOperators.Group.Finset
import Mathlib.Algebra.Order.BigOperators.Group.List
import Mathlib.Tactic.Linarith
import Mathlib.Tactic.Ring
import Mathlib.Tactic.FieldSimp
import Mathlib.Tactic.Positivity
import Mathlib.Tactic.SplitIfs

/-! # Lemmas for C77: the loop over the cells -/

namespace HB.Terrain

set_option linter.unusedSectionVars false

open Spec Finset

variable {K : Type} [Field K] [LinearOrder K] [IsStrictOrderedRing K]

/-- The value under a key, 0 if there is none. -/
def look : List (ℤ × K) → ℤ → K
  | [], _ => 0
  | e :: r, v => if e.1 = v then e.2 else look r v

theorem look_mem {d : List (ℤ × K)} (hn : (d.map Prod.fst).Nodup) {e : ℤ × K} (he : e ∈ d) : look d e.1 = e.2 := by
  induction d with
  | nil => cases he
  | cons a r ih =>
    simp only [List.map_cons, List.nodup_cons] at hn
    rcases List.mem_cons.1 he with rfl | h
    · simp [look]
    · have : a.1 ≠ e.1 := fun hh => hn.1 (hh ▸ List.mem_map_of_mem h)
      simp [look, this, ih hn.2 h]

theorem look_not_mem {d : List (ℤ × K)} {v : ℤ} (h : v ∉ d.map Prod.fst) : look d v = 0 := by
  induction d with
  | nil => rfl
  | cons a r ih =>
    simp only [List.map_cons, List.mem_cons, not_or] at h
    rw [look, if_neg (Ne.symm h.1), ih h.2]

theorem look_addTo (d : List (ℤ × K)) (k v : ℤ) (x : K) : look (addTo d k x) v = look d v + if k = v then x else 0 := by
  induction d with
  | nil => simp [addTo, look]
  | cons a r ih =>
    rw [addTo]
    by_cases h : a.1 = k
    · rw [if_pos h]
      by_cases hv : a.1 = v
      · simp [look, hv, ← h]
      · have : ¬ k = v := fun e => hv (h.trans e)
        simp [look, hv, this]
    · rw [if_neg h]
      by_cases hv : a.1 = v
      · have : ¬ k = v := fun e => h (hv.trans e.symm)
        simp [look, hv, this]
      · simp [look, hv, ih]

theorem keys_addTo (d : List (ℤ × K)) (k v : ℤ) (x : K) : v ∈ (addTo d k x).map Prod.fst ↔ v ∈ d.map Prod.fst ∨ v = k := by
  induction d with
  | nil => simp [addTo]
  | cons a r ih =>
    rw [addTo]
    by_cases h : a.1 = k
    · rw [if_pos h]
      simp only [List.map_cons, List.mem_cons]
      constructor
      · exact fun hh => .inl hh
      · rintro (hh | hh)
        · exact hh
        · exact .inl (hh.trans h.symm)
    · rw [if_neg h]
      simp only [List.map_cons, List.mem_cons]
      rw [ih]; tauto

theorem nodup_addTo (d : List (ℤ × K)) (k : ℤ) (x : K) (h : (d.map Prod.fst).Nodup) : ((addTo d k x).map Prod.fst).Nodup := by
  induction d with
  | nil => simp [addTo]
  | cons a r ih =>
    simp only [List.map_cons, List.nodup_cons] at h
    rw [addTo]
    by_cases hk : a.1 = k
    · rw [if_pos hk]; simpa using h
    · rw [if_neg hk]
      simp only [List.map_cons, List.nodup_cons]
      refine ⟨fun hh => ?_, ih h.2⟩
      rcases (keys_addTo r k a.1 x).1 hh with h1 | h1
      · exact h.1 h1
      · exact hk h1

theorem offset_code (c : Compass) : offset c.code = some (c.down, c.right) := by cases c <;> rfl

theorem code_pos (c : Compass) : 0 < c.code := by cases c <;> simp [Compass.code]

theorem code_inj {c c' : Compass} (h : c.code = c'.code) : c = c' := by
  cases c <;> cases c' <;> first | rfl | (exact absurd h (by decide))

/-- The cell gives something from `u` to `v`. -/
def Gives (m : Maps K) (c : ℕ × ℕ) (u v : ℤ) : Prop := m.unit c.1 c.2 = u ∧ u ≠ 0 ∧ v ≠ u ∧ FlowsInto m c.1 c.2 v

theorem flowsInto_unique {m : Maps K} {i j : ℕ} {v w : ℤ} (h : FlowsInto m i j v) (h' : FlowsInto m i j w) : v = w := by
  obtain ⟨c, hc, a, b, e1, e2, _, _, e3⟩ := h
  obtain ⟨c', hc', a', b', f1, f2, _, _, f3⟩ := h'
  have : c = c' := code_inj (hc.symm.trans hc')
  subst this
  have : a = a' := by omega
  subst this
  have : b = b' := by omega
  subst this
  exact e3.symm.trans f3

open scoped Classical in
theorem cell_spec {m : Maps K} {ids : List ℤ} (h : Proper m ids) (st : ℤ → List (ℤ × K)) (c : ℕ × ℕ) (hi : c.1 < m.rows)
    (hj : c.2 < m.cols) : ∃ st', cell m ids st c = .ok st' ∧ ∀ u,
      (((st u).map Prod.fst).Nodup → ((st' u).map Prod.fst).Nodup) ∧
      (∀ v, look (st' u) v = look (st u) v + if Gives m c u v then m.acc c.1 c.2 else 0) ∧
      (∀ v, v ∈ (st' u).map Prod.fst ↔ v ∈ (st u).map Prod.fst ∨ Gives m c u v) := by
  have same : (∀ u v, ¬ Gives m c u v) → ∃ st', (Except.ok st : Except Err _) = .ok st' ∧ ∀ u,
      (((st u).map Prod.fst).Nodup → ((st' u).map Prod.fst).Nodup) ∧
      (∀ v, look (st' u) v = look (st u) v + if Gives m c u v then m.acc c.1 c.2 else 0) ∧
      (∀ v, v ∈ (st' u).map Prod.fst ↔ v ∈ (st u).map Prod.fst ∨ Gives m c u v) :=
    fun hg => ⟨st, rfl, fun u => ⟨id, fun v => by simp [hg u v], fun v => by simp [hg u v]⟩⟩
  unfold cell
  simp only
  by_cases h0 : m.unit c.1 c.2 = 0
  · rw [if_pos h0]
    exact same fun u v hg => hg.2.1 (hg.1 ▸ h0)
  rw [if_neg h0]
  by_cases hd : m.dir c.1 c.2 ≤ 0
  · rw [if_pos hd]
    refine same fun u v hg => ?_
    obtain ⟨d, hd', _⟩ := hg.2.2.2
    have := code_pos d; omega
  rw [if_neg hd]
  rcases h.direction c.1 c.2 hi hj with hh | ⟨d, hdir⟩
  · exact absurd hh hd
  rw [hdir, offset_code]
  simp only
  by_cases hout : (c.1 : ℤ) + d.down < 0 ∨ (m.rows : ℤ) ≤ (c.1 : ℤ) + d.down ∨ (c.2 : ℤ) + d.right < 0 ∨
      (m.cols : ℤ) ≤ (c.2 : ℤ) + d.right
  · rw [if_pos hout]
    refine same fun u v hg => ?_
    obtain ⟨d', hd', a, b, e1, e2, e3, e4, _⟩ := hg.2.2.2
    have := code_inj (hdir.symm.trans hd')
    subst this
    omega
  rw [if_neg hout]
  push Not at hout
  obtain ⟨o1, o2, o3, o4⟩ := hout
  set v := m.unit ((c.1 : ℤ) + d.down).toNat ((c.2 : ℤ) + d.right).toNat with hv
  have hfl : FlowsInto m c.1 c.2 v := ⟨d, hdir, _, _, Int.toNat_of_nonneg o1, Int.toNat_of_nonneg o3, by omega, by omega, rfl⟩
  by_cases hs : v = m.unit c.1 c.2
  · rw [if_pos hs]
    refine same fun u w hg => ?_
    have := flowsInto_unique hg.2.2.2 hfl
    exact hg.2.2.1 (this.trans (hs.trans hg.1))
  rw [if_neg hs]
  have hin : m.unit c.1 c.2 ∈ ids := (h.mapped c.1 c.2 hi hj).resolve_left h0
  rw [if_pos hin]
  refine ⟨_, rfl, fun u => ?_⟩
  by_cases hu : u = m.unit c.1 c.2
  · have hg : ∀ w, Gives m c u w ↔ v = w := by
      intro w
      constructor
      · exact fun hg => (flowsInto_unique hg.2.2.2 hfl).symm
      · rintro rfl; exact ⟨hu.symm, hu ▸ h0, hu ▸ hs, hfl⟩
    rw [hu, Function.update_self]
    rw [hu] at hg
    refine ⟨nodup_addTo _ _ _, fun w => ?_, fun w => ?_⟩
    · rw [look_addTo]
      by_cases e : v = w
      · rw [if_pos e, if_pos ((hg w).2 e)]
      · rw [if_neg e, if_neg (fun x => e ((hg w).1 x))]
    · rw [keys_addTo, hg w]
      constructor
      · rintro (a | a)
        · exact .inl a
        · exact .inr a.symm
      · rintro (a | a)
        · exact .inl a
        · exact .inr a.symm
  · rw [Function.update_of_ne hu]
    have hg : ∀ w, ¬ Gives m c u w := fun w hg => hu hg.1.symm
    exact ⟨id, fun v => by simp [hg v], fun v => by simp [hg v]⟩

open scoped Classical in
theorem cellLoop_spec {m : Maps K} {ids : List ℤ} (h : Proper m ids) (cs : List (ℕ × ℕ)) (st : ℤ → List (ℤ × K))
    (hc : ∀ c ∈ cs, c.1 < m.rows ∧ c.2 < m.cols) : ∃ st', cellLoop m ids cs st = .ok st' ∧ ∀ u,
      (((st u).map Prod.fst).Nodup → ((st' u).map Prod.fst).Nodup) ∧
      (∀ v, look (st' u) v = look (st u) v + (cs.map fun c => if Gives m c u v then m.acc c.1 c.2 else 0).sum) ∧
      (∀ v, v ∈ (st' u).map Prod.fst ↔ v ∈ (st u).map Prod.fst ∨ ∃ c ∈ cs, Gives m c u v) := by
  induction cs generalizing st with
  | nil => exact ⟨st, rfl, fun u => ⟨id, fun v => by simp, fun v => by simp⟩⟩
  | cons c r ih =>
    obtain ⟨st1, e1, f1⟩ := cell_spec h st c (hc c (by simp)).1 (hc c (by simp)).2
    obtain ⟨st2, e2, f2⟩ := ih st1 fun x hx => hc x (by simp [hx])
    refine ⟨st2, by rw [cellLoop, e1]; exact e2, fun u => ⟨fun hh => (f2 u).1 ((f1 u).1 hh), fun v => ?_, fun v => ?_⟩⟩
    · rw [(f2 u).2.1, (f1 u).2.1, List.map_cons, List.sum_cons, add_assoc]
    · rw [(f2 u).2.2, (f1 u).2.2]
      simp only [List.mem_cons, exists_eq_or_imp, or_assoc]

theorem mem_cells {m : Maps K} {c : ℕ × ℕ} : c ∈ cells m ↔ c.1 < m.rows ∧ c.2 < m.cols := by
  obtain ⟨i, j⟩ := c
  simp only [cells, List.mem_flatMap, List.mem_range, List.mem_map, Prod.mk.injEq]
  constructor
  · rintro ⟨a, ha, b, hb, rfl, rfl⟩; exact ⟨ha, hb⟩
  · rintro ⟨a, b⟩; exact ⟨i, a, j, b, rfl, rfl⟩

theorem sum_range_list (n : ℕ) (f : ℕ → K) : ((List.range n).map f).sum = ∑ i ∈ range n, f i := by
  induction n with
  | zero => simp
  | succ n ih => rw [List.range_succ, List.map_append, List.sum_append, ih, sum_range_succ]; simp

theorem sum_cells (m : Maps K) (f : ℕ × ℕ → K) : ((cells m).map f).sum = ∑ i ∈ range m.rows, ∑ j ∈ range m.cols, f (i, j) := by
  unfold cells
  rw [← sum_range_list]
  induction m.rows with
  | zero => simp
  | succ n ih =>
    rw [List.range_succ, List.flatMap_append, List.map_append, List.sum_append, ih, List.map_append, List.sum_append]
    simp [← sum_range_list, Function.comp_def]

/-- The dictionary of a unit after the loop: each receiver once, with what flows to it. -/
theorem flows_spec {m : Maps K} {ids : List ℤ} (h : Proper m ids) : ∃ st, flows m ids = .ok st ∧ ∀ u, u ≠ 0 →
      ((st u).map Prod.fst).Nodup ∧
      (∀ v, v ≠ u → look (st u) v = flow m u v) ∧
      (∀ v, v ∈ (st u).map Prod.fst ↔ v ≠ u ∧ ∃ i j, i < m.rows ∧ j < m.cols ∧ m.unit i j = u ∧ FlowsInto m i j v) := by
  classical
  obtain ⟨st, e, f⟩ := cellLoop_spec h (cells m) (fun _ => []) fun c hc => mem_cells.1 hc
  refine ⟨st, e, fun u hu => ⟨(f u).1 (by simp), fun v hv => ?_, fun v => ?_⟩⟩
  · rw [(f u).2.1, sum_cells]
    simp only [look, zero_add, flow]
    refine sum_congr rfl fun i _ => sum_congr rfl fun j _ => ?_
    have : Gives m (i, j) u v ↔ m.unit i j = u ∧ FlowsInto m i j v := by
      simp [Gives, hu, hv]
    simp only [this]
  · rw [(f u).2.2]
    simp only [List.map_nil, List.not_mem_nil, false_or]
    constructor
    · rintro ⟨c, hc, g1, _, g3, g4⟩
      exact ⟨g3, c.1, c.2, (mem_cells.1 hc).1, (mem_cells.1 hc).2, g1, g4⟩
    · rintro ⟨hv, i, j, hi, hj, g1, g2⟩
      exact ⟨(i, j), mem_cells.2 ⟨hi, hj⟩, g1, hu, hv, g2⟩

/-- Receivers get a positive amount, others nothing. -/
theorem flow_pos {m : Maps K} {ids : List ℤ} (h : Proper m ids) {u : ℤ} (hu : u ≠ 0) (v : ℤ) :
    0 ≤ flow m u v ∧ (0 < flow m u v ↔ ∃ i j, i < m.rows ∧ j < m.cols ∧ m.unit i j = u ∧ FlowsInto m i j v) := by
  classical
  have nn : ∀ i ∈ range m.rows, ∀ j ∈ range m.cols, (0 : K) ≤ if m.unit i j = u ∧ FlowsInto m i j v then m.acc i j else 0 := by
    intro i hi j hj
    split_ifs with hh
    · exact (h.amount i j (mem_range.1 hi) (mem_range.1 hj) (hh.1 ▸ hu)).le
    · exact le_rfl
  have n1 : ∀ i ∈ range m.rows, (0 : K) ≤ ∑ j ∈ range m.cols, if m.unit i j = u ∧ FlowsInto m i j v then m.acc i j else 0 :=
    fun i hi => sum_nonneg (nn i hi)
  refine ⟨sum_nonneg n1, ?_⟩
  constructor
  · intro hp
    by_contra hne
    push Not at hne
    have : flow m u v = 0 := by
      refine sum_eq_zero fun i hi => sum_eq_zero fun j hj => ?_
      rw [if_neg]
      rintro ⟨a, b⟩
      exact hne i j (mem_range.1 hi) (mem_range.1 hj) a b
    rw [this] at hp; exact lt_irrefl _ hp
  · rintro ⟨i, j, hi, hj, a, b⟩
    refine lt_of_lt_of_le ?_ (single_le_sum n1 (mem_range.2 hi))
    refine lt_of_lt_of_le ?_ (single_le_sum (nn i (mem_range.2 hi)) (mem_range.2 hj))
    rw [if_pos ⟨a, b⟩]
    exact h.amount i j hi hj (a ▸ hu)

end HB.Terrain
