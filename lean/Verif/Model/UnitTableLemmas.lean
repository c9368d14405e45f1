import Verif.Spec.UnitTable
import Mathlib.Algebra.Order.Field.Basic
import Mathlib.Algebra.BigOperators.Group.Finset.Basic
import Mathlib.Algebra.BigOperators.Group.List.Basic
import Mathlib.Tactic.Ring
import Mathlib.Tactic.Linarith
import Mathlib.Tactic.FieldSimp

/-! # Lemmas about the table of hydro units -/

namespace HB.UnitTable

open HB.Spec.UnitTable

set_option linter.unusedSectionVars false

variable {K : Type} [Field K] [LinearOrder K]

/-! ## Areas from the map -/

def get (d : List (ℤ × K)) (u : ℤ) : K := ((d.filter fun e => decide (e.1 = u)).map Prod.snd).sum

theorem get_cons (e : ℤ × K) (d : List (ℤ × K)) (u : ℤ) : get (e :: d) u = (if e.1 = u then e.2 else 0) + get d u := by
  unfold get
  rw [List.filter_cons]
  by_cases h : e.1 = u <;> simp [h]

theorem get_append (d e : List (ℤ × K)) (u : ℤ) : get (d ++ e) u = get d u + get e u := by
  unfold get; rw [List.filter_append, List.map_append, List.sum_append]

theorem get_absent (d : List (ℤ × K)) (u : ℤ) (h : u ∉ d.map Prod.fst) : get d u = 0 := by
  induction d with
  | nil => rfl
  | cons e d ih =>
    rw [List.map_cons, List.mem_cons, not_or] at h
    rw [get_cons, ih h.2, if_neg (fun he => h.1 he.symm), zero_add]

theorem get_mem (d : List (ℤ × K)) (hn : (d.map Prod.fst).Nodup) (e : ℤ × K) (h : e ∈ d) : get d e.1 = e.2 := by
  induction d with
  | nil => cases h
  | cons a d ih =>
    rw [List.map_cons, List.nodup_cons] at hn
    rw [get_cons]
    rcases List.mem_cons.1 h with rfl | h
    · rw [if_pos rfl, get_absent d _ hn.1, add_zero]
    · rw [if_neg, zero_add, ih hn.2 h]
      intro ha
      exact hn.1 (ha ▸ List.mem_map_of_mem h)

theorem ids_map (d : List (ℤ × K)) (u : ℤ) (a : K) :
    (d.map fun e => if e.1 = u then (e.1, e.2 + a) else e).map Prod.fst = d.map Prod.fst := by
  rw [List.map_map]
  apply List.map_congr_left
  intro e _
  simp only [Function.comp]
  split <;> rfl

theorem any_iff (d : List (ℤ × K)) (u : ℤ) : d.any (fun e => e.1 == u) = true ↔ u ∈ d.map Prod.fst := by
  rw [List.any_eq_true, List.mem_map]
  constructor
  · rintro ⟨e, h, he⟩; exact ⟨e, h, eq_of_beq he⟩
  · rintro ⟨e, h, he⟩; exact ⟨e, h, beq_iff_eq.2 he⟩

theorem mem_addArea (d : List (ℤ × K)) (u : ℤ) (a : K) (v : ℤ) :
    v ∈ (addArea d u a).map Prod.fst ↔ v ∈ d.map Prod.fst ∨ v = u := by
  unfold addArea
  split
  · next h =>
    rw [ids_map]
    constructor
    · exact Or.inl
    · rintro (h' | rfl)
      · exact h'
      · exact (any_iff d _).1 h
  · rw [List.map_append, List.mem_append]; simp

theorem nodup_addArea (d : List (ℤ × K)) (u : ℤ) (a : K) (h : (d.map Prod.fst).Nodup) :
    ((addArea d u a).map Prod.fst).Nodup := by
  unfold addArea
  split
  · rw [ids_map]; exact h
  · next hn =>
    rw [any_iff] at hn
    rw [List.map_append]
    refine List.nodup_append.2 ⟨h, by simp, ?_⟩
    intro x hx y hy hxy
    simp only [List.map_cons, List.map_nil, List.mem_singleton] at hy
    subst hy; subst hxy
    exact hn hx

theorem get_map (d : List (ℤ × K)) (u : ℤ) (a : K) (h : (d.map Prod.fst).Nodup) (v : ℤ) :
    get (d.map fun e => if e.1 = u then (e.1, e.2 + a) else e) v =
      get d v + if v = u ∧ u ∈ d.map Prod.fst then a else 0 := by
  induction d with
  | nil => simp [get]
  | cons e d ih =>
    rw [List.map_cons, List.nodup_cons] at h
    rw [List.map_cons, get_cons, get_cons, ih h.2]
    by_cases he : e.1 = u
    · have hu : u ∉ d.map Prod.fst := he ▸ h.1
      by_cases hv : v = u
      · subst hv
        simp only [he, if_true, hu, and_false, if_false, List.map_cons, List.mem_cons, true_or, and_self, add_zero]
        ring
      · have hv' : ¬ u = v := fun h => hv h.symm
        simp only [he, if_true, hv, hv', false_and, if_false, add_zero]
    · rw [if_neg he]
      have : (u ∈ (e :: d).map Prod.fst) ↔ u ∈ d.map Prod.fst := by
        rw [List.map_cons, List.mem_cons]
        exact ⟨fun h => h.resolve_left (fun h' => he h'.symm), Or.inr⟩
      simp only [this]; ring

theorem get_addArea (d : List (ℤ × K)) (u : ℤ) (a : K) (h : (d.map Prod.fst).Nodup) (v : ℤ) :
    get (addArea d u a) v = get d v + if v = u then a else 0 := by
  unfold addArea
  split
  · next hm =>
    rw [any_iff] at hm
    rw [get_map d u a h]
    simp only [hm, and_true]
  · rw [get_append]
    congr 1
    rw [get_cons]
    simp only [get, List.filter_nil, List.map_nil, List.sum_nil, add_zero]
    by_cases hv : v = u
    · rw [if_pos hv.symm, if_pos hv]
    · rw [if_neg (fun h => hv h.symm), if_neg hv]

/-- The inner loop. -/
theorem inner (f : ℤ → K) (us : List ℤ) (hus : us.Nodup) (d : List (ℤ × K)) (h : (d.map Prod.fst).Nodup) :
    ((us.foldl (fun d u => addArea d u (f u)) d).map Prod.fst).Nodup ∧
    (∀ v, v ∈ (us.foldl (fun d u => addArea d u (f u)) d).map Prod.fst ↔ v ∈ d.map Prod.fst ∨ v ∈ us) ∧
    (∀ v, get (us.foldl (fun d u => addArea d u (f u)) d) v = get d v + if v ∈ us then f v else 0) := by
  induction us generalizing d with
  | nil => exact ⟨h, fun v => by simp, fun v => by simp⟩
  | cons u us ih =>
    rw [List.nodup_cons] at hus
    obtain ⟨a, b, c⟩ := ih hus.2 (addArea d u (f u)) (nodup_addArea d u (f u) h)
    rw [List.foldl_cons]
    refine ⟨a, fun v => ?_, fun v => ?_⟩
    · rw [b, mem_addArea, List.mem_cons, or_assoc]
    · rw [c, get_addArea d u _ h]
      by_cases hv : v = u
      · subst hv
        rw [if_pos rfl, if_neg hus.1, if_pos (by simp)]; ring
      · rw [if_neg hv]
        simp only [List.mem_cons, hv, false_or]; ring

theorem mem_unitsOf (cells : List (ℤ × ℤ)) (cl u : ℤ) : u ∈ unitsOf cells cl ↔ u ≠ 0 ∧ (u, cl) ∈ cells := by
  unfold unitsOf
  rw [List.mem_filter, List.mem_insertionSort, List.mem_dedup, List.mem_map]
  constructor
  · rintro ⟨⟨c, hc, rfl⟩, h⟩
    rw [List.mem_filter] at hc
    refine ⟨by simpa using h, ?_⟩
    have := eq_of_beq hc.2
    rw [← this]; exact hc.1
  · rintro ⟨h, hc⟩
    exact ⟨⟨_, List.mem_filter.2 ⟨hc, by simp⟩, rfl⟩, by simpa using h⟩

theorem nodup_unitsOf (cells : List (ℤ × ℤ)) (cl : ℤ) : (unitsOf cells cl).Nodup :=
  ((List.perm_insertionSort _ _).nodup_iff.2 (List.nodup_dedup _)).filter _

/-- Cells of a unit and a class. -/
def both (cells : List (ℤ × ℤ)) (cl u : ℤ) : ℕ := ((cells.filter fun c => c.2 == cl).filter fun c => c.1 == u).length

theorem both_absent (cells : List (ℤ × ℤ)) (cl u : ℤ) (h : (u, cl) ∉ cells) : both cells cl u = 0 := by
  unfold both
  rw [List.length_eq_zero_iff, List.filter_eq_nil_iff]
  intro c hc
  rw [List.mem_filter] at hc
  intro h'
  apply h
  have h1 := eq_of_beq h'
  have h2 := eq_of_beq hc.2
  rw [← h1, ← h2]; exact hc.1

theorem outer (px : K) (cells : List (ℤ × ℤ)) (ms : List (ℤ × String)) (d : List (ℤ × K)) (h : (d.map Prod.fst).Nodup) :
    let d' := ms.foldl (fun d m => (unitsOf cells m.1).foldl (fun d u =>
      addArea d u (((cells.filter fun c => c.2 == m.1).filter fun c => c.1 == u).length * px)) d) d
    (d'.map Prod.fst).Nodup ∧
    (∀ v, v ∈ d'.map Prod.fst ↔ v ∈ d.map Prod.fst ∨ v ≠ 0 ∧ ∃ m ∈ ms, (v, m.1) ∈ cells) ∧
    (∀ v, v ≠ 0 → get d' v = get d v + ((ms.map fun m => both cells m.1 v).sum : ℕ) * px) := by
  induction ms generalizing d with
  | nil => exact ⟨h, fun v => by simp, fun v _ => by simp⟩
  | cons m ms ih =>
    obtain ⟨a, b, c⟩ := inner (fun u => (both cells m.1 u : K) * px) (unitsOf cells m.1) (nodup_unitsOf cells m.1) d h
    obtain ⟨a', b', c'⟩ := ih _ a
    refine ⟨a', fun v => ?_, fun v hv => ?_⟩
    · refine (b' v).trans ?_
      rw [b, mem_unitsOf]
      simp only [List.mem_cons, exists_eq_or_imp]
      tauto
    · refine (c' v hv).trans ?_
      rw [c, List.map_cons, List.sum_cons, Nat.cast_add]
      by_cases hm : v ∈ unitsOf cells m.1
      · rw [if_pos hm]; ring
      · rw [if_neg hm]
        rw [mem_unitsOf] at hm
        rw [both_absent cells m.1 v (fun h => hm ⟨hv, h⟩)]
        push_cast; ring

theorem both_cons (c : ℤ × ℤ) (cells : List (ℤ × ℤ)) (cl u : ℤ) :
    both (c :: cells) cl u = (if c.2 = cl ∧ c.1 = u then 1 else 0) + both cells cl u := by
  unfold both
  rw [List.filter_cons]
  by_cases h : c.2 = cl
  · rw [if_pos (by simpa using h), List.filter_cons]
    by_cases h' : c.1 = u
    · rw [if_pos (by simpa using h'), if_pos ⟨h, h'⟩, List.length_cons]; ring
    · rw [if_neg (by simpa using h'), if_neg (fun x => h' x.2)]; ring
  · rw [if_neg (by simpa using h), if_neg (fun x => h x.1)]; ring

theorem cellsWith_cons (c : ℤ × ℤ) (cells : List (ℤ × ℤ)) (mapping : List (ℤ × String)) (u : ℤ) (name : String) :
    cellsWith (c :: cells) mapping u name = (if c.1 = u ∧ (c.2, name) ∈ mapping then 1 else 0) + cellsWith cells mapping u name := by
  unfold cellsWith
  rw [List.countP_cons]
  simp only [decide_eq_true_eq]
  ring

theorem cellsOf_cons (c : ℤ × ℤ) (cells : List (ℤ × ℤ)) (u : ℤ) :
    cellsOf (c :: cells) u = (if c.1 = u then 1 else 0) + cellsOf cells u := by
  unfold cellsOf
  rw [List.countP_cons]
  simp only [decide_eq_true_eq]
  ring

/-- The classes of a cover counted one by one. -/
theorem sum_both (cells : List (ℤ × ℤ)) (mapping : List (ℤ × String)) (hf : (mapping.map Prod.fst).Nodup) (u : ℤ) (name : String) :
    ((mapping.filter fun m => m.2 == name).map fun m => both cells m.1 u).sum = cellsWith cells mapping u name := by
  induction cells with
  | nil => simp [both, cellsWith]
  | cons c cells ih =>
    rw [cellsWith_cons, ← ih]
    simp only [both_cons]
    rw [List.sum_map_add]
    congr 1
    by_cases hu : c.1 = u
    · simp only [hu, and_true, true_and]
      clear ih
      induction mapping with
      | nil => simp
      | cons m ms ihm =>
        rw [List.map_cons, List.nodup_cons] at hf
        specialize ihm hf.2
        rw [List.filter_cons]
        by_cases hn : m.2 = name
        · rw [if_pos (by simpa using hn), List.map_cons, List.sum_cons, ihm]
          by_cases hc : c.2 = m.1
          · rw [if_pos hc, if_neg, if_pos]
            · rw [hc, ← hn]; exact List.mem_cons_self
            · rw [hc]; intro hmem; exact hf.1 (List.mem_map.2 ⟨_, hmem, rfl⟩)
          · have : ((c.2, name) ∈ m :: ms) ↔ (c.2, name) ∈ ms := by
              rw [List.mem_cons]
              exact ⟨fun h => h.resolve_left (fun h' => hc (by rw [← h'])), Or.inr⟩
            rw [if_neg hc, zero_add]
            simp only [this]
        · have : ((c.2, name) ∈ m :: ms) ↔ (c.2, name) ∈ ms := by
            rw [List.mem_cons]
            exact ⟨fun h => h.resolve_left (fun h' => hn (by rw [← h'])), Or.inr⟩
          rw [if_neg (by simpa using hn), ihm]
          simp only [this]
    · simp [hu]

theorem coverAreas_spec (px : K) (cells : List (ℤ × ℤ)) (mapping : List (ℤ × String)) (hf : (mapping.map Prod.fst).Nodup)
    (name : String) :
    ((coverAreas px cells mapping name).map Prod.fst).Nodup ∧
    (∀ v, v ∈ (coverAreas px cells mapping name).map Prod.fst ↔ v ≠ 0 ∧ ∃ cl, (cl, name) ∈ mapping ∧ (v, cl) ∈ cells) ∧
    (∀ v, v ≠ 0 → get (coverAreas px cells mapping name) v = (cellsWith cells mapping v name : K) * px) := by
  obtain ⟨a, b, c⟩ := outer px cells (mapping.filter fun m => m.2 == name) [] (by simp)
  refine ⟨a, fun v => ?_, fun v hv => ?_⟩
  · refine (b v).trans ?_
    simp only [List.map_nil, List.not_mem_nil, false_or]
    refine and_congr_right fun _ => ⟨?_, ?_⟩
    · rintro ⟨m, hm, h⟩
      rw [List.mem_filter] at hm
      refine ⟨m.1, ?_, h⟩
      rw [← eq_of_beq hm.2]; exact hm.1
    · rintro ⟨cl, hm, h⟩
      exact ⟨(cl, name), List.mem_filter.2 ⟨hm, by simp⟩, h⟩
  · refine (c v hv).trans ?_
    rw [sum_both cells mapping hf]
    simp [get]

/-- Every cell counts for one cover at most. -/
theorem sum_with_le (cells : List (ℤ × ℤ)) (mapping : List (ℤ × String)) (hf : (mapping.map Prod.fst).Nodup) (u : ℤ)
    (P : List String) (hP : P.Nodup) : (P.map fun n => cellsWith cells mapping u n).sum ≤ cellsOf cells u := by
  induction cells with
  | nil => simp [cellsWith]
  | cons c cells ih =>
    simp only [cellsWith_cons, cellsOf_cons]
    rw [List.sum_map_add]
    refine Nat.add_le_add ?_ ih
    by_cases hu : c.1 = u
    · simp only [hu, true_and, if_true]
      have huniq : ∀ n n', (c.2, n) ∈ mapping → (c.2, n') ∈ mapping → n = n' := by
        intro n n' h h'
        have := List.inj_on_of_nodup_map hf h h' rfl
        exact (Prod.mk.inj this).2
      clear ih
      induction P with
      | nil => simp
      | cons p P ihP =>
        rw [List.nodup_cons] at hP
        rw [List.map_cons, List.sum_cons]
        by_cases hp : (c.2, p) ∈ mapping
        · rw [if_pos hp]
          have : (P.map fun n => if (c.2, n) ∈ mapping then 1 else 0).sum = 0 := by
            rw [List.sum_eq_zero]
            intro x hx
            obtain ⟨n, hn, rfl⟩ := List.mem_map.1 hx
            rw [if_neg]
            intro h
            exact hP.1 (huniq _ _ hp h ▸ hn)
          omega
        · rw [if_neg hp, zero_add]; exact ihP hP.2
    · simp [hu]

theorem with_pos (cells : List (ℤ × ℤ)) (mapping : List (ℤ × String)) (u cl : ℤ) (name : String) (hm : (cl, name) ∈ mapping)
    (hc : (u, cl) ∈ cells) : 0 < cellsWith cells mapping u name :=
  List.countP_pos_iff.2 ⟨_, hc, by simp [hm]⟩

theorem with_zero (cells : List (ℤ × ℤ)) (mapping : List (ℤ × String)) (u : ℤ) (name : String)
    (h : ¬ ∃ cl, (cl, name) ∈ mapping ∧ (u, cl) ∈ cells) : cellsWith cells mapping u name = 0 := by
  unfold cellsWith
  rw [List.countP_eq_zero]
  intro c hc h'
  obtain ⟨h1, h2⟩ := of_decide_eq_true h'
  exact h ⟨c.2, h2, h1 ▸ hc⟩

end HB.UnitTable
