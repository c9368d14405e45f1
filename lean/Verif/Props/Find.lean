import Verif.Model.Find
import Verif.Spec.Find
import Mathlib.Data.List.GetD
import Mathlib.Data.List.Nodup

/-!
# C46 — table look-up
-/
set_option linter.unusedSectionVars false

namespace HB

section LB
variable {K : Type} [Zero K]

/-- The binary search returns the partition point of any partitioned table. -/
theorem lowerBound_spec (t : List K) (before : K → Bool) (first len : ℕ)
    (hpart : ∀ i j, first ≤ i → i < j → j < first + len → before (t.getD j 0) = true →
      before (t.getD i 0) = true) :
    first ≤ lowerBound t before first len ∧ lowerBound t before first len ≤ first + len ∧
    (∀ i, first ≤ i → i < lowerBound t before first len → before (t.getD i 0) = true) ∧
    (∀ i, lowerBound t before first len ≤ i → i < first + len → before (t.getD i 0) = false) := by
  induction len using Nat.strong_induction_on generalizing first with
  | _ len ih =>
    rw [lowerBound]
    by_cases h0 : len = 0
    · simp only [h0, dif_pos]
      refine ⟨le_rfl, by omega, fun i _ _ => by omega, fun i _ _ => by omega⟩
    · simp only [h0, dif_neg, not_false_eq_true]
      by_cases hb : before (t.getD (first + len / 2) 0) = true
      · simp only [hb, if_true]
        obtain ⟨h1, h2, h3, h4⟩ := ih (len - len / 2 - 1) (by omega) (first + len / 2 + 1)
          (fun i j hi hij hj => hpart i j (by omega) hij (by omega))
        refine ⟨by omega, by omega, fun i hi hlt => ?_, fun i hi hlt => h4 i hi (by omega)⟩
        by_cases hm : i < first + len / 2
        · exact hpart i _ hi hm (by omega) hb
        · by_cases he : i = first + len / 2
          · rw [he]; exact hb
          · exact h3 i (by omega) hlt
      · simp only [hb]
        obtain ⟨h1, h2, h3, h4⟩ := ih (len / 2) (by omega) first
          (fun i j hi hij hj => hpart i j hi hij (by omega))
        refine ⟨h1, by simp only [Bool.false_eq_true, if_false]; omega, ?_, ?_⟩
        · simpa using h3
        · simp only [Bool.false_eq_true, if_false]
          intro i hi hlt
          by_cases hm : i < first + len / 2
          · exact h4 i hi hm
          · by_cases he : i = first + len / 2
            · rw [he]; simpa using hb
            · by_contra hc
              exact hb (hpart (first + len / 2) i (by omega) (by omega) hlt (by simpa using hc))

end LB

section
variable {K : Type} [AddCommGroup K] [LinearOrder K] [IsOrderedAddMonoid K]

theorem getD_of_get (t : List K) (i : ℕ) (x : K) (h : t[i]? = some x) : t.getD i 0 = x := by
  simp [List.getD, h]

/-- Order of the entries by position. -/
theorem pairwise_getD {R : K → K → Prop} (t : List K) (h : t.Pairwise R) (i j : ℕ) (hij : i < j) (hj : j < t.length) :
    R (t.getD i 0) (t.getD j 0) := by
  rw [List.getD_eq_getElem _ _ (by omega : i < t.length), List.getD_eq_getElem _ _ hj]
  exact List.pairwise_iff_getElem.mp h i j (by omega) hj hij

/-- The look-up in an ascending table of at least two entries. -/
theorem find_asc (t : List K) (v tol : K) (hs : t.Pairwise (· ≤ ·)) (h2 : 2 ≤ t.length)
    (haz : t.getD 0 0 < t.getD (t.length - 1) 0) :
    (∀ i, find t v tol = .at i → i < t.length ∧ |v - t.getD i 0| ≤ tol) ∧
    ((∀ i, find t v tol ≠ .at i) → ∀ i < t.length, ¬ |v - t.getD i 0| ≤ tol) ∧
    (find t v tol = .outOfRange → v < t.getD 0 0 ∨ t.getD (t.length - 1) 0 < v) ∧
    (find t v tol = .notFound → ¬ (v < t.getD 0 0 ∨ t.getD (t.length - 1) 0 < v)) := by
  have hn1 : t.length ≠ 1 := by omega
  obtain ⟨it, hit⟩ : ∃ it, it = lowerBound t (fun x => decide (x < v)) 0 t.length := ⟨_, rfl⟩
  obtain ⟨-, b2, b3, b4⟩ := lowerBound_spec t (fun x => decide (x < v)) 0 t.length
    (fun i j _ hij hj h => decide_eq_true (lt_of_le_of_lt (pairwise_getD t hs i j hij (by omega)) (of_decide_eq_true h)))
  rw [← hit] at b2 b3 b4
  have hb3 : ∀ i < it, t.getD i 0 < v := fun i hi => of_decide_eq_true (b3 i (by omega) hi)
  have hb4 : ∀ i, it ≤ i → i < t.length → v ≤ t.getD i 0 := fun i h1 h2 =>
    not_lt.mp (of_decide_eq_false (b4 i h1 (by omega)))
  have hf : find t v tol = if it ≠ t.length ∧ nearly v (t.getD it 0) tol then .at it
      else if it ≠ 0 ∧ nearly v (t.getD (it - 1) 0) tol then .at (it - 1)
      else if v < t.getD 0 0 ∨ t.getD (t.length - 1) 0 < v then .outOfRange else .notFound := by
    simp only [find, hn1, if_false, haz, decide_true, if_true, ← hit]
  have hno : ¬ (it ≠ t.length ∧ nearly v (t.getD it 0) tol = true) →
      ¬ (it ≠ 0 ∧ nearly v (t.getD (it - 1) 0) tol = true) → ∀ i < t.length, ¬ |v - t.getD i 0| ≤ tol := by
    intro g1 g2 i hi hc
    by_cases hii : i < it
    · apply g2
      refine ⟨by omega, decide_eq_true (le_trans ?_ hc)⟩
      have h1 := hb3 (it - 1) (by omega)
      have h3 := hb3 i hii
      rw [abs_of_nonneg (sub_nonneg.mpr h1.le), abs_of_nonneg (sub_nonneg.mpr h3.le)]
      rcases Nat.lt_or_ge i (it - 1) with h | h
      · exact sub_le_sub_left (pairwise_getD t hs i _ h (by omega)) v
      · rw [show it - 1 = i by omega]
    · apply g1
      refine ⟨by omega, decide_eq_true (le_trans ?_ hc)⟩
      have h1 := hb4 it le_rfl (by omega)
      have h3 := hb4 i (by omega) hi
      rw [abs_sub_comm, abs_sub_comm v, abs_of_nonneg (sub_nonneg.mpr h1), abs_of_nonneg (sub_nonneg.mpr h3)]
      rcases Nat.lt_or_ge it i with h | h
      · exact sub_le_sub_right (pairwise_getD t hs it _ h (by omega)) v
      · rw [show it = i by omega]
  rw [hf]
  split_ifs with g1 g2 g3
  · refine ⟨fun i hi => ?_, fun h => absurd rfl (h it), by simp, by simp⟩
    obtain rfl : it = i := by simpa using hi
    exact ⟨by omega, of_decide_eq_true g1.2⟩
  · refine ⟨fun i hi => ?_, fun h => absurd rfl (h (it - 1)), by simp, by simp⟩
    obtain rfl : it - 1 = i := by simpa using hi
    exact ⟨by omega, of_decide_eq_true g2.2⟩
  · exact ⟨by simp, fun _ => hno g1 g2, fun _ => g3, by simp⟩
  · exact ⟨by simp, fun _ => hno g1 g2, by simp, fun _ => g3⟩

/-- The same in a descending (or constant) table. -/
theorem find_desc (t : List K) (v tol : K) (hs : t.Pairwise (· ≥ ·)) (h2 : 2 ≤ t.length)
    (haz : ¬ t.getD 0 0 < t.getD (t.length - 1) 0) :
    (∀ i, find t v tol = .at i → i < t.length ∧ |v - t.getD i 0| ≤ tol) ∧
    ((∀ i, find t v tol ≠ .at i) → ∀ i < t.length, ¬ |v - t.getD i 0| ≤ tol) ∧
    (find t v tol = .outOfRange → t.getD 0 0 < v ∨ v < t.getD (t.length - 1) 0) ∧
    (find t v tol = .notFound → ¬ (t.getD 0 0 < v ∨ v < t.getD (t.length - 1) 0)) := by
  have hn1 : t.length ≠ 1 := by omega
  obtain ⟨it, hit⟩ : ∃ it, it = lowerBound t (fun x => decide (v < x)) 0 t.length := ⟨_, rfl⟩
  obtain ⟨-, b2, b3, b4⟩ := lowerBound_spec t (fun x => decide (v < x)) 0 t.length
    (fun i j _ hij hj h => decide_eq_true (lt_of_lt_of_le (of_decide_eq_true h) (pairwise_getD t hs i j hij (by omega))))
  rw [← hit] at b2 b3 b4
  have hb3 : ∀ i < it, v < t.getD i 0 := fun i hi => of_decide_eq_true (b3 i (by omega) hi)
  have hb4 : ∀ i, it ≤ i → i < t.length → t.getD i 0 ≤ v := fun i h1 h2 =>
    not_lt.mp (of_decide_eq_false (b4 i h1 (by omega)))
  have hf : find t v tol = if it ≠ t.length ∧ nearly v (t.getD it 0) tol then .at it
      else if it ≠ 0 ∧ nearly v (t.getD (it - 1) 0) tol then .at (it - 1)
      else if t.getD 0 0 < v ∨ v < t.getD (t.length - 1) 0 then .outOfRange else .notFound := by
    simp only [find, hn1, if_false, haz, decide_false, Bool.false_eq_true, ← hit]
  have hno : ¬ (it ≠ t.length ∧ nearly v (t.getD it 0) tol = true) →
      ¬ (it ≠ 0 ∧ nearly v (t.getD (it - 1) 0) tol = true) → ∀ i < t.length, ¬ |v - t.getD i 0| ≤ tol := by
    intro g1 g2 i hi hc
    by_cases hii : i < it
    · apply g2
      refine ⟨by omega, decide_eq_true (le_trans ?_ hc)⟩
      have h1 := hb3 (it - 1) (by omega)
      have h3 := hb3 i hii
      rw [abs_sub_comm, abs_sub_comm v, abs_of_nonneg (sub_nonneg.mpr h1.le), abs_of_nonneg (sub_nonneg.mpr h3.le)]
      rcases Nat.lt_or_ge i (it - 1) with h | h
      · exact sub_le_sub_right (pairwise_getD t hs i _ h (by omega)) v
      · rw [show it - 1 = i by omega]
    · apply g1
      refine ⟨by omega, decide_eq_true (le_trans ?_ hc)⟩
      have h1 := hb4 it le_rfl (by omega)
      have h3 := hb4 i (by omega) hi
      rw [abs_of_nonneg (sub_nonneg.mpr h1), abs_of_nonneg (sub_nonneg.mpr h3)]
      rcases Nat.lt_or_ge it i with h | h
      · exact sub_le_sub_left (pairwise_getD t hs it _ h (by omega)) v
      · rw [show it = i by omega]
  rw [hf]
  split_ifs with g1 g2 g3
  · refine ⟨fun i hi => ?_, fun h => absurd rfl (h it), by simp, by simp⟩
    obtain rfl : it = i := by simpa using hi
    exact ⟨by omega, of_decide_eq_true g1.2⟩
  · refine ⟨fun i hi => ?_, fun h => absurd rfl (h (it - 1)), by simp, by simp⟩
    obtain rfl : it - 1 = i := by simpa using hi
    exact ⟨by omega, of_decide_eq_true g2.2⟩
  · exact ⟨by simp, fun _ => hno g1 g2, fun _ => g3, by simp⟩
  · exact ⟨by simp, fun _ => hno g1 g2, by simp, fun _ => g3⟩

/-- A sorted table whose first entry is not below its last one is in descending order. -/
theorem sorted_desc (t : List K) (hs : Spec.Sorted t) (haz : ¬ t.getD 0 0 < t.getD (t.length - 1) 0) :
    t.Pairwise (· ≥ ·) := by
  rcases hs with hs | hs
  · rw [List.pairwise_iff_getElem] at hs ⊢
    intro i j hi hj hij
    have e : ∀ k (hk : k < t.length), t.getD k 0 = t[k] := fun k hk => List.getD_eq_getElem _ _ hk
    rw [e 0 (by omega), e _ (by omega)] at haz
    have h1 : t[j] ≤ t[t.length - 1] := by
      rcases Nat.lt_or_ge j (t.length - 1) with h | h
      · exact hs j _ hj (by omega) h
      · exact le_of_eq (by congr 1; omega)
    have h0 : t[0] ≤ t[i] := by
      rcases Nat.lt_or_ge 0 i with h | h
      · exact hs 0 i (by omega) hi h
      · exact le_of_eq (by congr 1; omega)
    exact le_trans h1 (le_trans (not_lt.mp haz) h0)
  · exact hs

theorem sorted_asc (t : List K) (hs : Spec.Sorted t) (haz : t.getD 0 0 < t.getD (t.length - 1) 0)
    (h2 : 2 ≤ t.length) : t.Pairwise (· ≤ ·) := by
  rcases hs with hs | hs
  · exact hs
  · exact absurd (pairwise_getD t hs 0 (t.length - 1) (by omega) (by omega)) (not_le.mpr haz)

/-- In a sorted table, lying outside is a matter of the two end entries. -/
theorem outside_asc (t : List K) (v : K) (hs : t.Pairwise (· ≤ ·)) (h1 : 1 ≤ t.length) :
    Spec.Outside t v ↔ (v < t.getD 0 0 ∨ t.getD (t.length - 1) 0 < v) := by
  have e : ∀ k (hk : k < t.length), t.getD k 0 = t[k] := fun k hk => List.getD_eq_getElem _ _ hk
  rw [e 0 (by omega), e _ (by omega)]
  have hle := List.pairwise_iff_getElem.mp hs
  constructor
  · rintro (h | h)
    · exact Or.inl (h _ (List.getElem_mem _))
    · exact Or.inr (h _ (List.getElem_mem _))
  · rintro (h | h)
    · left; intro x hx
      obtain ⟨k, hk, rfl⟩ := List.mem_iff_getElem.mp hx
      rcases Nat.eq_zero_or_pos k with h0 | h0
      · subst h0; exact h
      · exact lt_of_lt_of_le h (hle 0 k (by omega) hk h0)
    · right; intro x hx
      obtain ⟨k, hk, rfl⟩ := List.mem_iff_getElem.mp hx
      rcases Nat.lt_or_ge k (t.length - 1) with h0 | h0
      · exact lt_of_le_of_lt (hle k _ hk (by omega) h0) h
      · have : k = t.length - 1 := by omega
        subst this; exact h

theorem outside_desc (t : List K) (v : K) (hs : t.Pairwise (· ≥ ·)) (h1 : 1 ≤ t.length) :
    Spec.Outside t v ↔ (t.getD 0 0 < v ∨ v < t.getD (t.length - 1) 0) := by
  have e : ∀ k (hk : k < t.length), t.getD k 0 = t[k] := fun k hk => List.getD_eq_getElem _ _ hk
  rw [e 0 (by omega), e _ (by omega)]
  have hle := List.pairwise_iff_getElem.mp hs
  constructor
  · rintro (h | h)
    · exact Or.inr (h _ (List.getElem_mem _))
    · exact Or.inl (h _ (List.getElem_mem _))
  · rintro (h | h)
    · right; intro x hx
      obtain ⟨k, hk, rfl⟩ := List.mem_iff_getElem.mp hx
      rcases Nat.eq_zero_or_pos k with h0 | h0
      · subst h0; exact h
      · exact lt_of_le_of_lt (hle 0 k (by omega) hk h0) h
    · left; intro x hx
      obtain ⟨k, hk, rfl⟩ := List.mem_iff_getElem.mp hx
      rcases Nat.lt_or_ge k (t.length - 1) with h0 | h0
      · exact lt_of_lt_of_le h (hle k _ hk (by omega) h0)
      · have : k = t.length - 1 := by omega
        subst this; exact h

theorem matches_iff (t : List K) (v tol : K) (i : ℕ) :
    Spec.Matches t v tol i ↔ i < t.length ∧ |v - t.getD i 0| ≤ tol := by
  constructor
  · rintro ⟨x, hx, h⟩
    rw [getD_of_get t i x hx]
    exact ⟨(List.getElem?_eq_some_iff.mp hx).1, h⟩
  · rintro ⟨hi, h⟩
    rw [List.getD_eq_getElem _ _ hi] at h
    exact ⟨t[i], List.getElem?_eq_getElem hi, h⟩

/-- **C46.** In every sorted table of two entries or more: an index is returned exactly when some entry matches the value
within the tolerance, and the entry at that index is such an entry; otherwise the answer is out-of-range exactly when the
value lies beyond all the entries, and not-found in the remaining case. -/
theorem c46_find_partial (t : List K) (v tol : K) (hs : Spec.Sorted t) (h2 : 2 ≤ t.length) :
    (∀ i, find t v tol = .at i → Spec.Matches t v tol i) ∧
    ((∃ i, Spec.Matches t v tol i) → ∃ i, find t v tol = .at i) ∧
    (find t v tol = .outOfRange ↔ (¬ ∃ i, Spec.Matches t v tol i) ∧ Spec.Outside t v) ∧
    (find t v tol = .notFound ↔ (¬ ∃ i, Spec.Matches t v tol i) ∧ ¬ Spec.Outside t v) := by
  have key : (∀ i, find t v tol = .at i → i < t.length ∧ |v - t.getD i 0| ≤ tol) ∧
    ((∀ i, find t v tol ≠ .at i) → ∀ i < t.length, ¬ |v - t.getD i 0| ≤ tol) ∧
    (find t v tol = .outOfRange → Spec.Outside t v) ∧ (find t v tol = .notFound → ¬ Spec.Outside t v) := by
    by_cases haz : t.getD 0 0 < t.getD (t.length - 1) 0
    · have ha := sorted_asc t hs haz h2
      rw [outside_asc t v ha (by omega)]
      exact find_asc t v tol ha h2 haz
    · have hd := sorted_desc t hs haz
      rw [outside_desc t v hd (by omega)]
      exact find_desc t v tol hd h2 haz
  obtain ⟨k1, k2, k3, k4⟩ := key
  have hm : (∃ i, Spec.Matches t v tol i) → ∃ i, find t v tol = .at i := by
    rintro ⟨i, hi⟩
    by_contra hc
    push Not at hc
    obtain ⟨h1, h2⟩ := (matches_iff t v tol i).mp hi
    exact k2 hc i h1 h2
  have hm' : ∀ i, find t v tol = .at i → Spec.Matches t v tol i := fun i h => (matches_iff t v tol i).mpr (k1 i h)
  refine ⟨hm', hm, ?_, ?_⟩
  · constructor
    · intro h
      refine ⟨fun hc => ?_, k3 h⟩
      obtain ⟨i, hi⟩ := hm hc
      rw [h] at hi; cases hi
    · rintro ⟨h1, h2⟩
      rcases hr : find t v tol with i | _ | _
      · exact absurd ⟨i, hm' i hr⟩ h1
      · exact absurd h2 (k4 hr)
      · rfl
  · constructor
    · intro h
      refine ⟨fun hc => ?_, k4 h⟩
      obtain ⟨i, hi⟩ := hm hc
      rw [h] at hi; cases hi
    · rintro ⟨h1, h2⟩
      rcases hr : find t v tol with i | _ | _
      · exact absurd ⟨i, hm' i hr⟩ h1
      · rfl
      · exact absurd (k3 hr) h2

/-- A table of a single entry: found iff it matches, and otherwise always "not found", also when the value lies outside —
the only deviation from the claim. -/
theorem c46_single (x v tol : K) : (find [x] v tol = .at 0 ↔ |v - x| ≤ tol) ∧
    (find [x] v tol = .notFound ↔ ¬ |v - x| ≤ tol) := by
  simp only [find, List.length_cons, List.length_nil, nearly]
  constructor <;> by_cases h : |v - x| ≤ tol <;> simp [h]

/-- With zero tolerance and distinct entries the index returned is the one position holding the value. -/
theorem c46_exact (t : List K) (v : K) (hs : Spec.Sorted t) (hd : t.Nodup) (h1 : 1 ≤ t.length) (i : ℕ) :
    find t v 0 = .at i ↔ t[i]? = some v := by
  have hmatch : ∀ j, Spec.Matches t v 0 j ↔ t[j]? = some v := by
    intro j
    constructor
    · rintro ⟨x, hx, h⟩
      rw [hx, sub_eq_zero.mp (abs_nonpos_iff.mp h)]
    · intro h; exact ⟨v, h, by simp⟩
  rcases Nat.lt_or_ge 1 t.length with h2 | h2
  · obtain ⟨k1, k2, -, -⟩ := c46_find_partial t v 0 hs h2
    constructor
    · intro h; exact (hmatch i).mp (k1 i h)
    · intro h
      obtain ⟨j, hj⟩ := k2 ⟨i, (hmatch i).mpr h⟩
      have hj' := (hmatch j).mp (k1 j hj)
      obtain ⟨a1, a2⟩ := List.getElem?_eq_some_iff.mp h
      obtain ⟨b1, b2⟩ := List.getElem?_eq_some_iff.mp hj'
      have : i = j := (List.Nodup.getElem_inj_iff hd).mp (a2.trans b2.symm)
      rw [this]; exact hj
  · obtain ⟨x, rfl⟩ : ∃ x, t = [x] := List.length_eq_one_iff.mp (by omega)
    obtain ⟨k1, k2⟩ := c46_single x v 0
    constructor
    · intro h
      have : i = 0 := by
        rcases hr : decide (|v - x| ≤ 0) with _ | _
        · rw [k2.mpr (of_decide_eq_false hr)] at h; cases h
        · rw [k1.mpr (of_decide_eq_true hr)] at h; cases h; rfl
      subst this
      have := sub_eq_zero.mp (abs_nonpos_iff.mp (k1.mp h))
      simp [this]
    · intro h
      obtain ⟨a1, a2⟩ := List.getElem?_eq_some_iff.mp h
      have : i = 0 := by simpa using a1
      subst this
      exact k1.mpr (by simp at a2; simp [a2])

end

/-- Hypotheses met, and every kind of answer occurs: ascending, descending, constant tables (integers). -/
example : Spec.Sorted ([2, 5, 5, 9] : List ℤ) ∧ Spec.Sorted ([9, 4, 1] : List ℤ) ∧ Spec.Sorted ([3, 3] : List ℤ) ∧
    find ([2, 5, 5, 9] : List ℤ) 5 0 = .at 1 ∧ find ([2, 5, 5, 9] : List ℤ) 8 1 = .at 3 ∧
    find ([2, 5, 5, 9] : List ℤ) 7 1 = .notFound ∧ find ([2, 5, 5, 9] : List ℤ) 11 1 = .outOfRange ∧
    find ([9, 4, 1] : List ℤ) 4 0 = .at 1 ∧ find ([9, 4, 1] : List ℤ) 0 0 = .outOfRange ∧
    find ([9, 4, 1] : List ℤ) 2 1 = .at 2 ∧ find ([3, 3] : List ℤ) 3 0 = .at 0 ∧
    find ([3, 3] : List ℤ) 4 0 = .outOfRange := by
  refine ⟨Or.inl (by decide +kernel), Or.inr (by decide +kernel), Or.inl (by decide +kernel), ?_⟩
  decide +kernel

/-- A single-entry table answers "not found" for a value outside it. -/
theorem c46_single_never_out_of_range : find ([3] : List ℤ) 10 0 = .notFound ∧ Spec.Outside ([3] : List ℤ) 10 := by
  refine ⟨by decide +kernel, Or.inr (by decide +kernel)⟩

/-- Hypotheses of `c46_exact` met. -/
example : Spec.Sorted ([2, 5, 9] : List ℤ) ∧ ([2, 5, 9] : List ℤ).Nodup := ⟨Or.inl (by decide +kernel), by decide +kernel⟩

end HB
