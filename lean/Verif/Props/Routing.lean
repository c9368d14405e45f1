import Verif.Model.Routing
import Mathlib.Algebra.BigOperators.Group.List.Basic
import Mathlib.Algebra.BigOperators.Group.Finset.Basic
import Mathlib.Algebra.BigOperators.Intervals
import Mathlib.Data.List.GetD
import Mathlib.Analysis.SpecialFunctions.Log.Deriv
import Mathlib.Analysis.SpecialFunctions.ExpDeriv
import Mathlib.Tactic.Linarith
import Mathlib.Tactic.FieldSimp
import Mathlib.Tactic.Ring
import Mathlib.Tactic.Positivity
import Mathlib.Tactic.NormNum

/-! # C26, C27: unit hydrographs -/

namespace HB

open Finset (range)

/-! ## C26: ordinates -/

theorem ordinates_sum (S : ℝ → ℝ) (n : Nat) : (ordinates S n).sum = S n - S 0 := by
  induction n with
  | zero => simp [ordinates]
  | succ n ih =>
    unfold ordinates at *
    rw [List.range_succ, List.map_append, List.sum_append, ih]
    simp

theorem ordinates_nonneg (S : ℝ → ℝ) (n : Nat) (h : ∀ s t : ℝ, s ≤ t → S s ≤ S t) :
    ∀ w ∈ ordinates S n, 0 ≤ w := by
  intro w hw
  obtain ⟨j, -, rfl⟩ := List.mem_map.1 hw
  have := h (j : ℝ) (j + 1) (by linarith)
  linarith

theorem sh1_mem {x4 : ℝ} (hx : 0 < x4) (t : ℝ) : 0 ≤ sh1 t x4 ∧ sh1 t x4 ≤ 1 := by
  unfold sh1
  split
  · simp
  · split
    · simp
    · rename_i h1 h2
      have h1 := not_le.1 h1; have h2 := not_le.1 h2
      have a : 0 ≤ t / x4 := div_nonneg h1.le hx.le
      exact ⟨Real.rpow_nonneg a _, Real.rpow_le_one a ((div_le_one hx).2 h2.le) (by norm_num)⟩

theorem sh1_mono {x4 : ℝ} (hx : 0 < x4) {s t : ℝ} (h : s ≤ t) : sh1 s x4 ≤ sh1 t x4 := by
  by_cases a : s ≤ 0
  · have : sh1 s x4 = 0 := by simp [sh1, a]
    rw [this]; exact (sh1_mem hx t).1
  · by_cases b : t ≥ x4
    · have hb : ¬ t ≤ 0 := by linarith
      have : sh1 t x4 = 1 := by simp [sh1, hb, b]
      rw [this]; exact (sh1_mem hx s).2
    · have a' : ¬ t ≤ 0 := by linarith [not_le.1 a]
      have b' : ¬ s ≥ x4 := by linarith [not_le.1 b]
      simp only [sh1, a, a', b, b', if_false]
      exact Real.rpow_le_rpow (div_nonneg (not_le.1 a).le hx.le) (div_le_div_of_nonneg_right h hx.le) (by norm_num)

theorem sh2_mem {x4 : ℝ} (hx : 0 < x4) (t : ℝ) : 0 ≤ sh2 t x4 ∧ sh2 t x4 ≤ 1 := by
  unfold sh2
  split
  · simp
  · split
    · simp
    · rename_i h1 h2
      have h1 := not_le.1 h1; have h2 := not_le.1 h2
      have a : 0 ≤ t / x4 := div_nonneg h1.le hx.le
      split
      · rename_i h3
        have := Real.rpow_nonneg a (5 / 2)
        have := Real.rpow_le_one a ((div_le_one hx).2 h3.le) (by norm_num : (0:ℝ) ≤ 5 / 2)
        constructor <;> linarith
      · rename_i h3
        have h3 : 1 ≤ t / x4 := (one_le_div hx).2 (not_lt.1 h3)
        have h4 : t / x4 ≤ 2 := (div_le_iff₀ hx).2 h2.le
        have := Real.rpow_nonneg (by linarith : 0 ≤ 2 - t / x4) (5 / 2)
        have := Real.rpow_le_one (by linarith : 0 ≤ 2 - t / x4) (by linarith) (by norm_num : (0:ℝ) ≤ 5 / 2)
        constructor <;> linarith

theorem sh2_mono {x4 : ℝ} (hx : 0 < x4) {s t : ℝ} (h : s ≤ t) : sh2 s x4 ≤ sh2 t x4 := by
  by_cases a : s ≤ 0
  · have : sh2 s x4 = 0 := by simp [sh2, a]
    rw [this]; exact (sh2_mem hx t).1
  · by_cases b : t ≥ 2 * x4
    · have hb : ¬ t ≤ 0 := by linarith
      have : sh2 t x4 = 1 := by simp [sh2, hb, b]
      rw [this]; exact (sh2_mem hx s).2
    · have a' : ¬ t ≤ 0 := by linarith [not_le.1 a]
      have b' : ¬ s ≥ 2 * x4 := by linarith [not_le.1 b]
      have hs0 : 0 ≤ s / x4 := div_nonneg (not_le.1 a).le hx.le
      have hst : s / x4 ≤ t / x4 := div_le_div_of_nonneg_right h hx.le
      have ht2 : t / x4 ≤ 2 := (div_le_iff₀ hx).2 (not_le.1 b).le
      simp only [sh2, a, a', b, b', if_false]
      by_cases c : t < x4
      · have c' : s < x4 := by linarith
        simp only [c, c', if_true]
        have := Real.rpow_le_rpow hs0 hst (by norm_num : (0:ℝ) ≤ 5 / 2)
        linarith
      · have ht1 : 1 ≤ t / x4 := (one_le_div hx).2 (not_lt.1 c)
        simp only [c, if_false]
        by_cases c' : s < x4
        · simp only [c', if_true]
          have h1 := Real.rpow_le_one hs0 ((div_le_one hx).2 c'.le) (by norm_num : (0:ℝ) ≤ 5 / 2)
          have h2 := Real.rpow_le_one (by linarith : 0 ≤ 2 - t / x4) (by linarith) (by norm_num : (0:ℝ) ≤ 5 / 2)
          linarith
        · simp only [c', if_false]
          have := Real.rpow_le_rpow (by linarith : 0 ≤ 2 - t / x4) (by linarith : 2 - t / x4 ≤ 2 - s / x4)
            (by norm_num : (0:ℝ) ≤ 5 / 2)
          linarith

theorem hbvCum_mem {m : ℝ} (hm : 0 < m) (t : ℝ) : 0 ≤ hbvCum t m ∧ hbvCum t m ≤ 1 := by
  unfold hbvCum
  split
  · simp
  · split
    · simp
    · rename_i h1 h2
      have h1 := not_le.1 h1; have h2 := not_le.1 h2
      have a : 0 ≤ t / m := div_nonneg h1.le hm.le
      have b : t / m ≤ 1 := (div_le_one hm).2 h2.le
      dsimp only
      split
      · constructor <;> nlinarith
      · constructor <;> nlinarith

theorem hbvCum_mono {m : ℝ} (hm : 0 < m) {s t : ℝ} (h : s ≤ t) : hbvCum s m ≤ hbvCum t m := by
  by_cases a : s ≤ 0
  · have : hbvCum s m = 0 := by simp [hbvCum, a]
    rw [this]; exact (hbvCum_mem hm t).1
  · by_cases b : t ≥ m
    · have hb : ¬ t ≤ 0 := by linarith
      have : hbvCum t m = 1 := by simp [hbvCum, hb, b]
      rw [this]; exact (hbvCum_mem hm s).2
    · have a' : ¬ t ≤ 0 := by linarith [not_le.1 a]
      have b' : ¬ s ≥ m := by linarith [not_le.1 b]
      have hs0 : 0 ≤ s / m := div_nonneg (not_le.1 a).le hm.le
      have hst : s / m ≤ t / m := div_le_div_of_nonneg_right h hm.le
      have ht1 : t / m ≤ 1 := (div_le_one hm).2 (not_le.1 b).le
      simp only [hbvCum, a, a', b, b', if_false]
      generalize s / m = x at *
      generalize t / m = y at *
      split <;> split <;> nlinarith

theorem baseTime_pos (x4 : ℝ) : 0 < baseTime x4 := by
  unfold baseTime; split
  · norm_num
  · rename_i h; exact not_le.1 h

theorem clampMaxbas_pos (m : ℝ) : 1 ≤ clampMaxbas m := by
  unfold clampMaxbas; split
  · exact le_rfl
  · rename_i h; exact not_lt.1 h

/-- A list of weights that shares out a quantity: non-negative, sums to one (spec). -/
def Spec.Partition (w : List ℝ) : Prop := (∀ x ∈ w, 0 ≤ x) ∧ w.sum = 1

/-- **C26.** For every base time the UH1 and UH2 ordinates share out the water completely, over
`⌈X4⌉` and `⌈2 X4⌉` steps, and so do the HBV weights over `⌈MAXBAS⌉` steps. -/
theorem c26_partition (x4 m : ℝ) :
    Spec.Partition (uh1 x4) ∧ Spec.Partition (uh2 x4) ∧ Spec.Partition (hbvWeights m) ∧
    (0 < x4 → (uh1 x4).length = ⌈x4⌉₊ ∧ (uh2 x4).length = ⌈2 * x4⌉₊) ∧
    (1 ≤ m → (hbvWeights m).length = ⌈m⌉₊) := by
  have hb := baseTime_pos x4
  have hm := clampMaxbas_pos m
  refine ⟨⟨ordinates_nonneg _ _ (fun s t h => sh1_mono hb h), ?_⟩,
    ⟨ordinates_nonneg _ _ (fun s t h => sh2_mono hb h), ?_⟩,
    ⟨ordinates_nonneg _ _ (fun s t h => hbvCum_mono (by linarith) h), ?_⟩, ?_, ?_⟩
  · rw [uh1, ordinates_sum]
    have h1 := Nat.le_ceil (baseTime x4)
    have h2 : ¬ ((⌈baseTime x4⌉₊ : ℝ) ≤ 0) := by linarith
    simp [sh1, h2, h1]
  · rw [uh2, ordinates_sum]
    have h1 := Nat.le_ceil (2 * baseTime x4)
    have h2 : ¬ ((⌈2 * baseTime x4⌉₊ : ℝ) ≤ 0) := by linarith
    simp [sh2, h2, h1]
  · rw [hbvWeights, ordinates_sum]
    have h1 := Nat.le_ceil (clampMaxbas m)
    have h2 : ¬ ((⌈clampMaxbas m⌉₊ : ℝ) ≤ 0) := by linarith
    simp [hbvCum, h2, h1]
  · intro hx
    have : baseTime x4 = x4 := by simp [baseTime, not_le.2 hx]
    simp [uh1, uh2, ordinates, this]
  · intro h1
    have : clampMaxbas m = m := by simp [clampMaxbas, not_lt.2 h1]
    simp [hbvWeights, ordinates, this]

/-- **C26 (cumulative share).** After `k` steps the UH1 share released is the S-curve value at `k`. -/
theorem c26_cumulative (x4 : ℝ) (k : Nat) (hk : k ≤ (uh1 x4).length) :
    ((uh1 x4).take k).sum = sh1 k (baseTime x4) ∧
    (k ≤ (uh2 x4).length → ((uh2 x4).take k).sum = sh2 k (baseTime x4)) := by
  have take_ord : ∀ (S : ℝ → ℝ) (n k : Nat), k ≤ n → (ordinates S n).take k = ordinates S k := by
    intro S n k h
    unfold ordinates
    rw [← List.map_take, List.take_range, min_eq_left h]
  constructor
  · rw [uh1, take_ord _ _ _ (by simpa [uh1, ordinates] using hk), ordinates_sum]
    simp [sh1]
  · intro h2
    rw [uh2, take_ord _ _ _ (by simpa [uh2, ordinates] using h2), ordinates_sum]
    simp [sh2]

example : uh1 (1 / 2) = [1] := by
  have h1 : baseTime (1 / 2) = 1 / 2 := by simp [baseTime]
  have h2 : ⌈(1 / 2 : ℝ)⌉₊ = 1 := by rw [Nat.ceil_eq_iff one_ne_zero]; norm_num
  rw [uh1, h1, h2]
  simp [ordinates, sh1]; norm_num

example : hbvWeights 2 = [1 / 2, 1 / 2] := by
  have h1 : clampMaxbas 2 = 2 := by simp [clampMaxbas]
  have h2 : ⌈(2 : ℝ)⌉₊ = 2 := Nat.ceil_ofNat 2
  rw [hbvWeights, h1, h2]
  simp only [ordinates, List.range_succ, List.range_zero, hbvCum]
  norm_num

/-! ## C27: the buffer delivers every drop exactly once -/

theorem advance_length (ord st : List ℝ) (P : ℝ) (h : st.length = ord.length) :
    (advance ord st P).length = ord.length := by
  unfold advance
  rw [List.length_zipWith, List.length_append, List.length_drop]
  simp only [List.length_cons, List.length_nil]
  omega

theorem advance_getD (ord st : List ℝ) (P : ℝ) (h : st.length = ord.length) (i : Nat) :
    (advance ord st P).getD i 0 = st.getD (i + 1) 0 + ord.getD i 0 * P := by
  have hlen := advance_length ord st P h
  by_cases hi : i < ord.length
  · have h1 : i < (advance ord st P).length := by omega
    rw [List.getD_eq_getElem _ _ h1, List.getD_eq_getElem ord _ hi]
    simp only [advance, List.getElem_zipWith]
    congr 1
    by_cases h2 : i + 1 < st.length
    · rw [List.getD_eq_getElem _ _ h2, List.getElem_append_left (by simp; omega), List.getElem_drop]
      congr 1; omega
    · rw [List.getD_eq_default _ _ (by omega), List.getElem_append_right (by simp; omega)]
      simp
  · rw [List.getD_eq_default _ _ (by omega), List.getD_eq_default _ _ (by omega),
      List.getD_eq_default _ _ (by omega)]
    ring

theorem buffer_length (ord : List ℝ) (ins : ℕ → ℝ) (t : ℕ) : (buffer ord ins t).length = ord.length := by
  induction t with
  | zero => simp [buffer]
  | succ t ih => exact advance_length _ _ _ ih

theorem buffer_getD (ord : List ℝ) (ins : ℕ → ℝ) (t i : ℕ) :
    (buffer ord ins (t + 1)).getD i 0 = ∑ k ∈ range (t + 1), ord.getD (i + k) 0 * ins (t - k) := by
  induction t generalizing i with
  | zero =>
    rw [buffer, advance_getD _ _ _ (buffer_length _ _ _)]
    have : (buffer ord ins 0).getD (i + 1) 0 = 0 := by
      simp [buffer, List.getD_eq_getElem?_getD, List.getElem?_replicate]
      split <;> rfl
    rw [this]; simp
  | succ t ih =>
    rw [buffer, advance_getD _ _ _ (buffer_length _ _ _), ih]
    conv_rhs => rw [Finset.sum_range_succ']
    congr 1
    apply Finset.sum_congr rfl
    intro k hk
    rw [show i + 1 + k = i + (k + 1) by omega, show t + 1 - (k + 1) = t - k by omega]

/-- **C27 (convolution).** Fed with any series, the unit hydrograph releases at each step the sum over
past inputs of input × ordinate of its age: every input is released according to the ordinates, once. -/
theorem c27_convolution (ord : List ℝ) (ins : ℕ → ℝ) (t : ℕ) :
    uhOut ord ins t = ∑ k ∈ range (t + 1), ord.getD k 0 * ins (t - k) := by
  unfold uhOut; rw [buffer_getD]; simp

theorem getD_sum (l : List ℝ) : l.sum = ∑ i ∈ range l.length, l.getD i 0 := by
  induction l with
  | nil => simp
  | cons a l ih => rw [List.sum_cons, List.length_cons, Finset.sum_range_succ', ih]; simp [add_comm]

theorem sum_drop_one (l : List ℝ) : (l.drop 1).sum = l.sum - l.getD 0 0 := by
  cases l <;> simp

theorem advance_sum (ord st : List ℝ) (P : ℝ) (h : st.length = ord.length) :
    (advance ord st P).sum = (st.drop 1).sum + ord.sum * P := by
  have key : ∀ (a b : List ℝ), a.length = b.length →
      (List.zipWith (fun a w => a + w * P) a b).sum = a.sum + b.sum * P := by
    intro a
    induction a with
    | nil => intro b hb; cases b <;> simp_all
    | cons x a ih =>
      intro b hb
      cases b with
      | nil => simp at hb
      | cons y b =>
        simp only [List.zipWith_cons_cons, List.sum_cons, ih b (by simpa using hb)]; ring
  unfold advance
  cases hord : ord with
  | nil =>
    have : st = [] := List.length_eq_zero_iff.1 (by rw [h, hord]; rfl)
    simp [this]
  | cons w ws =>
    rw [key _ _ (by rw [hord] at h; simp at h ⊢; omega)]
    simp

/-- **C27 (balance).** At any time, what was released plus what is still in the buffer (the entries not
yet due) is what came in, if the ordinates sum to one. -/
theorem c27_balance (ord : List ℝ) (ins : ℕ → ℝ) (hord : ord.sum = 1) (t : ℕ) :
    ∑ s ∈ range t, uhOut ord ins s + ((buffer ord ins t).drop 1).sum = ∑ s ∈ range t, ins s := by
  induction t with
  | zero => simp [buffer]
  | succ t ih =>
    rw [Finset.sum_range_succ, Finset.sum_range_succ, ← ih, sum_drop_one]
    have h1 : (buffer ord ins (t + 1)).sum = ((buffer ord ins t).drop 1).sum + ins t := by
      show (advance ord (buffer ord ins t) (ins t)).sum = _
      rw [advance_sum _ _ _ (buffer_length _ _ _), hord, one_mul]
    rw [h1]
    unfold uhOut
    ring

/-- **C27 (complete delivery).** Once the input has stopped for the length of the hydrograph, the release
is zero, the buffer is empty and everything has been delivered. -/
theorem c27_complete (ord : List ℝ) (ins : ℕ → ℝ) (hord : ord.sum = 1) (T : ℕ) (hstop : ∀ s, T ≤ s → ins s = 0)
    (t : ℕ) (ht : T + ord.length ≤ t) :
    uhOut ord ins t = 0 ∧ (∀ i, (buffer ord ins (t + 1)).getD i 0 = 0) ∧
    ∑ s ∈ range t, uhOut ord ins s = ∑ s ∈ range T, ins s := by
  have hz : ∀ t, T + ord.length ≤ t + 1 → ∀ i, (buffer ord ins (t + 1)).getD i 0 = 0 := by
    intro t ht i
    rw [buffer_getD]
    apply Finset.sum_eq_zero
    intro k _
    by_cases hk : i + k < ord.length
    · rw [hstop (t - k) (by omega), mul_zero]
    · rw [List.getD_eq_default _ _ (by omega), zero_mul]
  refine ⟨hz t (by omega) 0, hz t (by omega), ?_⟩
  have hb := c27_balance ord ins hord t
  have h0 : ((buffer ord ins t).drop 1).sum = 0 := by
    cases t with
    | zero =>
      have : ord = [] := List.length_eq_zero_iff.1 (by omega)
      simp [buffer, this]
    | succ t =>
      rw [sum_drop_one, hz t (by omega) 0, getD_sum, Finset.sum_eq_zero (fun i _ => hz t (by omega) i)]; simp
  have h1 : ∑ s ∈ range t, ins s = ∑ s ∈ range T, ins s := by
    have : range T ⊆ range t := Finset.range_subset_range.2 (by omega)
    rw [← Finset.sum_subset this]
    intro s _ hs
    exact hstop s (by simpa using hs)
  linarith

/-- The release predicted before the buffer is advanced is the one committed afterwards. -/
theorem predict_eq (ord st : List ℝ) (P : ℝ) (h : st.length = ord.length) :
    predictOut ord st P = (advance ord st P).getD 0 0 := by
  rw [advance_getD _ _ _ h]
  unfold predictOut
  by_cases h1 : st.length > 1
  · simp [h1]
  · rw [if_neg h1, List.getD_eq_default st _ (by omega)]

/-- Witness: an input of 10 mm over the ordinates [1/4, 3/4]. -/
example : uhOut [1 / 4, 3 / 4] (fun t => if t = 0 then 10 else 0) 0 = 5 / 2 ∧
    uhOut [1 / 4, 3 / 4] (fun t => if t = 0 then 10 else 0) 1 = 15 / 2 ∧
    uhOut [1 / 4, 3 / 4] (fun t => if t = 0 then 10 else 0) 2 = 0 := by
  simp only [c27_convolution, Finset.sum_range_succ, Finset.sum_range_zero]
  norm_num

end HB
