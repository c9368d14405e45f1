import Verif.Spec.MassBalance
import Verif.Props.Periods2
import Mathlib.Tactic.FieldSimp
import Mathlib.Tactic.Linarith
import Mathlib.Algebra.Order.BigOperators.Group.Finset
import Mathlib.Algebra.Order.BigOperators.Group.List

/-! # C86: the simulated glacier mass balance -/

set_option linter.unusedSectionVars false

namespace HB.MassBalance

open HB.Spec.MassBalance

variable {K : Type} [Field K] [LinearOrder K] [IsStrictOrderedRing K]

theorem dateIndex_day (start : ℤ) (n i : ℕ) (h : i < n) : dateIndex start n (start + 86400 * (i : ℤ)) = some i := by
  unfold dateIndex Periods.day
  rw [if_neg (by omega)]
  congr 1
  omega

theorem balance_recorded (g : Glacier K) (i0 i1 : ℕ) : (recorded (.inr g)).balance i0 i1 = some (g.balance i0 i1) := by
  unfold Unit'.balance Glacier.balance recorded together
  simp only [List.map_cons, List.map_nil, List.foldl_nil, Option.bind_some, Option.map_some, Option.getD_some]
  rw [Finset.sum_Ico_eq_sum_range, show i1 + 1 - (i0 + 1) = i1 - i0 by omega]

theorem list_range_sum (f : ℕ → K) (n : ℕ) : ((List.range n).map f).sum = ∑ k ∈ Finset.range n, f k := by
  induction n with
  | zero => simp
  | succ n ih => rw [List.range_succ, List.map_append, List.sum_append, ih, Finset.sum_range_succ]; simp

theorem weight_recorded (g : Glacier K) (i0 i1 : ℕ) (h : i0 ≤ i1) : (recorded (.inr g)).weight i0 i1 = some (g.meanArea i0 i1) := by
  unfold Unit'.weight Glacier.meanArea recorded areaTogether
  simp only [List.map_cons, List.map_nil, List.foldl_nil]
  have e : (List.range (i1 + 1 - i0)).filterMap (fun k => some (g.area (i0 + k))) = (List.range (i1 + 1 - i0)).map fun k => g.area (i0 + k) := by
    rw [← List.filterMap_eq_map]; rfl
  rw [e, if_neg]
  · rw [list_range_sum, List.length_map, List.length_range, Finset.sum_Ico_eq_sum_range]
  · rw [List.isEmpty_iff]
    intro h0
    have := congrArg List.length h0
    simp at this
    omega

theorem kept_units (us : List (K ⊕ Glacier K)) (band : Option (K × K)) (i0 i1 : ℕ) (h : i0 ≤ i1) :
    (us.map recorded).filterMap (Unit'.kept band i0 i1) =
      (selected band i0 i1 (glaciers us)).map fun g => (g.balance i0 i1, g.meanArea i0 i1) := by
  unfold selected glaciers
  induction us with
  | nil => rfl
  | cons u us ih =>
    rw [List.map_cons]
    cases u with
    | inl e =>
      have hk : Unit'.kept band i0 i1 (recorded (.inl e)) = none := rfl
      rw [List.filterMap_cons_none hk, ih, List.filterMap_cons_none (f := Sum.getRight?) rfl]
    | inr g =>
      rw [List.filterMap_cons_some (f := Sum.getRight?) (b := g) rfl]
      have hk : Unit'.kept band i0 i1 (recorded (.inr g)) =
          if 0 < g.meanArea i0 i1 ∧ InBand band g.elev then some (g.balance i0 i1, g.meanArea i0 i1) else none := by
        unfold Unit'.kept
        rw [balance_recorded, weight_recorded g i0 i1 h]
        simp only [Option.bind_some]
        congr 1
      by_cases hs : 0 < g.meanArea i0 i1 ∧ InBand band g.elev
      · rw [if_pos hs] at hk
        rw [List.filterMap_cons_some (f := Unit'.kept band i0 i1) hk, ih, List.filter_cons_of_pos (by simpa using hs), List.map_cons]
      · rw [if_neg hs] at hk
        rw [List.filterMap_cons_none hk, ih, List.filter_cons_of_neg (by simpa using hs)]

/-- **C86 (value)**: with one glacier cover, the simulated value of a target over the days `i0` to `i1` of the run is the mean, weighted by
area, of the balances of the glaciers in its band: change of the snow less the recorded ice melt of the days after `i0` up to `i1`.
There is no value when the band has no glacier. -/
theorem c86_value (start : ℤ) (n : ℕ) (us : List (K ⊕ Glacier K)) (t : Target K) (i0 i1 : ℕ) (h01 : i0 < i1) (h1 : i1 < n)
    (ht0 : t.t0 = start + 86400 * (i0 : ℤ)) (ht1 : t.t1 = start + 86400 * (i1 : ℤ)) :
    simulatedOne start n (us.map recorded) t =
      if selected t.band i0 i1 (glaciers us) = [] then none else some (weighted i0 i1 (selected t.band i0 i1 (glaciers us))) := by
  unfold simulatedOne
  rw [ht0, ht1, dateIndex_day start n i0 (by omega), dateIndex_day start n i1 h1]
  simp only
  rw [if_neg (by omega), kept_units us t.band i0 i1 (by omega)]
  by_cases hs : selected t.band i0 i1 (glaciers us) = []
  · rw [if_pos hs, hs]; rfl
  · rw [if_neg hs, if_neg (by simpa using hs)]
    unfold weighted total
    rw [List.map_map, List.map_map]
    rfl

/-- **C86 (outside)**: no value for a target whose period is not in the run, or is empty. -/
theorem c86_outside (start : ℤ) (n : ℕ) (us : List (Unit' K)) (t : Target K)
    (h : t.t0 < start ∨ start + 86400 * ((n : ℤ) - 1) < t.t1 ∨ t.t1 ≤ t.t0) : simulatedOne start n us t = none := by
  unfold simulatedOne
  split
  · next i0 i1 h0 h1 =>
    rw [if_pos]
    unfold dateIndex Periods.day at h0 h1
    split at h0
    · cases h0
    · split at h1
      · cases h1
      · next a b =>
        cases h0
        cases h1
        rw [not_or, not_lt, not_lt] at a b
        have hle : t.t1 ≤ t.t0 := by omega
        apply Int.toNat_le_toNat
        exact Int.ediv_le_ediv (by norm_num) (by omega)
  · rfl

/-- **C86 (surface balance)**: when the snow changes by what falls or freezes less what melts, the balance is accumulation less ablation. -/
theorem c86_surface (g : Glacier K) (gain loss : ℕ → K) (i0 i1 : ℕ) (h : i0 ≤ i1)
    (hs : ∀ t, i0 ≤ t → t < i1 → g.snow (t + 1) = g.snow t + gain (t + 1) - loss (t + 1)) :
    g.balance i0 i1 = ∑ t ∈ Finset.Ico (i0 + 1) (i1 + 1), (gain t - loss t - g.melt t) := by
  unfold Glacier.balance
  induction i1, h using Nat.le_induction with
  | base => simp
  | succ i1 hle ih =>
    have := ih (fun t h1 h2 => hs t h1 (by omega))
    rw [Finset.sum_Ico_succ_top (f := g.melt) (a := i0 + 1) (b := i1 + 1) (by omega),
      Finset.sum_Ico_succ_top (f := fun t => gain t - loss t - g.melt t) (a := i0 + 1) (b := i1 + 1) (by omega), ← this, hs i1 hle (by omega)]
    ring

/-! ## Seasons and bands -/

theorem balance_add (g : Glacier K) (i0 i1 i2 : ℕ) (h : i0 ≤ i1) (h' : i1 ≤ i2) : g.balance i0 i2 = g.balance i0 i1 + g.balance i1 i2 := by
  unfold Glacier.balance
  rw [← Finset.sum_Ico_consecutive _ (show i0 + 1 ≤ i1 + 1 by omega) (show i1 + 1 ≤ i2 + 1 by omega)]
  ring

theorem meanArea_const (g : Glacier K) (a : K) (i0 i1 : ℕ) (h : i0 ≤ i1) (ha : ∀ t, i0 ≤ t → t ≤ i1 → g.area t = a) : g.meanArea i0 i1 = a := by
  unfold Glacier.meanArea
  have e : ∑ t ∈ Finset.Ico i0 (i1 + 1), g.area t = ∑ _t ∈ Finset.Ico i0 (i1 + 1), a := by
    apply Finset.sum_congr rfl
    intro t ht
    rw [Finset.mem_Ico] at ht
    exact ha t ht.1 (by omega)
  rw [e, Finset.sum_const, Nat.card_Ico, nsmul_eq_mul]
  have : ((i1 + 1 - i0 : ℕ) : K) ≠ 0 := Nat.cast_ne_zero.2 (by omega)
  field_simp

/-- **C86 (seasons)**: when the areas do not change, the winter and the summer balances add up to the annual one. -/
theorem c86_seasons (start : ℤ) (n : ℕ) (us : List (K ⊕ Glacier K)) (band : Option (K × K)) (i0 i1 i2 : ℕ) (h01 : i0 < i1) (h12 : i1 < i2)
    (h2 : i2 < n) (area : Glacier K → K) (harea : ∀ g ∈ glaciers us, ∀ t, i0 ≤ t → t ≤ i2 → g.area t = area g) (v w x : K) (a b : K)
    (hwinter : simulatedOne start n (us.map recorded) ⟨start + 86400 * (i0 : ℤ), start + 86400 * (i1 : ℤ), v, band⟩ = some a)
    (hsummer : simulatedOne start n (us.map recorded) ⟨start + 86400 * (i1 : ℤ), start + 86400 * (i2 : ℤ), w, band⟩ = some b) :
    simulatedOne start n (us.map recorded) ⟨start + 86400 * (i0 : ℤ), start + 86400 * (i2 : ℤ), x, band⟩ = some (a + b) := by
  rw [c86_value start n us _ i0 i1 h01 (by omega) rfl rfl] at hwinter
  rw [c86_value start n us _ i1 i2 h12 h2 rfl rfl] at hsummer
  rw [c86_value start n us _ i0 i2 (by omega) h2 rfl rfl]
  simp only at hwinter hsummer ⊢
  have m1 : ∀ g ∈ glaciers us, g.meanArea i0 i1 = area g := fun g hg => meanArea_const g _ _ _ (by omega) fun t h h' => harea g hg t h (by omega)
  have m2 : ∀ g ∈ glaciers us, g.meanArea i1 i2 = area g := fun g hg => meanArea_const g _ _ _ (by omega) fun t h h' => harea g hg t (by omega) h'
  have m3 : ∀ g ∈ glaciers us, g.meanArea i0 i2 = area g := fun g hg => meanArea_const g _ _ _ (by omega) fun t h h' => harea g hg t h h'
  have s1 : selected band i0 i1 (glaciers us) = selected band i0 i2 (glaciers us) :=
    List.filter_congr fun g hg => by rw [m1 g hg, m3 g hg]
  have s2 : selected band i1 i2 (glaciers us) = selected band i0 i2 (glaciers us) :=
    List.filter_congr fun g hg => by rw [m2 g hg, m3 g hg]
  rw [s1] at hwinter
  rw [s2] at hsummer
  have hsub : ∀ g ∈ selected band i0 i2 (glaciers us), g ∈ glaciers us := fun g hg => List.mem_of_mem_filter hg
  generalize selected band i0 i2 (glaciers us) = l at *
  by_cases hl : l = []
  · rw [if_pos hl] at hwinter; cases hwinter
  · rw [if_neg hl] at hwinter hsummer ⊢
    rw [← Option.some.inj hwinter, ← Option.some.inj hsummer]
    congr 1
    unfold weighted total
    have t1 : (l.map fun g => g.meanArea i0 i1) = l.map area := List.map_congr_left fun g hg => m1 g (hsub g hg)
    have t2 : (l.map fun g => g.meanArea i1 i2) = l.map area := List.map_congr_left fun g hg => m2 g (hsub g hg)
    have t3 : (l.map fun g => g.meanArea i0 i2) = l.map area := List.map_congr_left fun g hg => m3 g (hsub g hg)
    have p1 : (l.map fun g => g.balance i0 i1 * g.meanArea i0 i1) = l.map fun g => g.balance i0 i1 * area g :=
      List.map_congr_left fun g hg => by rw [m1 g (hsub g hg)]
    have p2 : (l.map fun g => g.balance i1 i2 * g.meanArea i1 i2) = l.map fun g => g.balance i1 i2 * area g :=
      List.map_congr_left fun g hg => by rw [m2 g (hsub g hg)]
    have p3 : (l.map fun g => g.balance i0 i2 * g.meanArea i0 i2) = l.map fun g => g.balance i0 i1 * area g + g.balance i1 i2 * area g :=
      List.map_congr_left fun g hg => by rw [m3 g (hsub g hg), balance_add g i0 i1 i2 (by omega) (by omega), add_mul]
    rw [t1, t2, t3, p1, p2, p3, List.sum_map_add, add_div]

/-- **C86 (bands)**: the balance of a band times its glacier area is the sum of those of the two bands it is cut into. -/
theorem c86_bands (gs : List (Glacier K)) (i0 i1 : ℕ) (lo mid hi : K) (h1 : lo ≤ mid) (h2 : mid ≤ hi) :
    total i0 i1 (selected (some (lo, hi)) i0 i1 gs) =
      total i0 i1 (selected (some (lo, mid)) i0 i1 gs) + total i0 i1 (selected (some (mid, hi)) i0 i1 gs) ∧
    weighted i0 i1 (selected (some (lo, hi)) i0 i1 gs) * total i0 i1 (selected (some (lo, hi)) i0 i1 gs) =
      weighted i0 i1 (selected (some (lo, mid)) i0 i1 gs) * total i0 i1 (selected (some (lo, mid)) i0 i1 gs) +
      weighted i0 i1 (selected (some (mid, hi)) i0 i1 gs) * total i0 i1 (selected (some (mid, hi)) i0 i1 gs) := by
  have key : ∀ f : Glacier K → K, ((selected (some (lo, hi)) i0 i1 gs).map f).sum =
      ((selected (some (lo, mid)) i0 i1 gs).map f).sum + ((selected (some (mid, hi)) i0 i1 gs).map f).sum := by
    intro f
    unfold selected
    induction gs with
    | nil => simp
    | cons g gs ih =>
      have band : ∀ a b : K, InBand (some (a, b)) g.elev ↔ a ≤ g.elev ∧ g.elev < b := fun a b =>
        ⟨fun h => h _ rfl, fun h c hc => by cases hc; exact h⟩
      simp only [List.filter_cons, decide_eq_true_eq, band]
      by_cases ha : 0 < g.meanArea i0 i1
      · rcases lt_or_ge g.elev mid with hm | hm
        · have hhi : g.elev < hi := lt_of_lt_of_le hm h2
          by_cases hlo : lo ≤ g.elev
          · rw [if_pos ⟨ha, hlo, hhi⟩, if_pos ⟨ha, hlo, hm⟩, if_neg (fun h => absurd h.2.1 (not_le.2 hm))]
            rw [List.map_cons, List.map_cons, List.sum_cons, List.sum_cons, ih, add_assoc]
          · rw [if_neg (fun h => hlo h.2.1), if_neg (fun h => hlo h.2.1), if_neg (fun h => absurd h.2.1 (not_le.2 hm)), ih]
        · have hlo : lo ≤ g.elev := le_trans h1 hm
          by_cases hhi : g.elev < hi
          · rw [if_pos ⟨ha, hlo, hhi⟩, if_neg (fun h => absurd h.2.2 (not_lt.2 hm)), if_pos ⟨ha, hm, hhi⟩]
            rw [List.map_cons, List.map_cons, List.sum_cons, List.sum_cons, ih]
            ring
          · rw [if_neg (fun h => hhi h.2.2), if_neg (fun h => absurd h.2.2 (not_lt.2 hm)), if_neg (fun h => hhi h.2.2), ih]
      · rw [if_neg (fun h => ha h.1), if_neg (fun h => ha h.1), if_neg (fun h => ha h.1), ih]
  have wt : ∀ band, weighted i0 i1 (selected band i0 i1 gs) * total i0 i1 (selected band i0 i1 gs) =
      ((selected band i0 i1 gs).map fun g => g.balance i0 i1 * g.meanArea i0 i1).sum := by
    intro band
    unfold weighted
    by_cases ht : total i0 i1 (selected band i0 i1 gs) = 0
    · have hnil : selected band i0 i1 gs = [] := by
        by_contra hne
        have : 0 < total i0 i1 (selected band i0 i1 gs) := by
          unfold total
          apply List.sum_pos
          · intro x hx
            rw [List.mem_map] at hx
            obtain ⟨g, hg, rfl⟩ := hx
            exact (of_decide_eq_true (List.mem_filter.1 hg).2).1
          · simpa using hne
        exact absurd ht this.ne'
      rw [hnil]; simp
    · rw [div_mul_cancel₀ _ ht]
  refine ⟨key _, ?_⟩
  rw [wt, wt, wt]
  exact key _

/-! ## The recorded melt -/

/-- **C86 (limit: recorded melt)**: the melt recorded for a glacier that drains to a storage of the sub-basin, as in Socont, is the melt times the
share of the glacier in the basin.  The simulated balance is too high by the rest of the melt. -/
theorem c86_recorded_melt (g : Glacier K) (melt : ℕ → K) (φ : K) (hrec : ∀ t, g.melt t = recordedMelt φ (melt t)) (i0 i1 : ℕ) :
    g.balance i0 i1 = ({ g with melt := melt } : Glacier K).balance i0 i1 + (1 - φ) * ∑ t ∈ Finset.Ico (i0 + 1) (i1 + 1), melt t := by
  have hr : ∀ t, g.melt t = melt t * φ := by
    intro t
    rw [hrec t]
    unfold recordedMelt
    split
    · rfl
    · next h => rw [not_not.1 h, mul_one]
  unfold Glacier.balance
  have : ∑ t ∈ Finset.Ico (i0 + 1) (i1 + 1), g.melt t = φ * ∑ t ∈ Finset.Ico (i0 + 1) (i1 + 1), melt t := by
    rw [Finset.mul_sum]
    exact Finset.sum_congr rfl fun t _ => by rw [hr t, mul_comm]
  rw [this]
  simp only
  ring

/-! ## Targets -/

/-- **C86 (targets)**: simulated and observed values are in the same order, one per target; the targets kept are those whose period lies
in the given bounds. -/
theorem c86_targets (start : ℤ) (n : ℕ) (us : List (Unit' K)) (ts : List (Target K)) (a b : Option ℤ) :
    (simulated start n us ts).length = (observed ts).length ∧
    ∀ t, t ∈ restrict a b ts ↔ t ∈ ts ∧ (∀ s, a = some s → s ≤ t.t0) ∧ ∀ e, b = some e → t.t1 ≤ e := by
  refine ⟨by simp [simulated, observed], fun t => ?_⟩
  unfold restrict
  rw [List.mem_filter]
  refine and_congr_right fun _ => ?_
  cases a <;> cases b <;> simp

/-- **C86 (hydrological year)**: the period of a year runs from the first day of the month to the day before it, a year later. -/
theorem c86_year (y m : ℤ) (h1 : 1 ≤ m) (h2 : m ≤ 12) :
    periodFromYear y m = (sysDays y m 1 * 86400, (sysDays (y + 1) m 1 - 1) * 86400) := by
  have hd : Spec.Date y m 1 := ⟨h1, h2, le_refl _, by unfold Spec.monthLength; split_ifs <;> omega⟩
  unfold periodFromYear Periods.plusYears Periods.day
  simp only
  rw [c42_date_round_trip y m 1 hd]
  simp only
  have : min 1 (lastDay (y + 1) m) = 1 := by
    rw [lastDay_eq]
    unfold Spec.monthLength
    split_ifs <;> omega
  rw [this]

end HB.MassBalance
