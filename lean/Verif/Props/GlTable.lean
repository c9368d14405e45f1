import Verif.Spec.GlTable
import Verif.Model.GlTableLemmas
import Verif.Props.Glacier
import Mathlib.Algebra.BigOperators.Group.Finset.Sigma
import Mathlib.Algebra.BigOperators.Fin
import Mathlib.Algebra.Order.Field.Rat
import Mathlib.Data.Rat.Defs
import Mathlib.Analysis.SpecialFunctions.Pow.NNReal

/-!
# C79: the look-up tables of the delta-h method

Row `k` of the tables computed for `n` increments holds the glacier after `k/n` of its ice has melted.
-/

namespace HB.GlTable

open HB.Spec.GlTable

set_option linter.unusedSectionVars false

/-- The square root of the code is such a root. -/
theorem sqrt_rootLike : RootLike Real.sqrt where
  zero := Real.sqrt_zero
  one := Real.sqrt_one
  pos := fun _ h => Real.sqrt_pos.2 h
  le_one := fun x _ h => Real.sqrt_le_one.2 h
  le_root := fun x h0 h1 => Real.le_sqrt_of_sq_le (by nlinarith)

section
variable {κ ι U K : Type} [Fintype κ] [Fintype ι] [DecidableEq ι] [DecidableEq U] [Fintype U] [Field K] [LinearOrder K]
  [IsStrictOrderedRing K]

theorem bandArea_pos {g : Profile κ ι U K} (hg : Proper g) (i : ι) : 0 < g.bandArea i := by
  obtain ⟨p, hp⟩ := hg.bands i
  exact Finset.sum_pos (fun q _ => hg.area q) ⟨p, by simp [hp]⟩

theorem bandWe_nonneg {g : Profile κ ι U K} (hg : Proper g) (i : ι) : 0 ≤ g.bandWe i :=
  Finset.sum_nonneg fun p _ => mul_nonneg (hg.we p) (div_nonneg (hg.area p).le (bandArea_pos hg i).le)

theorem band_product {g : Profile κ ι U K} (hg : Proper g) (i : ι) :
    g.bandArea i * g.bandWe i = ∑ p with g.band p = i, g.we p * g.area p := by
  unfold Profile.bandWe
  rw [Finset.mul_sum]
  refine Finset.sum_congr rfl fun p _ => ?_
  have := (bandArea_pos hg i).ne'
  field_simp

theorem start_total {g : Profile κ ι U K} (hg : Proper g) : g.total = ∑ i, g.start.area i * g.start.we i := by
  show ∑ p, g.area p * g.we p = ∑ i, g.bandArea i * g.bandWe i
  rw [Finset.sum_congr rfl fun i _ => band_product hg i, Finset.sum_fiberwise]
  exact Finset.sum_congr rfl fun p _ => mul_comm _ _

/-- Water equivalent times area of a part. -/
theorem part_product {g : Profile κ ι U K} (hg : Proper g) (k : ℕ) (r : Row ι K) (hr : BandFine g.start r) (hk : 0 < k) (p : κ) :
    g.partWe k r p * g.partArea k r p =
      g.we p * g.area p * (r.area (g.band p) * r.we (g.band p) / (g.bandArea (g.band p) * g.bandWe (g.band p))) := by
  have hk0 : k ≠ 0 := hk.ne'
  unfold Profile.partArea
  rw [if_neg hk0]
  have hA := (bandArea_pos hg (g.band p)).ne'
  by_cases h0 : r.we (g.band p) = 0
  · have : g.partWe k r p = 0 := by
      unfold Profile.partWe
      rw [if_neg hk0, if_pos h0]
    rw [this, h0]
    simp
  · have hpos : 0 < r.we (g.band p) := lt_of_le_of_ne (hr.we _) (Ne.symm h0)
    have hW : 0 < g.bandWe (g.band p) := hpos.trans_le (hr.weLe (g.band p))
    have e : g.partWe k r p = g.we p * (r.we (g.band p) / g.bandWe (g.band p)) := by
      unfold Profile.partWe
      rw [if_neg hk0, if_neg h0]
    have hnn : 0 ≤ g.partWe k r p := by rw [e]; exact mul_nonneg (hg.we p) (div_nonneg hpos.le hW.le)
    split
    · next hz =>
      rw [e] at hz
      have : g.we p = 0 := by
        rcases mul_eq_zero.1 hz with h | h
        · exact h
        · exact absurd h (div_pos hpos hW).ne'
      rw [this]
      simp
    · next hz =>
      rw [if_pos (lt_of_le_of_ne hnn (Ne.symm hz)), e]
      have := hW.ne'
      field_simp

/-- In row 0, the parts are those of the profile. -/
theorem part_product_zero (g : Profile κ ι U K) (r : Row ι K) (p : κ) :
    g.partWe 0 r p * g.partArea 0 r p = g.we p * g.area p := by
  simp [Profile.partWe, Profile.partArea]

theorem unitVolume_eq (g : Profile κ ι U K) (iceWe : K) (k : ℕ) (r : Row ι K) (u : U) :
    g.unitVolume iceWe k r u =
      (∑ p with g.unit p = u, g.partWe k r p * g.partArea k r p) * (g.catchment / (iceWe * 1000)) := by
  unfold Profile.unitVolume
  rw [Finset.sum_mul]
  refine Finset.sum_congr rfl fun p _ => ?_
  ring

theorem volume_eq (g : Profile κ ι U K) (iceWe : K) (k : ℕ) (r : Row ι K) :
    volume g iceWe k r = (∑ p, g.partWe k r p * g.partArea k r p) * (g.catchment / (iceWe * 1000)) := by
  unfold volume
  rw [Finset.sum_congr rfl fun u _ => unitVolume_eq g iceWe k r u, ← Finset.sum_mul, Finset.sum_fiberwise]

/-- The volume of a row is the one of its bands. -/
theorem volume_bands {g : Profile κ ι U K} (hg : Proper g) (iceWe : K) (k : ℕ) (r : Row ι K) (hr : BandFine g.start r)
    (hk : 0 < k) : volume g iceWe k r = (∑ i, r.area i * r.we i) * (g.catchment / (iceWe * 1000)) := by
  rw [volume_eq]
  congr 1
  rw [← Finset.sum_fiberwise (s := Finset.univ) (g := g.band)]
  refine Finset.sum_congr rfl fun i _ => ?_
  have e : ∀ p ∈ Finset.univ.filter (fun p => g.band p = i), g.partWe k r p * g.partArea k r p =
      g.we p * g.area p * (r.area i * r.we i / (g.bandArea i * g.bandWe i)) := by
    intro p hp
    rw [part_product hg k r hr hk p, (Finset.mem_filter.1 hp).2]
  rw [Finset.sum_congr rfl e, ← Finset.sum_mul, ← band_product hg i]
  rcases eq_or_lt_of_le (hr.we i) with h0 | h0
  · rw [← h0]; simp
  · have hW : 0 < g.bandWe i := h0.trans_le (hr.weLe i)
    have hA := bandArea_pos hg i
    field_simp

theorem volume_zero {g : Profile κ ι U K} (iceWe : K) (r : Row ι K) :
    volume g iceWe 0 r = profileVolume g iceWe ∧ volume g iceWe 0 r = g.total * (g.catchment / (iceWe * 1000)) := by
  rw [volume_eq, Finset.sum_congr rfl fun p _ => part_product_zero g r p]
  constructor
  · unfold profileVolume
    rw [Finset.sum_mul]
    exact Finset.sum_congr rfl fun p _ => by ring
  · unfold Profile.total
    congr 1
    exact Finset.sum_congr rfl fun p _ => mul_comm _ _

section table
variable {g : Profile κ ι U K} (hg : Proper g) {root : K → K} (hr : RootLike root) {mode : Width} {dh : ι → K}
  (hdh : ∀ i, 0 ≤ dh i) {n : ℕ} (hn : 0 < n)
include hg hr hdh hn

theorem row_fine {k : ℕ} {r : Row ι K} (h : bandRow root mode dh g.total n g.start k = some r) :
    BandFine g.start r ∧ 0 ≤ r.owed ∧ (k ≤ n → ∑ i, r.area i * r.we i = g.total * (1 - k / n) + r.owed) ∧
      (0 < k → ∀ i, r.we i = 0 → r.area i = 0) :=
  bandRow_spec hr hdh hn (bandArea_pos hg) (bandWe_nonneg hg) rfl (start_total hg) k r h

/-- **C79 (ice)**: row `k` of the tables holds the initial volume of ice less `k` increments of one `n`-th of it, plus the
melt that the emptied bands still owe. -/
theorem c79_volume {iceWe : K} (hi : 0 < iceWe) {k : ℕ} (hkn : k ≤ n) {r : Row ι K}
    (h : bandRow root mode dh g.total n g.start k = some r) :
    ∃ owed, 0 ≤ owed ∧ volume g iceWe k r = profileVolume g iceWe * (1 - k / n) + owed ∧
      (k = 0 ∨ k = n → owed = 0) := by
  obtain ⟨hf, ho, hs, _⟩ := row_fine hg hr hdh hn h
  have hc : 0 ≤ g.catchment / (iceWe * 1000) := div_nonneg hg.catchment.le (by positivity)
  rcases Nat.eq_zero_or_pos k with h0 | h0
  · subst h0
    exact ⟨0, _root_.le_refl _, by rw [(volume_zero iceWe r).1]; simp, fun _ => rfl⟩
  · refine ⟨r.owed * (g.catchment / (iceWe * 1000)), mul_nonneg ho hc, ?_, fun hk => ?_⟩
    · rw [volume_bands hg iceWe k r hf h0, hs hkn, ← (volume_zero iceWe r).1, (volume_zero iceWe r).2]
      ring
    · have hkn' : k = n := by omega
      have hx : r.owed = 0 := by
        unfold bandRow at h
        rw [if_neg (by omega)] at h
        cases h
        rfl
      rw [hx, zero_mul]

/-- **C79 (exact)**: nothing is owed, and the volume is exactly the expected share, when no band loses all its ice during the
increment. -/
theorem c79_exact {iceWe : K} {k : ℕ} (hkn : k + 1 < n) {old r r' : Row ι K}
    (hold : rows root mode dh g.total n g.start k = some old)
    (hnew : rows root mode dh g.total n g.start (k + 1) = some r)
    (hice : ∀ i, 0 < old.area i → 0 < r.we i)
    (h : bandRow root mode dh g.total n g.start (k + 1) = some r') :
    volume g iceWe (k + 1) r' = profileVolume g iceWe * (1 - ((k + 1 : ℕ) : K) / n) := by
  obtain ⟨hf, ho, hs, _⟩ := row_fine hg hr hdh hn h
  obtain ⟨hfo, _, _⟩ := rows_spec hr hdh hn (bandArea_pos hg) (bandWe_nonneg hg) rfl (start_total hg) k old hold
  have hw0 : 0 ≤ g.total := Finset.sum_nonneg fun p _ => mul_nonneg (hg.area p).le (hg.we p)
  have hstep : step root mode dh g.total n g.start old = some r := by
    unfold rows at hnew
    rw [hold] at hnew
    exact hnew
  obtain ⟨_, _, _, hz, _⟩ := step_spec hr hdh hw0 (bandArea_pos hg) hfo hstep
  have hr0 := hz hice
  have hr' : r'.owed = r.owed := by
    unfold bandRow at h
    rw [if_pos hkn, hnew] at h
    simp only [Option.map_some, Option.some.injEq] at h
    subst h
    split <;> rfl
  rw [volume_bands hg iceWe (k + 1) r' hf (Nat.succ_pos k), hs hkn.le, hr', hr0, ← (volume_zero iceWe r').1,
    (volume_zero iceWe r').2]
  ring

/-- The product of a band, from a row to the next. -/
theorem band_decreases {k : ℕ} {r r' : Row ι K} (h : bandRow root mode dh g.total n g.start k = some r)
    (h' : bandRow root mode dh g.total n g.start (k + 1) = some r') (i : ι) :
    r'.area i * r'.we i ≤ r.area i * r.we i := by
  have hw0 : 0 ≤ g.total := Finset.sum_nonneg fun p _ => mul_nonneg (hg.area p).le (hg.we p)
  obtain ⟨hf, _⟩ := row_fine hg hr hdh hn h
  by_cases hk : k + 1 < n
  · unfold bandRow at h h'
    rw [if_pos hk] at h'
    rw [if_pos (by omega)] at h
    rw [Option.map_eq_some_iff] at h h'
    obtain ⟨a, ha, hra⟩ := h
    obtain ⟨b, hb, hrb⟩ := h'
    obtain ⟨hfa, _, hza⟩ := rows_spec hr hdh hn (bandArea_pos hg) (bandWe_nonneg hg) rfl (start_total hg) k a ha
    obtain ⟨hfb, _, hzb⟩ := rows_spec hr hdh hn (bandArea_pos hg) (bandWe_nonneg hg) rfl (start_total hg) (k + 1) b hb
    have hstep : step root mode dh g.total n g.start a = some b := by
      unfold rows at hb
      rw [ha] at hb
      exact hb
    obtain ⟨_, _, hm, _⟩ := step_spec hr hdh hw0 (bandArea_pos hg) hfa hstep
    have ea : r.area i * r.we i = a.area i * a.we i := by
      subst hra
      split
      · next hc =>
        obtain ⟨hc, hk0⟩ := hc
        subst hc
        exact (final_spec hr (bandArea_pos hg) hfa (hza hk0)).1 i
      · rfl
    have eb : r'.area i * r'.we i = b.area i * b.we i := by
      subst hrb
      split
      · next hc =>
        obtain ⟨hc, hk0⟩ := hc
        subst hc
        exact (final_spec hr (bandArea_pos hg) hfb (hzb hk0)).1 i
      · rfl
    rw [ea, eb]
    exact hm i
  · unfold bandRow at h'
    rw [if_neg hk] at h'
    cases h'
    simp only [mul_zero]
    exact mul_nonneg (hf.area i) (hf.we i)

/-- **C79 (retreat)**: the volume of ice of every unit never grows from a row to the next. -/
theorem c79_retreat {iceWe : K} (hi : 0 < iceWe) {k : ℕ} {r r' : Row ι K}
    (h : bandRow root mode dh g.total n g.start k = some r)
    (h' : bandRow root mode dh g.total n g.start (k + 1) = some r') (u : U) :
    g.unitVolume iceWe (k + 1) r' u ≤ g.unitVolume iceWe k r u ∧ 0 ≤ g.unitVolume iceWe (k + 1) r' u := by
  obtain ⟨hf, _⟩ := row_fine hg hr hdh hn h
  obtain ⟨hf', _⟩ := row_fine hg hr hdh hn h'
  have hc : 0 ≤ g.catchment / (iceWe * 1000) := div_nonneg hg.catchment.le (by positivity)
  have hnn : ∀ p, 0 ≤ g.we p * g.area p := fun p => mul_nonneg (hg.we p) (hg.area p).le
  have hq : ∀ i, 0 ≤ g.bandArea i * g.bandWe i := fun i => mul_nonneg (bandArea_pos hg i).le (bandWe_nonneg hg i)
  rw [unitVolume_eq, unitVolume_eq]
  constructor
  · refine mul_le_mul_of_nonneg_right (Finset.sum_le_sum fun p _ => ?_) hc
    rw [part_product hg (k + 1) r' hf' (Nat.succ_pos k) p]
    rcases Nat.eq_zero_or_pos k with h0 | h0
    · subst h0
      rw [part_product_zero]
      refine mul_le_of_le_one_right (hnn p) ?_
      refine div_le_one_of_le₀ ?_ (hq _)
      exact mul_le_mul (hf'.areaLe _) (hf'.weLe _) (hf'.we _) (bandArea_pos hg _).le
    · rw [part_product hg k r hf h0 p]
      refine mul_le_mul_of_nonneg_left ?_ (hnn p)
      exact div_le_div_of_nonneg_right (band_decreases hg hr hdh hn h h' _) (hq _)
  · refine mul_nonneg (Finset.sum_nonneg fun p _ => ?_) hc
    rw [part_product hg (k + 1) r' hf' (Nat.succ_pos k) p]
    exact mul_nonneg (hnn p) (div_nonneg (mul_nonneg (hf'.area _) (hf'.we _)) (hq _))

theorem partArea_bounds {k : ℕ} {r : Row ι K} (h : bandRow root mode dh g.total n g.start k = some r) (p : κ) :
    0 ≤ g.partArea k r p ∧ g.partArea k r p ≤ g.area p := by
  obtain ⟨hf, _⟩ := row_fine hg hr hdh hn h
  unfold Profile.partArea
  split
  · exact ⟨(hg.area p).le, _root_.le_refl _⟩
  · split
    · exact ⟨_root_.le_refl _, (hg.area p).le⟩
    · split
      · refine ⟨mul_nonneg (hg.area p).le (div_nonneg (hf.area _) (bandArea_pos hg _).le), ?_⟩
        exact mul_le_of_le_one_right (hg.area p).le ((div_le_one (bandArea_pos hg _)).2 (hf.areaLe _))
      · exact ⟨(hg.area p).le, _root_.le_refl _⟩

/-- **C79 (areas)**: the area of every unit is never negative nor above its initial area. -/
theorem c79_areas {k : ℕ} {r r0 : Row ι K} (h : bandRow root mode dh g.total n g.start k = some r) (u : U) :
    0 ≤ g.unitArea k r u ∧ g.unitArea k r u ≤ g.unitArea 0 r0 u := by
  unfold Profile.unitArea
  constructor
  · exact Finset.sum_nonneg fun p _ => mul_nonneg (partArea_bounds hg hr hdh hn h p).1 hg.catchment.le
  · refine Finset.sum_le_sum fun p _ => mul_le_mul_of_nonneg_right ?_ hg.catchment.le
    refine (partArea_bounds hg hr hdh hn h p).2.trans (le_of_eq ?_)
    simp [Profile.partArea]

/-- **C79 (no area without ice)**: after the first row, a unit has an area exactly when it has ice. -/
theorem c79_area_iff_ice {iceWe : K} (hi : 0 < iceWe) {k : ℕ} (hk : 0 < k) {r : Row ι K}
    (h : bandRow root mode dh g.total n g.start k = some r) (u : U) :
    g.unitArea k r u = 0 ↔ g.unitVolume iceWe k r u = 0 := by
  obtain ⟨hf, _, _, hz⟩ := row_fine hg hr hdh hn h
  have hk0 : k ≠ 0 := hk.ne'
  have hc : 0 < g.catchment / (iceWe * 1000) := div_pos hg.catchment (by positivity)
  have hpw : ∀ p, 0 ≤ g.partWe k r p := by
    intro p
    unfold Profile.partWe
    rw [if_neg hk0]
    split
    · exact _root_.le_refl _
    · exact mul_nonneg (hg.we p) (div_nonneg (hf.we _) (bandWe_nonneg hg _))
  have key : ∀ p, g.partArea k r p = 0 ↔ g.partWe k r p * g.partArea k r p = 0 := by
    intro p
    constructor
    · intro h0; rw [h0, mul_zero]
    · intro h0
      rcases mul_eq_zero.1 h0 with h0 | h0
      · unfold Profile.partArea
        rw [if_neg hk0, if_pos h0]
      · exact h0
  rw [unitVolume_eq]
  unfold Profile.unitArea
  rw [← Finset.sum_mul, mul_eq_zero, mul_eq_zero, or_iff_left hg.catchment.ne', or_iff_left hc.ne',
    Finset.sum_eq_zero_iff_of_nonneg (fun p _ => (partArea_bounds hg hr hdh hn h p).1),
    Finset.sum_eq_zero_iff_of_nonneg (fun p _ => mul_nonneg (hpw p) (partArea_bounds hg hr hdh hn h p).1)]
  exact forall_congr' fun p => imp_congr_right fun _ => key p

/-- **C79 (rows)**: every row but the last one holds ice. -/
theorem c79_rows {iceWe : K} (hi : 0 < iceWe) {k : ℕ} (hkn : k < n) {r : Row ι K} (hice : ∃ p, 0 < g.we p)
    (h : bandRow root mode dh g.total n g.start k = some r) : 0 < volume g iceWe k r := by
  obtain ⟨owed, ho, he, _⟩ := c79_volume hg hr hdh hn hi hkn.le h
  rw [he]
  have hv : 0 < profileVolume g iceWe := by
    obtain ⟨p, hp⟩ := hice
    refine Finset.sum_pos' (fun q _ => ?_) ⟨p, Finset.mem_univ p, ?_⟩
    · exact mul_nonneg (mul_nonneg (hg.area q).le hg.catchment.le) (div_nonneg (hg.we q) (by positivity))
    · exact mul_pos (mul_pos (hg.area p) hg.catchment) (div_pos hp (by positivity))
  have hkn' : (k : K) < n := by exact_mod_cast hkn
  have hn' : (0 : K) < n := by exact_mod_cast hn
  have : 0 < 1 - (k : K) / n := by
    rw [sub_pos, div_lt_one hn']
    exact hkn'
  have := mul_pos hv this
  linarith

/-- **C79 (handed to the action)**: loaded in the units of a model, the tables are the consistent tables of the theorem on the
delta-h action (C38), as soon as no area is below the resolution of the extents. -/
theorem c79_tables_for_action {iceWe : K} (hi : 0 < iceWe) (hice : ∃ p, 0 < g.we p) (rw_ : ℕ → Row ι K)
    (hrows : ∀ k ≤ n, bandRow root mode dh g.total n g.start k = some (rw_ k))
    (c : String) (us : List U) (hnd : us.Nodup) (hall : ∀ u, u ∈ us) (load : U → GlUnit K)
    (harea : ∀ u, 0 < (load u).area) (hcov : ∀ u, c ∈ (load u).hu.covers ∧ (load u).hu.generic ≠ some c)
    (hta : ∀ u, ∀ k ≤ n, (load u).tabArea k = g.unitArea k (rw_ k) u)
    (htv : ∀ u, ∀ k ≤ n, (load u).tabVol k = g.unitVolume iceWe k (rw_ k) u)
    (hclean : ∀ u, ∀ k ≤ n, Spec.CleanFraction (g.unitArea k (rw_ k) u / (load u).area))
    (hbig : ∀ u, ∀ k ≤ n, g.unitArea k (rw_ k) u = 0 ∨ prec < g.unitArea k (rw_ k) u) :
    Spec.DeltaHTables c (n + 1) (us.map load) := by
  refine ⟨by omega, ?_, ?_, ?_, ?_, ?_⟩
  · intro x hx
    obtain ⟨u, _, rfl⟩ := List.mem_map.1 hx
    exact harea u
  · intro x hx
    obtain ⟨u, _, rfl⟩ := List.mem_map.1 hx
    exact hcov u
  · intro x hx k hk
    obtain ⟨u, _, rfl⟩ := List.mem_map.1 hx
    rw [hta u k (by omega)]
    exact hclean u k (by omega)
  · intro x hx k hk
    obtain ⟨u, _, rfl⟩ := List.mem_map.1 hx
    rw [hta u k (by omega), htv u k (by omega)]
    rcases hbig u k (by omega) with h0 | h0
    · left
      refine ⟨h0, ?_⟩
      rcases Nat.eq_zero_or_pos k with hk0 | hk0
      · subst hk0
        -- the first row: an area of zero means that the unit has no part
        unfold Profile.unitArea at h0
        rw [Finset.sum_eq_zero_iff_of_nonneg (fun p _ => mul_nonneg
          (partArea_bounds hg hr hdh hn (hrows 0 (by omega)) p).1 hg.catchment.le)] at h0
        unfold Profile.unitVolume
        refine Finset.sum_eq_zero fun p hp => ?_
        rw [h0 p hp]
        simp
      · exact (c79_area_iff_ice hg hr hdh hn hi hk0 (hrows k (by omega)) u).1 h0
    · exact .inr h0
  · intro k hk
    have hk' : k < n := by omega
    have e : ((us.map load).map fun x => x.tabVol k).sum = volume g iceWe k (rw_ k) := by
      rw [List.map_map]
      have : ∀ u, ((fun x : GlUnit K => x.tabVol k) ∘ load) u = g.unitVolume iceWe k (rw_ k) u :=
        fun u => htv u k (by omega)
      rw [List.map_congr_left fun u _ => this u]
      unfold volume
      rw [← List.sum_toFinset _ hnd]
      congr 1
      ext u
      simp [hall u]
    rw [e]
    exact (c79_rows hg hr hdh hn hi hk' hice (hrows k (by omega))).ne'

end table

/-! ### the parametrisation -/

/-- The change of a small glacier (below 5 km²) is the square of the normalised elevation. -/
theorem small_change (x : K) (km2 : K) (h0 : 0 < km2) (h5 : km2 < 5) :
    ∃ p, coeffs km2 = some p ∧ p.change x = x ^ 2 := by
  refine ⟨⟨-30/100, 60/100, 9/100, 2⟩, ?_, ?_⟩
  · unfold coeffs
    rw [if_neg (by linarith), if_neg (by intro h; linarith [h.1]), if_pos ⟨h0, h5⟩]
  · simp only [Coeffs.change]
    ring

/-- **C79 (small and medium glaciers)**: up to 20 km², the parametrisation gives changes that are not negative, so that the
theorems above apply to the tables of the default method. -/
theorem c79_changes (km2 x : K) (h0 : 0 < km2) (h20 : km2 ≤ 20) (hx : 0 ≤ x) :
    ∃ p, coeffs km2 = some p ∧ 0 ≤ p.change x := by
  by_cases h5 : km2 < 5
  · obtain ⟨p, hp, hc⟩ := small_change x km2 h0 h5
    exact ⟨p, hp, by rw [hc]; positivity⟩
  · refine ⟨⟨-5/100, 19/100, 1/100, 4⟩, ?_, ?_⟩
    · unfold coeffs
      rw [if_neg (by linarith), if_pos ⟨not_lt.1 h5, h20⟩]
    · simp only [Coeffs.change]
      have : 0 ≤ (x + -5/100) ^ 4 := by positivity
      have e : (x + -5/100) ^ 4 + 19/100 * (x + -5/100) + 1/100 = (x + -5/100) ^ 4 + 19/100 * x + 5/10000 := by ring
      rw [e]
      positivity

/-- The normalised elevations are between 0 (the highest band) and 1. -/
theorem norm_nonneg (g : Profile κ ι U K) (i : ι) (h1 : g.elev i ≤ g.top) (h2 : g.bottom < g.top) :
    0 ≤ g.norm i := div_nonneg (sub_nonneg.2 h1) (sub_pos.2 h2).le

/-- **C79**, for the default method: the volume of row `k` of the tables of a glacier of at most 20 km². -/
theorem c79_default {g : Profile κ ι U K} (hg : Proper g) {root : K → K} (hr : RootLike root) {mode : Width}
    {n k : ℕ} (hn : 0 < n) (hkn : k ≤ n) (hkm : g.km2 ≤ 20) (helev : ∀ i, g.elev i ≤ g.top) (hrange : g.bottom < g.top)
    {iceWe : K} (hi : 0 < iceWe) (r : Row ι K) (h : g.tableRow root mode n k = some r) :
    ∃ owed, 0 ≤ owed ∧ volume g iceWe k r = profileVolume g iceWe * (1 - k / n) + owed ∧
      (k = 0 ∨ k = n → owed = 0) := by
  unfold Profile.tableRow at h
  rw [Option.bind_eq_some_iff] at h
  obtain ⟨p, hp, h⟩ := h
  have hpos : 0 < g.km2 := by
    by_contra hc
    unfold coeffs at hp
    rw [if_neg (by linarith), if_neg (by intro h; linarith [h.1]), if_neg (by intro h; exact hc h.1)] at hp
    cases hp
  refine c79_volume hg hr (fun i => ?_) hn hi hkn h
  obtain ⟨q, hq, hc⟩ := c79_changes g.km2 (g.norm i) hpos hkm (norm_nonneg g i (helev i) hrange)
  rw [hp] at hq
  cases hq
  exact hc

/-! ### findings -/

theorem rows_top {root : K → K} (hr : RootLike root) {mode : Width} {dh : ι → K} (hdh : ∀ i, 0 ≤ dh i) {n : ℕ}
    (hn : 0 < n) {first : Row ι K} (hfa : ∀ i, 0 < first.area i) (hfw : ∀ i, 0 ≤ first.we i) (hfo : first.owed = 0)
    {w0 : K} (hw0 : w0 = ∑ i, first.area i * first.we i) (i : ι) (hi : dh i = 0) (hice : 0 < first.we i) (k : ℕ) (r : Row ι K)
    (h : rows root mode dh w0 n first k = some r) : r.we i = first.we i ∧ r.area i = first.area i := by
  induction k generalizing r with
  | zero => cases h; exact ⟨rfl, rfl⟩
  | succ k ih =>
    unfold rows at h
    rw [Option.bind_eq_some_iff] at h
    obtain ⟨old, hold, hstep⟩ := h
    obtain ⟨e1, e2⟩ := ih old hold
    obtain ⟨hf, _, _⟩ := rows_spec hr hdh hn hfa hfw hfo hw0 k old hold
    have hw0n : 0 ≤ w0 := by
      rw [hw0]
      exact Finset.sum_nonneg fun i _ => mul_nonneg (hfa i).le (hfw i)
    unfold step at hstep
    rw [Option.map_eq_some_iff] at hstep
    obtain ⟨r1, hmelt, hr1⟩ := hstep
    have hm : 0 ≤ w0 / n + old.owed := add_nonneg (div_nonneg hw0n (Nat.cast_nonneg n)) hf.owed
    obtain ⟨_, _, _, _, _, _, hkeep⟩ := melt_spec hmelt hdh hm hf.we hf.area
    have hw1 : r1.we i = first.we i := by rw [hkeep i hi, e1]
    have hone : ∀ ref : Row ι K, ref.we i = first.we i → ref.area i = first.area i →
        (scale root ref old r1).we i = first.we i ∧ (scale root ref old r1).area i = first.area i := by
      intro ref hrw hra
      have hs : scaledArea root ref r1 i = first.area i := by
        unfold scaledArea
        rw [hrw, if_pos hice, hw1, div_self hice.ne', hr.one, mul_one, hra]
      have hwe : (scale root ref old r1).we i = first.we i := by
        rw [scale_we, hs, hw1, if_pos hice, e2, div_self (hfa i).ne', mul_one]
      exact ⟨hwe, by rw [scale_area, hwe, if_neg hice.ne', hs]⟩
    cases mode with
    | initial =>
      have hx : scale root first old r1 = r := hr1
      subst hx
      exact hone first rfl rfl
    | previous =>
      have hx : scale root old old r1 = r := hr1
      subst hx
      exact hone old e1 e2
    | atTheEnd =>
      have hx : keepWidth old r1 = r := hr1
      subst hx
      refine ⟨hw1, ?_⟩
      show (if r1.we i = 0 then 0 else old.area i) = _
      rw [hw1, if_neg hice.ne', e2]

/-- **C79 (finding)**: for a glacier below 5 km², the highest band never melts: it has its initial thickness and area in every row
but the last one. -/
theorem c79_top_never_melts {g : Profile κ ι U K} (hg : Proper g) {root : K → K} (hr : RootLike root) {mode : Width}
    {n k : ℕ} (hn : 0 < n) (hkn : k < n) (h5 : g.km2 < 5) (helev : ∀ i, g.elev i ≤ g.top) (hrange : g.bottom < g.top)
    (i : ι) (htop : g.elev i = g.top) (hice : 0 < g.bandWe i) (r : Row ι K) (h : g.tableRow root mode n k = some r) :
    r.we i = g.bandWe i ∧ r.area i = g.bandArea i := by
  unfold Profile.tableRow at h
  rw [Option.bind_eq_some_iff] at h
  obtain ⟨p, hp, h⟩ := h
  have hpos : 0 < g.km2 := by
    by_contra hc
    unfold coeffs at hp
    rw [if_neg (by linarith), if_neg (by intro h; linarith [h.1]), if_neg (by intro h; exact hc h.1)] at hp
    cases hp
  have hchange : ∀ x, p.change x = x ^ 2 := by
    intro x
    obtain ⟨q, hq, hc⟩ := small_change x g.km2 hpos h5
    rw [hp] at hq
    cases hq
    exact hc
  have hnorm : g.norm i = 0 := by
    unfold Profile.norm
    rw [htop]
    simp
  unfold bandRow at h
  rw [if_pos hkn, Option.map_eq_some_iff] at h
  obtain ⟨r0, hr0, h⟩ := h
  obtain ⟨e1, e2⟩ := rows_top hr (dh := fun i => p.change (g.norm i)) (fun j => by rw [hchange]; positivity) hn (bandArea_pos hg)
    (bandWe_nonneg hg) rfl (start_total hg) i (by rw [hchange, hnorm]; ring) hice k r0 hr0
  subst h
  split
  · have e1' : r0.we i = g.bandWe i := e1
    have ha : (finalWidth root g.start r0).area i = g.bandArea i := by
      show (if 0 < g.bandWe i then g.bandArea i * root (r0.we i / g.bandWe i) else r0.area i) = _
      rw [if_pos hice, e1', div_self hice.ne', hr.one, mul_one]
    refine ⟨?_, ha⟩
    show (if 0 < r0.we i then r0.we i * (g.bandArea i / (finalWidth root g.start r0).area i) else r0.we i) = _
    rw [ha, e1', if_pos hice, div_self (bandArea_pos hg i).ne', mul_one]
  · exact ⟨e1, e2⟩

/-- **C79 (finding)**: once only bands with no change are left, the next row is a division by zero (`nan` values). -/
theorem c79_stuck (root : K → K) (mode : Width) (dh : ι → K) (w0 : K) (n : ℕ) (first old : Row ι K)
    (h : ∀ i, dh i = 0 ∨ old.area i = 0) : step root mode dh w0 n first old = none := by
  unfold step melt
  have : ∑ i, old.area i * dh i = 0 := Finset.sum_eq_zero fun i _ => by
    rcases h i with h | h <;> rw [h] <;> simp
  simp [this]

/-- **C79 (finding)**: for a glacier above 20 km², the change of the highest band is negative. -/
theorem c79_large_top (km2 : K) (h : 20 < km2) : ∃ p, coeffs km2 = some p ∧ p.change (0 : K) < 0 := by
  refine ⟨⟨-2/100, 12/100, 0, 6⟩, ?_, ?_⟩
  · unfold coeffs
    rw [if_pos h]
  · simp only [Coeffs.change]
    norm_num

end

/-! ### examples -/

namespace GlTableDemo

/-- A profile with three parts in two bands: the lower band is shared by two units. -/
def glacier : Profile (Fin 3) (Fin 2) (Fin 2) ℚ where
  catchment := 1000000
  area := ![1/10, 2/10, 1/10]
  we := ![9000, 4500, 4500]
  band := ![0, 0, 1]
  unit := ![0, 1, 1]
  elev := ![1900, 2000]
  top := 2000
  bottom := 1900

theorem proper : Proper glacier where
  catchment := by decide +kernel
  area := by decide +kernel
  we := by decide +kernel
  bands := by decide +kernel

/-- Six increments, widths updated at the end only: the rows before the final scaling. -/
def bandWes (k : ℕ) : Option (ℚ × ℚ × ℚ) :=
  (rows (fun x => x) .atTheEnd (fun i => (glacier.norm i) ^ 2) glacier.total 6 glacier.start k).map
    fun r => (r.we 0, r.we 1, r.owed)

/-- The highest band stays as it is, the lower one melts; the fifth increment empties it and the sixth row cannot be
computed. -/
theorem melts : bandWes 1 = some (6000 - 1250, 4500, 0) ∧ bandWes 4 = some (1000, 4500, 0) ∧
    bandWes 5 = some (0, 4500, 75) ∧ bandWes 6 = none := by
  refine ⟨?_, ?_, ?_, ?_⟩ <;> decide +kernel

/-- A glacier of 30 km² in two bands: the highest band thickens when the glacier melts. -/
theorem c79_top_grows :
    ((melt (fun i => (⟨-2/100, 12/100, 0, 6⟩ : Coeffs ℚ).change (![1, 0] i)) 100
      (⟨![10000, 10000], ![1/10, 1/10], 0⟩ : Row (Fin 2) ℚ)).map fun r => decide (10000 < r.we 1)) = some true := by
  decide +kernel

end GlTableDemo

end HB.GlTable
