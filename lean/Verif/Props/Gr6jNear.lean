import Verif.Props.Gr4jNear

/-!
# C70: GR6J stays close to the published model
-/

set_option linter.unusedSectionVars false

namespace HB

open Spec.Gr Wire

noncomputable section

/-! ## The exponential store -/

theorem softplus_mono {X6 x y : ℝ} (h6 : 0 < X6) (h : x ≤ y) : Spec.softplus x X6 ≤ Spec.softplus y X6 := by
  unfold Spec.softplus
  apply mul_le_mul_of_nonneg_left _ h6.le
  apply Real.log_le_log (by positivity)
  have : Real.exp (x / X6) ≤ Real.exp (y / X6) := Real.exp_le_exp.2 (by gcongr)
  linarith

theorem softplus_kept {X6 x : ℝ} (h6 : 0 < X6) : x - Spec.softplus x X6 = -Spec.softplus (-x) X6 := by
  unfold Spec.softplus
  have h : Real.log (1 + Real.exp (x / X6)) = x / X6 + Real.log (1 + Real.exp (-x / X6)) := by
    have e : 1 + Real.exp (x / X6) = Real.exp (x / X6) * (1 + Real.exp (-x / X6)) := by
      rw [mul_add, mul_one, ← Real.exp_add, neg_div, add_neg_cancel, Real.exp_zero]
      ring
    rw [e, Real.log_mul (Real.exp_pos _).ne' (by positivity), Real.log_exp]
  rw [h]
  field_simp
  ring

theorem softplus_kept_mono {X6 x y : ℝ} (h6 : 0 < X6) (h : x ≤ y) : x - Spec.softplus x X6 ≤ y - Spec.softplus y X6 := by
  rw [softplus_kept h6, softplus_kept h6]
  exact neg_le_neg (softplus_mono h6 (by linarith))

/-- The outflow of the exponential store and what it keeps. -/
theorem softplus_split {X6 : ℝ} (h6 : 0 < X6) (x y : ℝ) :
    |(x - Spec.softplus x X6) - (y - Spec.softplus y X6)| ≤ |x - y| ∧ |Spec.softplus x X6 - Spec.softplus y X6| ≤ |x - y| := by
  have e : |(x - Spec.softplus x X6) - (y - Spec.softplus y X6)| + |Spec.softplus x X6 - Spec.softplus y X6| = |x - y| := by
    rw [split_abs]
    · ring_nf
    · rcases _root_.le_total x y with h | h
      · exact .inl ⟨softplus_kept_mono h6 h, softplus_mono h6 h⟩
      · exact .inr ⟨softplus_kept_mono h6 h, softplus_mono h6 h⟩
  constructor <;> linarith [abs_nonneg ((x - Spec.softplus x X6) - (y - Spec.softplus y X6)), abs_nonneg (Spec.softplus x X6 - Spec.softplus y X6)]

/-! ## The routing -/

section
variable {X1 X2 X3 X4 X5 X6 S0 : ℝ} {P E : ℕ → ℝ}

/-- Growth of a difference in the routing store. -/
def growth6 (X2 X3 : ℝ) : ℝ := 1 + max 0 X2 / X3

theorem growth6_one (h3 : 0 < X3) : 1 ≤ growth6 X2 X3 := by
  have : 0 ≤ max 0 X2 / X3 := div_nonneg (le_max_left _ _) h3.le
  unfold growth6
  linarith

theorem exchange6_lip (h3 : 0 < X3) (lo : -(2 * X3) ≤ X2) (R R' : ℝ) :
    |(R + Doc.exchangeGR6J X2 R X3 X5) - (R' + Doc.exchangeGR6J X2 R' X3 X5)| ≤ growth6 X2 X3 * |R - R'| ∧
    |Doc.exchangeGR6J X2 R X3 X5 - Doc.exchangeGR6J X2 R' X3 X5| = |X2| / X3 * |R - R'| := by
  have e1 : (R + Doc.exchangeGR6J X2 R X3 X5) - (R' + Doc.exchangeGR6J X2 R' X3 X5) = (1 + X2 / X3) * (R - R') := by
    unfold Doc.exchangeGR6J; field_simp; ring
  have e2 : Doc.exchangeGR6J X2 R X3 X5 - Doc.exchangeGR6J X2 R' X3 X5 = X2 / X3 * (R - R') := by
    unfold Doc.exchangeGR6J; field_simp; ring
  constructor
  · rw [e1, abs_mul]
    apply mul_le_mul_of_nonneg_right _ (abs_nonneg _)
    unfold growth6
    have h1 : X2 / X3 ≤ max 0 X2 / X3 := by gcongr; exact le_max_right _ _
    have h2 : 0 ≤ max 0 X2 / X3 := div_nonneg (le_max_left _ _) h3.le
    have h4 : -2 ≤ X2 / X3 := by rw [le_div_iff₀ h3]; linarith
    rw [abs_le]
    constructor <;> linarith
  · rw [e2, abs_mul, abs_div, abs_of_pos h3]

theorem max0_lip (a b : ℝ) : |max 0 a - max 0 b| ≤ |a - b| := by
  refine le_trans (abs_max_sub_max_le_max _ _ _ _) ?_
  rw [sub_self, abs_zero]
  exact max_le (abs_nonneg _) (le_refl _)

/-- The difference of the unit hydrograph outputs on a day. -/
def gap (X4 : ℝ) (f g : ℕ → ℝ) (s : ℕ) : ℝ := |Doc.routed (Doc.sCurve1 X4) (fun s => 0.9 * f s) s - Doc.routed (Doc.sCurve1 X4) (fun s => 0.9 * g s) s|

/-- Their total before a day. -/
def gaps (X4 : ℝ) (f g : ℕ → ℝ) (t : ℕ) : ℝ := ∑ s ∈ Finset.range t, gap X4 f g s

theorem gap_nonneg (X4 : ℝ) (f g : ℕ → ℝ) (s : ℕ) : 0 ≤ gap X4 f g s := abs_nonneg _

theorem gaps_nonneg (X4 : ℝ) (f g : ℕ → ℝ) (t : ℕ) : 0 ≤ gaps X4 f g t := Finset.sum_nonneg fun _ _ => abs_nonneg _

theorem gaps_succ (X4 : ℝ) (f g : ℕ → ℝ) (t : ℕ) : gaps X4 f g (t + 1) = gaps X4 f g t + gap X4 f g t := Finset.sum_range_succ _ _

/-- A day of the power store. -/
theorem power_day (h3 : 0 < X3) (lo : -(2 * X3) ≤ X2) (f g : ℕ → ℝ) (t : ℕ) :
    let x := max 0 (Doc.storeGR6J X2 X3 X4 X5 f t + 0.6 * Doc.routed (Doc.sCurve1 X4) (fun s => 0.9 * f s) t +
      Doc.exchangeGR6J X2 (Doc.storeGR6J X2 X3 X4 X5 f t) X3 X5)
    let y := max 0 (Doc.storeGR6J X2 X3 X4 X5 g t + 0.6 * Doc.routed (Doc.sCurve1 X4) (fun s => 0.9 * g s) t +
      Doc.exchangeGR6J X2 (Doc.storeGR6J X2 X3 X4 X5 g t) X3 X5)
    |Doc.storeGR6J X2 X3 X4 X5 f (t + 1) - Doc.storeGR6J X2 X3 X4 X5 g (t + 1)| + |Doc.release x X3 - Doc.release y X3| ≤
      growth6 X2 X3 * |Doc.storeGR6J X2 X3 X4 X5 f t - Doc.storeGR6J X2 X3 X4 X5 g t| + 0.6 * gap X4 f g t := by
  intro x y
  change |(x - Doc.release x X3) - (y - Doc.release y X3)| + _ ≤ _
  rw [release_split h3 (le_max_left 0 _) (le_max_left 0 _)]
  refine le_trans (max0_lip _ _) ?_
  have h1 := (exchange6_lip (X5 := X5) h3 lo (Doc.storeGR6J X2 X3 X4 X5 f t) (Doc.storeGR6J X2 X3 X4 X5 g t)).1
  unfold gap
  set R := Doc.storeGR6J X2 X3 X4 X5 f t
  set R' := Doc.storeGR6J X2 X3 X4 X5 g t
  set F := Doc.exchangeGR6J X2 R X3 X5
  set F' := Doc.exchangeGR6J X2 R' X3 X5
  set q := Doc.routed (Doc.sCurve1 X4) (fun s => 0.9 * f s) t
  set q' := Doc.routed (Doc.sCurve1 X4) (fun s => 0.9 * g s) t
  have e : (R + 0.6 * q + F) - (R' + 0.6 * q' + F') = ((R + F) - (R' + F')) + 0.6 * (q - q') := by ring
  rw [e]
  have h2 := abs_add_le ((R + F) - (R' + F')) (0.6 * (q - q'))
  rw [abs_mul, abs_of_nonneg (by norm_num : (0 : ℝ) ≤ 0.6)] at h2
  linarith

theorem power_near (h3 : 0 < X3) (lo : -(2 * X3) ≤ X2) (f g : ℕ → ℝ) (t : ℕ) :
    |Doc.storeGR6J X2 X3 X4 X5 f t - Doc.storeGR6J X2 X3 X4 X5 g t| ≤ 0.6 * (growth6 X2 X3 ^ t * gaps X4 f g t) := by
  have hG := growth6_one (X2 := X2) h3
  induction t with
  | zero =>
    change |(0 : ℝ) - 0| ≤ _
    simp [gaps]
  | succ t ih =>
    have hd := power_day (X4 := X4) (X5 := X5) h3 lo f g t
    dsimp only at hd
    have st : growth6 X2 X3 * |Doc.storeGR6J X2 X3 X4 X5 f t - Doc.storeGR6J X2 X3 X4 X5 g t| ≤
      growth6 X2 X3 * (0.6 * (growth6 X2 X3 ^ t * gaps X4 f g t)) := mul_le_mul_of_nonneg_left ih (by linarith)
    have gq : gap X4 f g t ≤ growth6 X2 X3 ^ (t + 1) * gap X4 f g t := le_mul_of_one_le_left (gap_nonneg _ _ _ _) (one_le_pow₀ hG)
    rw [gaps_succ]
    have e2 : 0.6 * (growth6 X2 X3 ^ (t + 1) * (gaps X4 f g t + gap X4 f g t)) =
      growth6 X2 X3 * (0.6 * (growth6 X2 X3 ^ t * gaps X4 f g t)) + 0.6 * (growth6 X2 X3 ^ (t + 1) * gap X4 f g t) := by ring
    rw [e2]
    have := abs_nonneg (Doc.release (max 0 (Doc.storeGR6J X2 X3 X4 X5 f t + 0.6 * Doc.routed (Doc.sCurve1 X4) (fun s => 0.9 * f s) t +
      Doc.exchangeGR6J X2 (Doc.storeGR6J X2 X3 X4 X5 f t) X3 X5)) X3 - Doc.release (max 0 (Doc.storeGR6J X2 X3 X4 X5 g t + 0.6 * Doc.routed (Doc.sCurve1 X4) (fun s => 0.9 * g s) t +
      Doc.exchangeGR6J X2 (Doc.storeGR6J X2 X3 X4 X5 g t) X3 X5)) X3)
    linarith

/-- A day of the exponential store, for two outflow functions close to each other. -/
theorem exp_day (h3 : 0 < X3) (lo : -(2 * X3) ≤ X2) (h6 : 0 < X6) {q : ℝ → ℝ} {μ : ℝ} (hq : ∀ R, |q R - Spec.softplus R X6| ≤ μ) (f g : ℕ → ℝ) (t : ℕ) :
    let x := Doc.expStoreGR6J q X2 X3 X4 X5 f t + 0.4 * Doc.routed (Doc.sCurve1 X4) (fun s => 0.9 * f s) t +
      Doc.exchangeGR6J X2 (Doc.storeGR6J X2 X3 X4 X5 f t) X3 X5
    let y := Doc.expStoreGR6J (Spec.softplus · X6) X2 X3 X4 X5 g t + 0.4 * Doc.routed (Doc.sCurve1 X4) (fun s => 0.9 * g s) t +
      Doc.exchangeGR6J X2 (Doc.storeGR6J X2 X3 X4 X5 g t) X3 X5
    let d := |Doc.expStoreGR6J q X2 X3 X4 X5 f t - Doc.expStoreGR6J (Spec.softplus · X6) X2 X3 X4 X5 g t| + 0.4 * gap X4 f g t +
      |X2| / X3 * |Doc.storeGR6J X2 X3 X4 X5 f t - Doc.storeGR6J X2 X3 X4 X5 g t| + μ
    |Doc.expStoreGR6J q X2 X3 X4 X5 f (t + 1) - Doc.expStoreGR6J (Spec.softplus · X6) X2 X3 X4 X5 g (t + 1)| ≤ d ∧
    |q x - Spec.softplus y X6| ≤ d := by
  intro x y d
  change |(x - q x) - (y - Spec.softplus y X6)| ≤ d ∧ _
  have h1 := (exchange6_lip (X5 := X5) h3 lo (Doc.storeGR6J X2 X3 X4 X5 f t) (Doc.storeGR6J X2 X3 X4 X5 g t)).2
  have hxy : |x - y| + μ ≤ d := by
    simp only [x, y, d, gap]
    rw [← h1]
    set A := Doc.expStoreGR6J q X2 X3 X4 X5 f t
    set A' := Doc.expStoreGR6J (Spec.softplus · X6) X2 X3 X4 X5 g t
    set F := Doc.exchangeGR6J X2 (Doc.storeGR6J X2 X3 X4 X5 f t) X3 X5
    set F' := Doc.exchangeGR6J X2 (Doc.storeGR6J X2 X3 X4 X5 g t) X3 X5
    set u := Doc.routed (Doc.sCurve1 X4) (fun s => 0.9 * f s) t
    set u' := Doc.routed (Doc.sCurve1 X4) (fun s => 0.9 * g s) t
    have e : (A + 0.4 * u + F) - (A' + 0.4 * u' + F') = (A - A') + 0.4 * (u - u') + (F - F') := by ring
    rw [e]
    have h2 := abs_add_le ((A - A') + 0.4 * (u - u')) (F - F')
    have h5 := abs_add_le (A - A') (0.4 * (u - u'))
    rw [abs_mul, abs_of_nonneg (by norm_num : (0 : ℝ) ≤ 0.4)] at h5
    linarith
  obtain ⟨s1, s2⟩ := softplus_split h6 x y
  have hx := hq x
  constructor
  · have e : (x - q x) - (y - Spec.softplus y X6) = ((x - Spec.softplus x X6) - (y - Spec.softplus y X6)) + (Spec.softplus x X6 - q x) := by ring
    rw [e]
    have := abs_add_le ((x - Spec.softplus x X6) - (y - Spec.softplus y X6)) (Spec.softplus x X6 - q x)
    rw [abs_sub_comm (Spec.softplus x X6) (q x)] at this
    linarith
  · have := abs_sub_le (q x) (Spec.softplus x X6) (Spec.softplus y X6)
    linarith

theorem exp_near (h3 : 0 < X3) (lo : -(2 * X3) ≤ X2) (h6 : 0 < X6) {q : ℝ → ℝ} {μ : ℝ} (hq : ∀ R, |q R - Spec.softplus R X6| ≤ μ) (f g : ℕ → ℝ) (t : ℕ) :
    |Doc.expStoreGR6J q X2 X3 X4 X5 f t - Doc.expStoreGR6J (Spec.softplus · X6) X2 X3 X4 X5 g t| ≤
      0.4 * gaps X4 f g t + |X2| / X3 * (t * (0.6 * (growth6 X2 X3 ^ t * gaps X4 f g t))) + t * μ := by
  have hG := growth6_one (X2 := X2) h3
  induction t with
  | zero =>
    change |(0 : ℝ) - 0| ≤ _
    simp [gaps]
  | succ t ih =>
    have hd := (exp_day (X4 := X4) (X5 := X5) h3 lo h6 hq f g t).1
    refine le_trans hd ?_
    have hp := power_near (X4 := X4) (X5 := X5) h3 lo f g t
    have k0 : 0 ≤ |X2| / X3 := div_nonneg (abs_nonneg _) h3.le
    have g0 := gap_nonneg X4 f g t
    have w0 := gaps_nonneg X4 f g t
    have mono : growth6 X2 X3 ^ t * gaps X4 f g t ≤ growth6 X2 X3 ^ (t + 1) * gaps X4 f g (t + 1) := by
      rw [gaps_succ]
      have : growth6 X2 X3 ^ t ≤ growth6 X2 X3 ^ (t + 1) := pow_le_pow_right₀ hG (Nat.le_succ t)
      exact mul_le_mul this (by linarith) w0 (by positivity)
    have h1 : |X2| / X3 * |Doc.storeGR6J X2 X3 X4 X5 f t - Doc.storeGR6J X2 X3 X4 X5 g t| ≤
      |X2| / X3 * (0.6 * (growth6 X2 X3 ^ (t + 1) * gaps X4 f g (t + 1))) := mul_le_mul_of_nonneg_left (by linarith) k0
    have h2 : |X2| / X3 * (t * (0.6 * (growth6 X2 X3 ^ t * gaps X4 f g t))) ≤ |X2| / X3 * (t * (0.6 * (growth6 X2 X3 ^ (t + 1) * gaps X4 f g (t + 1)))) :=
      mul_le_mul_of_nonneg_left (mul_le_mul_of_nonneg_left (by linarith) (Nat.cast_nonneg t)) k0
    have e : |X2| / X3 * ((t + 1 : ℕ) * (0.6 * (growth6 X2 X3 ^ (t + 1) * gaps X4 f g (t + 1)))) =
      |X2| / X3 * (t * (0.6 * (growth6 X2 X3 ^ (t + 1) * gaps X4 f g (t + 1)))) + |X2| / X3 * (0.6 * (growth6 X2 X3 ^ (t + 1) * gaps X4 f g (t + 1))) := by
      push_cast; ring
    rw [e]
    have e3 : ((t + 1 : ℕ) : ℝ) * μ = t * μ + μ := by push_cast; ring
    have e4 := gaps_succ X4 f g t
    linarith

/-- The unit hydrographs do not add to the differences. -/
theorem gaps_le (h4 : 0 < X4) (f g : ℕ → ℝ) (t : ℕ) : gaps X4 f g t ≤ 0.9 * ∑ s ∈ Finset.range t, |f s - g s| := by
  have u1 := uhOut_lip (c26_partition X4 1).1 (fun s => 0.9 * f s) (fun s => 0.9 * g s) t
  have e : ∑ s ∈ Finset.range t, |0.9 * f s - 0.9 * g s| = 0.9 * ∑ s ∈ Finset.range t, |f s - g s| := by
    rw [Finset.mul_sum]
    refine Finset.sum_congr rfl fun s _ => ?_
    rw [← mul_sub, abs_mul, abs_of_nonneg (by norm_num)]
  rw [e] at u1
  unfold gaps gap
  simp only [← uh1_doc h4]
  exact u1

theorem direct_le (h4 : 0 < X4) (f g : ℕ → ℝ) (t : ℕ) :
    |Doc.routed (Doc.sCurve2 X4) (fun s => 0.1 * f s) t - Doc.routed (Doc.sCurve2 X4) (fun s => 0.1 * g s) t| ≤
      0.1 * ∑ s ∈ Finset.range (t + 1), |f s - g s| := by
  have u2 := uhOut_lip (c26_partition X4 1).2.1 (fun s => 0.1 * f s) (fun s => 0.1 * g s) (t + 1)
  have e : ∑ s ∈ Finset.range (t + 1), |0.1 * f s - 0.1 * g s| = 0.1 * ∑ s ∈ Finset.range (t + 1), |f s - g s| := by
    rw [Finset.mul_sum]
    refine Finset.sum_congr rfl fun s _ => ?_
    rw [← mul_sub, abs_mul, abs_of_nonneg (by norm_num)]
  rw [e] at u2
  rw [← uh2_doc h4, ← uh2_doc h4]
  refine le_trans ?_ u2
  rw [Finset.sum_range_succ]
  have : 0 ≤ ∑ s ∈ Finset.range t, |uhOut (uh2 X4) (fun s => 0.1 * f s) s - uhOut (uh2 X4) (fun s => 0.1 * g s) s| :=
    Finset.sum_nonneg fun _ _ => abs_nonneg _
  linarith

theorem discharge6_near (h3 : 0 < X3) (h4 : 0 < X4) (lo : -(2 * X3) ≤ X2) (h6 : 0 < X6) {q : ℝ → ℝ} {μ : ℝ}
    (hq : ∀ R, |q R - Spec.softplus R X6| ≤ μ) (f g : ℕ → ℝ) (t : ℕ) :
    |Doc.dischargeGR6J q X2 X3 X4 X5 f t - Doc.dischargeGR6J (Spec.softplus · X6) X2 X3 X4 X5 g t| ≤
      growth6 X2 X3 ^ (t + 1) * (1 + 108 / 100 * (|X2| / X3) * (t + 1)) * (∑ s ∈ Finset.range (t + 1), |f s - g s|) + (t + 1) * μ := by
  have hG := growth6_one (X2 := X2) h3
  have p1 := power_day (X4 := X4) (X5 := X5) h3 lo f g t
  have p2 := power_near (X4 := X4) (X5 := X5) h3 lo f g t
  have e1 := (exp_day (X4 := X4) (X5 := X5) h3 lo h6 hq f g t).2
  have e2 := exp_near (X4 := X4) (X5 := X5) h3 lo h6 hq f g t
  have u1 := gaps_le h4 f g (t + 1)
  have u2 := direct_le h4 f g t
  have x1 := (exchange6_lip (X5 := X5) h3 lo (Doc.storeGR6J X2 X3 X4 X5 f t) (Doc.storeGR6J X2 X3 X4 X5 g t)).2
  have k0 : 0 ≤ |X2| / X3 := div_nonneg (abs_nonneg _) h3.le
  have w0 := gaps_nonneg X4 f g t
  have g0 := gap_nonneg X4 f g t
  have hsu := gaps_succ X4 f g t
  dsimp only at p1 e1
  unfold Doc.dischargeGR6J
  dsimp only
  refine le_trans (max0_lip _ _) ?_
  set D := ∑ s ∈ Finset.range (t + 1), |f s - g s|
  set R := Doc.storeGR6J X2 X3 X4 X5 f t
  set R' := Doc.storeGR6J X2 X3 X4 X5 g t
  set F := Doc.exchangeGR6J X2 R X3 X5
  set F' := Doc.exchangeGR6J X2 R' X3 X5
  set u := Doc.routed (Doc.sCurve1 X4) (fun s => 0.9 * f s) t
  set u' := Doc.routed (Doc.sCurve1 X4) (fun s => 0.9 * g s) t
  set v := Doc.routed (Doc.sCurve2 X4) (fun s => 0.1 * f s) t
  set v' := Doc.routed (Doc.sCurve2 X4) (fun s => 0.1 * g s) t
  set A := Doc.expStoreGR6J q X2 X3 X4 X5 f t
  set A' := Doc.expStoreGR6J (Spec.softplus · X6) X2 X3 X4 X5 g t
  set a := Doc.release (max 0 (R + 0.6 * u + F)) X3
  set a' := Doc.release (max 0 (R' + 0.6 * u' + F')) X3
  set b := q (A + 0.4 * u + F)
  set b' := Spec.softplus (A' + 0.4 * u' + F') X6
  have hm := max0_lip (v + F) (v' + F')
  have hvF : |(v + F) - (v' + F')| ≤ |v - v'| + |F - F'| := by
    have : (v + F) - (v' + F') = (v - v') + (F - F') := by ring
    rw [this]
    exact abs_add_le _ _
  have tri : |(a + b + max 0 (v + F)) - (a' + b' + max 0 (v' + F'))| ≤ |a - a'| + |b - b'| + |max 0 (v + F) - max 0 (v' + F')| := by
    have : (a + b + max 0 (v + F)) - (a' + b' + max 0 (v' + F')) = (a - a') + (b - b') + (max 0 (v + F) - max 0 (v' + F')) := by ring
    rw [this]
    exact le_trans (abs_add_le _ _) (by linarith [abs_add_le (a - a') (b - b')])
  refine le_trans tri ?_
  set δ := |R - R'|
  set W := gaps X4 f g (t + 1)
  set w := gaps X4 f g t
  set k := |X2| / X3
  set G := growth6 X2 X3
  have ab0 := abs_nonneg (Doc.storeGR6J X2 X3 X4 X5 f (t + 1) - Doc.storeGR6J X2 X3 X4 X5 g (t + 1))
  -- everything in terms of W
  have hGt : 1 ≤ G ^ t := one_le_pow₀ hG
  have hGs : G ^ t ≤ G ^ (t + 1) := pow_le_pow_right₀ hG (Nat.le_succ t)
  set H := G ^ (t + 1)
  have hH : 1 ≤ H := le_trans hGt hGs
  have hw : G ^ t * w ≤ H * W := mul_le_mul hGs (by linarith) w0 (by linarith)
  have d1 : G * δ + 0.6 * gap X4 f g t ≤ 0.6 * (H * W) := by
    have : G * δ ≤ G * (0.6 * (G ^ t * w)) := mul_le_mul_of_nonneg_left p2 (by linarith)
    have e : G * (0.6 * (G ^ t * w)) = 0.6 * (H * w) := by simp only [H]; ring
    have h2 : gap X4 f g t ≤ H * gap X4 f g t := le_mul_of_one_le_left g0 hH
    have h3 : H * W = H * w + H * gap X4 f g t := by rw [hsu]; ring
    linarith
  have d2 : k * δ ≤ k * (0.6 * (H * W)) := mul_le_mul_of_nonneg_left (by linarith) k0
  have d3 : k * (t * (0.6 * (G ^ t * w))) ≤ k * (t * (0.6 * (H * W))) :=
    mul_le_mul_of_nonneg_left (mul_le_mul_of_nonneg_left (by linarith) (Nat.cast_nonneg t)) k0
  have d4 : W ≤ H * W := le_mul_of_one_le_left (by linarith) hH
  have d5 : H * W ≤ H * (0.9 * D) := mul_le_mul_of_nonneg_left u1 (by linarith)
  have hD0 : 0 ≤ D := Finset.sum_nonneg fun _ _ => abs_nonneg _
  have d6 : D ≤ H * D := le_mul_of_one_le_left hD0 hH
  have d7 : k * (t + 2) * (H * W) ≤ k * (t + 2) * (H * (0.9 * D)) := mul_le_mul_of_nonneg_left d5 (by positivity)
  have tot : |a - a'| + |b - b'| + |max 0 (v + F) - max 0 (v' + F')| ≤ H * W + 0.6 * (k * (t + 2) * (H * W)) + 0.1 * D + (t + 1) * μ := by
    rw [x1] at hvF
    nlinarith
  refine le_trans tot ?_
  have fin : H * (1 + 108 / 100 * k * (t + 1)) * D = 0.9 * (H * D) + 0.1 * (H * D) + 0.54 * (k * (t + 2) * (H * D)) + 0.54 * (k * t * (H * D)) := by ring
  have hkt : 0 ≤ k * t * (H * D) := by positivity
  rw [fin]
  have : k * (t + 2) * (H * (0.9 * D)) = 0.9 * (k * (t + 2) * (H * D)) := by ring
  linarith

/-- **C70 (distance, GR6J).** -/
theorem run_near6 (h : FairGR6J X1 X2 X3 X4 X5 X6 S0 P E) (lo : -(2 * X3) ≤ X2) {q : ℝ → ℝ}
    (hq : ∀ R, |q R - Spec.softplus R X6| ≤ X6 * (1 / 1000000)) (hpos : ∀ PR t, 0 ≤ Doc.dischargeGR6J q X2 X3 X4 X5 PR t) (t : ℕ) :
    |runGR6J q X1 X2 X3 X4 X5 S0 P E t - bookGR6J (Spec.softplus · X6) X1 X2 X3 X4 X5 S0 P E t| ≤
      6 * (t + 1) * (1 + |X2| / X3 * (t + 1)) * (1 + max 0 X2 / X3) ^ (t + 1) / 10 ^ 8 + (t + 1) * X6 / 10 ^ 6 := by
  have h3 := h.routing
  have hf := h.toFair
  have hG := growth6_one (X2 := X2) h3
  have he := eps_pos
  have h2 := discharge6_near (X5 := X5) h3 h.base lo h.exp hq (runPR X1 S0 P E) (bookPR X1 S0 P E) t
  have h5 := production_near hf (t + 1)
  have k0 : 0 ≤ |X2| / X3 := div_nonneg (abs_nonneg _) h3.le
  unfold runGR6J bookGR6J
  obtain ⟨k1, k2, -⟩ := keep_near (hpos (runPR X1 S0 P E) t)
  set a := Doc.dischargeGR6J q X2 X3 X4 X5 (runPR X1 S0 P E) t
  set b := Doc.dischargeGR6J (Spec.softplus · X6) X2 X3 X4 X5 (bookPR X1 S0 P E) t
  set D := ∑ s ∈ Finset.range (t + 1), |runPR X1 S0 P E s - bookPR X1 S0 P E s|
  have eg : growth6 X2 X3 = 1 + max 0 X2 / X3 := rfl
  rw [← eg]
  set H := growth6 X2 X3 ^ (t + 1) with hHd
  set k := |X2| / X3
  have hH : 1 ≤ H := one_le_pow₀ hG
  have hD : D ≤ 5 * eps * (t + 1 : ℕ) := by
    have := abs_nonneg (level X1 S0 P E (t + 1) - bookLevel X1 S0 P E (t + 1))
    linarith
  push_cast at hD
  have t0 : (0 : ℝ) ≤ t := Nat.cast_nonneg t
  have tri : |keep a - b| ≤ eps + |a - b| := by
    have h1 := abs_sub_le (keep a) a b
    have h2 : |keep a - a| ≤ eps := by rw [abs_sub_comm, abs_of_nonneg k1]; exact k2
    linarith
  refine le_trans tri ?_
  have m1 : H * (1 + 108 / 100 * k * (t + 1)) * D ≤ H * (1 + 108 / 100 * k * (t + 1)) * (5 * eps * (t + 1)) :=
    mul_le_mul_of_nonneg_left hD (by positivity)
  have fin : 6 * ((t : ℝ) + 1) * (1 + k * (t + 1)) * H / 10 ^ 8 = 6 * (t + 1) * (1 + k * (t + 1)) * H * eps := by unfold eps; ring
  rw [fin]
  have m2 : eps ≤ (t + 1) * H * eps := by
    have : (1 : ℝ) ≤ (t + 1) * H := by nlinarith
    exact le_mul_of_one_le_left he.le this
  have m3 : 0 ≤ H * k * (t + 1) * (eps * (t + 1)) := by positivity
  have e3 : (t + 1) * (X6 * (1 / 1000000)) = (t + 1) * X6 / 10 ^ 6 := by ring
  rw [e3] at h2
  nlinarith

end

/-- **C70 (distance to the published GR6J).**  The discrete GR6J without snow and with one land cover, for any number of units, any
solver and any weather: on day `t` the discharge is within `6·(t+1)·(1 + (t+1)·|X2|/X3)·gᵗ⁺¹·10⁻⁸ + (t+1)·X6·10⁻⁶` mm of the mean over
the area of the published GR6J, with `g = 1 + max(0, X2)/X3`.  The second part comes from the branches of the outflow of the
exponential store. -/
theorem c70_gr6j_close {o : GrOpts} (hd : o.discrete = true) (hm : o.melt = none) (h6 : o.six = true) {c : PyCover} (hk : c.kind ≠ "glacier")
    (hc : Spec.GoodCovers [c]) (ho : Spec.GoodGr o) {inp : Input ℝ} (hf : Spec.FromModel (gr o [c]) inp) (ha : ∀ un ∈ inp.units, 0 ≤ un.area)
    (hne : inp.units ≠ []) {X1 X2 X3 X4 X5 X6 S0 : ℝ} {weather : ℕ → ℕ → Weather} {E : ℕ → ℕ → ℝ} (lo : -(2 * X3) ≤ X2)
    (hw : ∀ u < inp.units.length, Spec.Gr.FairGR6J X1 X2 X3 X4 X5 X6 S0 (fun t => (weather u t).P * (weather u t).rcf) (E u)) :
    ∃ m, build inp = .ok m ∧ ∀ (ext : ℕ → ℕ → ℝ), (∀ u < inp.units.length, ext u 0 = 1) →
      ∀ (sch : Scheme ℝ (GrHid GR6JSt)) (n : ℕ) (s : Sys ℝ (GrHid GR6JSt)), Spec.Gr.Fresh true inp X1 S0 (emptyGR6J X4) s →
      ∃ recs s', runSteps (Asm.asm inp m ext) (grLaws inp m ext "routing:gr6j" (routerGR6J ⟨X2, X3, X5, X6, uh1 X4, uh2 X4⟩) weather E) sch 1 grTick n s = .ok (recs, s') ∧
        recs.length = n ∧ ∀ (t : ℕ) (Q : ℝ), (recs.map (outletDischarge (Asm.asm inp m ext)))[t]? = some Q →
          |Q - Spec.Gr.overBasin inp (fun u t => Spec.Gr.bookGR6J (fun R => X6 * Real.log (1 + Real.exp (R / X6))) X1 X2 X3 X4 X5 S0
              (fun t => (weather u t).P * (weather u t).rcf) (E u) t) t| ≤
            6 * (t + 1) * (1 + |X2| / X3 * (t + 1)) * (1 + max 0 X2 / X3) ^ (t + 1) / 10 ^ 8 + (t + 1) * X6 / 10 ^ 6 := by
  obtain ⟨m, q, hb, hq, h⟩ := c70_gr6j hd hm h6 hk hc ho hf ha hw
  refine ⟨m, hb, fun ext hext sch n s hfresh => ?_⟩
  obtain ⟨recs, s', hr, hd⟩ := h ext hext sch n s hfresh
  refine ⟨recs, s', hr, ?_, fun t Q hQ => ?_⟩
  · have := congrArg List.length hd
    simpa using this
  · rw [hd] at hQ
    have ht : t < n := by
      have := (List.getElem?_eq_some_iff.1 hQ).1
      simpa using this
    rw [List.getElem?_map, List.getElem?_range ht] at hQ
    simp only [Option.map_some, Option.some.injEq] at hQ
    rw [← hQ]
    have h0 := hw 0 (List.length_pos_of_ne_nil hne)
    have h3 := h0.routing
    have h6 := h0.exp
    have : 0 ≤ max 0 X2 / X3 := div_nonneg (le_max_left _ _) h3.le
    exact overBasin_near ha (by positivity) fun u hu => run_near6 (hw u hu) lo (hq h6) (fun PR t => le_max_left _ _) t

end

end HB
