import Verif.Props.Shadow

/-! # C91: rays and the direction of the sun -/

set_option linter.unusedSectionVars false

namespace HB.Shadow

open HB.Spec.Shadow

noncomputable section

/-- The larger of sine and cosine of the azimuth, in size. -/
def big (az : ℝ) : ℝ := max |Real.sin (rad az)| |Real.cos (rad az)|

theorem big_cos {az : ℝ} (h : 0 ≤ Real.cos (2 * rad az)) : big az = |Real.cos (rad az)| := by
  unfold big
  rw [max_eq_right]
  rw [← sq_le_sq]
  have h1 := Real.cos_two_mul (rad az)
  have h2 := Real.sin_sq_add_cos_sq (rad az)
  linarith

theorem big_sin {az : ℝ} (h : Real.cos (2 * rad az) ≤ 0) : big az = |Real.sin (rad az)| := by
  unfold big
  rw [max_eq_left]
  rw [← sq_le_sq]
  have h1 := Real.cos_two_mul (rad az)
  have h2 := Real.sin_sq_add_cos_sq (rad az)
  linarith

theorem big_le (az : ℝ) : big az ≤ 1 := max_le (Real.abs_sin_le_one _) (Real.abs_cos_le_one _)

/-- The rays follow the direction of the sun. -/
def Follows (R : Rays ℝ) (az : ℝ) : Prop :=
  ∃ e k l : ℝ, (e = 1 ∨ e = -1) ∧ 0 < big az ∧ ∀ r c : ℕ,
    (R.ref r c : ℝ) + (R.base r c : ℝ) / Real.tan (R.deg * (Real.pi / 180)) = away az r c / big az + k ∧
    rawRay R (Real.tan (R.deg * (Real.pi / 180))) (r, c) = e * aside az r c / big az + l

theorem follows (n m : ℕ) (az : ℝ) (h1 : -180 ≤ az) (h2 : az ≤ 180) : Follows (rays n m az) az := by
  have hpi := Real.pi_pos
  have hlo : ∀ x : ℝ, x ≤ az → x * (Real.pi / 180) ≤ rad az := fun x hx => mul_le_mul_of_nonneg_right hx (by positivity)
  have hup : ∀ x : ℝ, az < x → rad az < x * (Real.pi / 180) := fun x hx => mul_lt_mul_of_pos_right hx (by positivity)
  have hup' : ∀ x : ℝ, az ≤ x → rad az ≤ x * (Real.pi / 180) := fun x hx => mul_le_mul_of_nonneg_right hx (by positivity)
  unfold rays
  unfold Follows rawRay away aside
  split_ifs with c1 c2 c3 c4 c5 c6 c7
  · -- north to north-east
    have a := hlo _ h1
    have b := hup _ c1
    have hc : Real.cos (rad az) < 0 := by
      rw [← Real.cos_neg]
      exact Real.cos_neg_of_pi_div_two_lt_of_lt (by linarith) (by linarith)
    have h2c : 0 ≤ Real.cos (2 * rad az) := by
      rw [← Real.cos_add_two_pi]
      exact Real.cos_nonneg_of_mem_Icc ⟨by linarith, by linarith⟩
    have hne := hc.ne
    have hM : big az = -Real.cos (rad az) := by rw [big_cos h2c, abs_of_neg hc]
    have ht : Real.tan (-(az + 90) * (Real.pi / 180)) = (-Real.cos (rad az)) / (-Real.sin (rad az)) := by
      rw [show -(az + 90) * (Real.pi / 180) = -(rad az + Real.pi / 2) by unfold rad; ring, Real.tan_eq_sin_div_cos, Real.sin_neg, Real.cos_neg, Real.sin_add_pi_div_two,
        Real.cos_add_pi_div_two]
    refine ⟨1, ((m : ℝ) - 1) * Real.sin (rad az) / Real.cos (rad az), (m : ℝ) - 1, Or.inl rfl, by rw [hM]; linarith, ?_⟩
    intro r c
    simp only [xv, yvRev]
    rw [ht, hM, div_div_eq_mul_div, div_div_eq_mul_div]
    push_cast
    constructor <;> field_simp <;> ring
  · -- east-north-east
    have a := hlo _ (not_lt.1 c1)
    have b := hup _ c2
    have hs : Real.sin (rad az) < 0 := Real.sin_neg_of_neg_of_neg_pi_lt (by linarith) (by linarith)
    have h2c : Real.cos (2 * rad az) ≤ 0 := by
      rw [← Real.cos_neg]
      exact Real.cos_nonpos_of_pi_div_two_le_of_le (by linarith) (by linarith)
    have hne := hs.ne
    have hM : big az = -Real.sin (rad az) := by rw [big_sin h2c, abs_of_neg hs]
    have ht : Real.tan ((az + 180) * (Real.pi / 180)) = (-Real.sin (rad az)) / (-Real.cos (rad az)) := by
      rw [show (az + 180) * (Real.pi / 180) = rad az + Real.pi by unfold rad; ring, Real.tan_eq_sin_div_cos, Real.sin_add_pi, Real.cos_add_pi]
    refine ⟨-1, (m : ℝ) - 1, -((m : ℝ) - 1) * Real.cos (rad az) / Real.sin (rad az), Or.inr rfl, by rw [hM]; linarith, ?_⟩
    intro r c
    simp only [xv, yvRev]
    rw [ht, hM, div_div_eq_mul_div, div_div_eq_mul_div]
    push_cast
    constructor <;> field_simp <;> ring
  · -- east-south-east
    have a := hlo _ (not_lt.1 c2)
    have b := hup _ c3
    have hs : Real.sin (rad az) < 0 := Real.sin_neg_of_neg_of_neg_pi_lt (by linarith) (by linarith)
    have h2c : Real.cos (2 * rad az) ≤ 0 := by
      rw [← Real.cos_neg]
      exact Real.cos_nonpos_of_pi_div_two_le_of_le (by linarith) (by linarith)
    have hne := hs.ne
    have hM : big az = -Real.sin (rad az) := by rw [big_sin h2c, abs_of_neg hs]
    have ht : Real.tan (-az * (Real.pi / 180)) = (-Real.sin (rad az)) / Real.cos (rad az) := by
      rw [show -az * (Real.pi / 180) = -rad az by unfold rad; ring, Real.tan_eq_sin_div_cos, Real.sin_neg, Real.cos_neg]
    refine ⟨1, (m : ℝ) - 1 - ((n : ℝ) - 1) * Real.cos (rad az) / Real.sin (rad az), (n : ℝ) - 1 + ((m : ℝ) - 1) * Real.cos (rad az) / Real.sin (rad az), Or.inl rfl,
      by rw [hM]; linarith, ?_⟩
    intro r c
    simp only [xvRev, yvRev]
    rw [ht, hM, div_div_eq_mul_div, div_div_eq_mul_div]
    push_cast
    constructor <;> field_simp <;> ring
  · -- south to south-east
    have a := hlo _ (not_lt.1 c3)
    have b := hup _ c4
    have hc : 0 < Real.cos (rad az) := Real.cos_pos_of_mem_Ioo ⟨by linarith, by linarith⟩
    have h2c : 0 ≤ Real.cos (2 * rad az) := Real.cos_nonneg_of_mem_Icc ⟨by linarith, by linarith⟩
    have hM : big az = Real.cos (rad az) := by rw [big_cos h2c, abs_of_pos hc]
    have ht : Real.tan ((90 + az) * (Real.pi / 180)) = Real.cos (rad az) / (-Real.sin (rad az)) := by
      rw [show (90 + az) * (Real.pi / 180) = rad az + Real.pi / 2 by unfold rad; ring, Real.tan_eq_sin_div_cos, Real.sin_add_pi_div_two, Real.cos_add_pi_div_two]
    refine ⟨-1, (n : ℝ) - 1 - ((m : ℝ) - 1) * Real.sin (rad az) / Real.cos (rad az), (m : ℝ) - 1 + ((n : ℝ) - 1) * Real.sin (rad az) / Real.cos (rad az), Or.inr rfl,
      by rw [hM]; linarith, ?_⟩
    intro r c
    simp only [xvRev, yvRev]
    rw [ht, hM, div_div_eq_mul_div, div_div_eq_mul_div]
    push_cast
    constructor <;> field_simp <;> ring
  · -- south to south-west
    have a := hlo _ (not_lt.1 c4)
    have b := hup _ c5
    have hc : 0 < Real.cos (rad az) := Real.cos_pos_of_mem_Ioo ⟨by linarith, by linarith⟩
    have h2c : 0 ≤ Real.cos (2 * rad az) := Real.cos_nonneg_of_mem_Icc ⟨by linarith, by linarith⟩
    have hM : big az = Real.cos (rad az) := by rw [big_cos h2c, abs_of_pos hc]
    have ht : Real.tan ((90 - az) * (Real.pi / 180)) = Real.cos (rad az) / Real.sin (rad az) := by
      rw [show (90 - az) * (Real.pi / 180) = Real.pi / 2 - rad az by unfold rad; ring, Real.tan_eq_sin_div_cos, Real.sin_pi_div_two_sub, Real.cos_pi_div_two_sub]
    refine ⟨1, (n : ℝ) - 1, -((n : ℝ) - 1) * Real.sin (rad az) / Real.cos (rad az), Or.inl rfl, by rw [hM]; linarith, ?_⟩
    intro r c
    simp only [xvRev, yv]
    rw [ht, hM, div_div_eq_mul_div, div_div_eq_mul_div]
    push_cast
    constructor <;> field_simp <;> ring
  · -- west-south-west
    have a := hlo _ (not_lt.1 c5)
    have b := hup _ c6
    have hs : 0 < Real.sin (rad az) := Real.sin_pos_of_pos_of_lt_pi (by linarith) (by linarith)
    have h2c : Real.cos (2 * rad az) ≤ 0 := Real.cos_nonpos_of_pi_div_two_le_of_le (by linarith) (by linarith)
    have hM : big az = Real.sin (rad az) := by rw [big_sin h2c, abs_of_pos hs]
    have ht : Real.tan (az * (Real.pi / 180)) = Real.sin (rad az) / Real.cos (rad az) := by
      rw [show az * (Real.pi / 180) = rad az by rfl, Real.tan_eq_sin_div_cos]
    refine ⟨-1, ((n : ℝ) - 1) * Real.cos (rad az) / Real.sin (rad az), (n : ℝ) - 1, Or.inr rfl, by rw [hM]; linarith, ?_⟩
    intro r c
    simp only [xvRev, yv]
    rw [ht, hM, div_div_eq_mul_div, div_div_eq_mul_div]
    push_cast
    constructor <;> field_simp <;> ring
  · -- west-north-west
    have a := hlo _ (not_lt.1 c6)
    have b := hup _ c7
    have hs : 0 < Real.sin (rad az) := Real.sin_pos_of_pos_of_lt_pi (by linarith) (by linarith)
    have h2c : Real.cos (2 * rad az) ≤ 0 := Real.cos_nonpos_of_pi_div_two_le_of_le (by linarith) (by linarith)
    have hM : big az = Real.sin (rad az) := by rw [big_sin h2c, abs_of_pos hs]
    have ht : Real.tan ((180 - az) * (Real.pi / 180)) = Real.sin (rad az) / (-Real.cos (rad az)) := by
      rw [show (180 - az) * (Real.pi / 180) = Real.pi - rad az by unfold rad; ring, Real.tan_eq_sin_div_cos, Real.sin_pi_sub, Real.cos_pi_sub]
    refine ⟨1, 0, 0, Or.inl rfl, by rw [hM]; linarith, ?_⟩
    intro r c
    simp only [xv, yv]
    rw [ht, hM, div_div_eq_mul_div, div_div_eq_mul_div]
    push_cast
    constructor <;> field_simp <;> ring
  · -- north to north-west
    have a := hlo _ (not_lt.1 c7)
    have b := hup' _ h2
    have hc : Real.cos (rad az) < 0 := Real.cos_neg_of_pi_div_two_lt_of_lt (by linarith) (by linarith)
    have h2c : 0 ≤ Real.cos (2 * rad az) := by
      rw [← Real.cos_sub_two_pi]
      exact Real.cos_nonneg_of_mem_Icc ⟨by linarith, by linarith⟩
    have hne := hc.ne
    have hM : big az = -Real.cos (rad az) := by rw [big_cos h2c, abs_of_neg hc]
    have ht : Real.tan ((az - 90) * (Real.pi / 180)) = (-Real.cos (rad az)) / Real.sin (rad az) := by
      rw [show (az - 90) * (Real.pi / 180) = rad az - Real.pi / 2 by unfold rad; ring, Real.tan_eq_sin_div_cos, Real.sin_sub_pi_div_two, Real.cos_sub_pi_div_two]
    refine ⟨-1, 0, 0, Or.inr rfl, by rw [hM]; linarith, ?_⟩
    intro r c
    simp only [xv, yv]
    rw [ht, hM, div_div_eq_mul_div, div_div_eq_mul_div]
    push_cast
    constructor <;> field_simp <;> ring

end

end HB.Shadow
