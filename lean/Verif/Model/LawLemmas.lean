import Verif.Model.Laws
import Mathlib.Analysis.Calculus.Deriv.MeanValue

/-! # Lemmas about the process laws -/

namespace HB

theorem tanh_nonneg {x : ℝ} (hx : 0 ≤ x) : 0 ≤ Real.tanh x := by
  rw [Real.tanh_eq_sinh_div_cosh]
  exact div_nonneg (Real.sinh_nonneg_iff.2 hx) (Real.cosh_pos x).le

theorem sinh_le_mul_cosh {x : ℝ} (hx : 0 ≤ x) : Real.sinh x ≤ x * Real.cosh x := by
  have hd : ∀ y : ℝ, HasDerivAt (fun y => y * Real.cosh y - Real.sinh y) (y * Real.sinh y) y := by
    intro y
    have h := ((hasDerivAt_id y).mul (Real.hasDerivAt_cosh y)).sub (Real.hasDerivAt_sinh y)
    refine h.congr_deriv ?_
    simp
  have hm : MonotoneOn (fun y => y * Real.cosh y - Real.sinh y) (Set.Ici 0) := by
    apply monotoneOn_of_deriv_nonneg (convex_Ici 0)
    · exact fun y _ => (hd y).continuousAt.continuousWithinAt
    · exact fun y _ => (hd y).differentiableAt.differentiableWithinAt
    · intro y hy
      rw [(hd y).deriv]
      have hy0 : 0 ≤ y := interior_subset hy
      exact mul_nonneg hy0 (Real.sinh_nonneg_iff.2 hy0)
  have := hm (Set.mem_Ici.2 le_rfl) (Set.mem_Ici.2 hx) hx
  simp at this
  linarith

theorem tanh_le_self {x : ℝ} (hx : 0 ≤ x) : Real.tanh x ≤ x := by
  rw [Real.tanh_eq_sinh_div_cosh, div_le_iff₀ (Real.cosh_pos x)]
  exact sinh_le_mul_cosh hx

theorem tanh_mono {x y : ℝ} (h : x ≤ y) : Real.tanh x ≤ Real.tanh y := by
  rw [Real.tanh_eq_sinh_div_cosh, Real.tanh_eq_sinh_div_cosh,
    div_le_div_iff₀ (Real.cosh_pos x) (Real.cosh_pos y)]
  have : 0 ≤ Real.sinh (y - x) := Real.sinh_nonneg_iff.2 (by linarith)
  rw [Real.sinh_sub] at this
  linarith

/-- The bounded argument of `tanh` in the GR4J formulas. -/
theorem tws_bounds {P X : ℝ} (hP : 0 ≤ P) (hX : 0 < X) :
    0 ≤ Real.tanh (min (P / X) 13) ∧ Real.tanh (min (P / X) 13) < 1 ∧
      X * Real.tanh (min (P / X) 13) ≤ P := by
  have h0 : 0 ≤ min (P / X) 13 := le_min (div_nonneg hP hX.le) (by norm_num)
  refine ⟨tanh_nonneg h0, Real.tanh_lt_one _, ?_⟩
  have h1 := tanh_le_self h0
  have h2 : Real.tanh (min (P / X) 13) ≤ P / X := h1.trans (min_le_left _ _)
  calc X * Real.tanh (min (P / X) 13) ≤ X * (P / X) := mul_le_mul_of_nonneg_left h2 hX.le
    _ = P := by field_simp

theorem infiltration_bounds {S P X : ℝ} (hX : 0 < X) (hS : 0 ≤ S) (hSX : S ≤ X) :
    0 ≤ gr4jInfiltration S P X ∧ gr4jInfiltration S P X ≤ max P 0 ∧ S + gr4jInfiltration S P X ≤ X := by
  unfold gr4jInfiltration
  by_cases hP : P ≤ 0
  · simp [hP, hSX]
  · rw [if_neg (by simp [hP, hX])]
    have hP : 0 < P := not_le.1 hP
    obtain ⟨t0, t1, t2⟩ := tws_bounds hP.le hX
    dsimp only
    set t := Real.tanh (min (P / X) 13)
    set s := S / X with hs
    have hs0 : 0 ≤ s := div_nonneg hS hX.le
    have hs1 : s ≤ 1 := (div_le_one hX).2 hSX
    have hSe : S = X * s := by rw [hs]; field_simp
    have hden : 0 < 1 + s * t := by positivity
    have hss : s * s ≤ 1 := by nlinarith
    have hst : 0 ≤ s * t := mul_nonneg hs0 t0
    refine ⟨?_, ?_, ?_⟩
    · exact div_nonneg (mul_nonneg (mul_nonneg hX.le (by linarith)) t0) hden.le
    · rw [max_eq_left hP.le, div_le_iff₀ hden]
      have h1 : X * (1 - s * s) * t ≤ X * t := by
        have : 0 ≤ X * t * (s * s) := by positivity
        nlinarith
      have : 0 ≤ P * (s * t) := by positivity
      nlinarith
    · have : X * (1 - s * s) * t / (1 + s * t) ≤ X * (1 - s) := by
        rw [div_le_iff₀ hden]
        have h3 : 0 ≤ X * (1 - s) * (1 - t) := mul_nonneg (mul_nonneg hX.le (by linarith)) (by linarith)
        nlinarith
      rw [hSe]; linarith

theorem evaporation_bounds {S E X : ℝ} (hX : 0 < X) (hS : 0 ≤ S) (hSX : S ≤ X) :
    0 ≤ gr4jEvaporation S E X ∧ gr4jEvaporation S E X ≤ max E 0 ∧ gr4jEvaporation S E X ≤ S := by
  unfold gr4jEvaporation
  by_cases hE : E ≤ 0
  · simp [hE, hS]
  · rw [if_neg (by simp [hE, hX])]
    have hE : 0 < E := not_le.1 hE
    obtain ⟨t0, t1, t2⟩ := tws_bounds hE.le hX
    dsimp only
    set t := Real.tanh (min (E / X) 13)
    set s := S / X with hs
    have hs0 : 0 ≤ s := div_nonneg hS hX.le
    have hs1 : s ≤ 1 := (div_le_one hX).2 hSX
    have hSe : S = X * s := by rw [hs]; field_simp
    have h1s : 0 ≤ (1 - s) * t := mul_nonneg (by linarith) t0
    have hden : 0 < 1 + (1 - s) * t := by linarith
    refine ⟨div_nonneg (mul_nonneg (mul_nonneg hS (by linarith)) t0) hden.le, ?_, ?_⟩
    · rw [max_eq_left hE.le, div_le_iff₀ hden]
      have h1 : S * (2 - s) * t ≤ X * t := by
        have : 0 ≤ X * t * ((1 - s) * (1 - s)) := by positivity
        rw [hSe]; nlinarith
      have : 0 ≤ E * ((1 - s) * t) := by positivity
      nlinarith
    · rw [div_le_iff₀ hden]
      have : 0 ≤ S * (1 - t) := mul_nonneg hS (by linarith)
      nlinarith

/-- Evaporation does not decrease with the store level. -/
theorem evaporation_mono {S S' E X : ℝ} (hX : 0 < X) (hS : 0 ≤ S) (hSS : S ≤ S') (hSX : S' ≤ X) :
    gr4jEvaporation S E X ≤ gr4jEvaporation S' E X := by
  unfold gr4jEvaporation
  by_cases hE : E ≤ 0
  · simp [hE]
  · rw [if_neg (by simp [hE, hX]), if_neg (by simp [hE, hX])]
    have hE : 0 < E := not_le.1 hE
    obtain ⟨t0, t1, -⟩ := tws_bounds hE.le hX
    dsimp only
    set t := Real.tanh (min (E / X) 13)
    set s := S / X with hs
    set u := S' / X with hu
    have hs0 : 0 ≤ s := div_nonneg hS hX.le
    have hsu : s ≤ u := div_le_div_of_nonneg_right hSS hX.le
    have hu1 : u ≤ 1 := (div_le_one hX).2 hSX
    have hSe : S = X * s := by rw [hs]; field_simp
    have hSe' : S' = X * u := by rw [hu]; field_simp
    have hd1 : 0 < 1 + (1 - s) * t := by nlinarith
    have hd2 : 0 < 1 + (1 - u) * t := by nlinarith
    rw [div_le_div_iff₀ hd1 hd2, hSe, hSe']
    have key : 0 ≤ (u - s) * ((1 - u) + (1 - s)) + t * ((u - s) * (1 + (1 - u) * (1 - s))) := by
      have h1 : 0 ≤ u - s := by linarith
      have h2 : 0 ≤ 1 - u := by linarith
      have h3 : 0 ≤ 1 - s := by linarith
      positivity
    have h2 : 0 ≤ X * t * ((u - s) * ((1 - u) + (1 - s)) + t * ((u - s) * (1 + (1 - u) * (1 - s)))) :=
      mul_nonneg (mul_nonneg hX.le t0) key
    nlinarith

theorem percolation_bounds {S X : ℝ} (hX : 0 < X) (hS : 0 ≤ S) :
    0 ≤ gr4jPercolation S X ∧ gr4jPercolation S X ≤ S := by
  unfold gr4jPercolation
  rw [if_neg (not_le.2 hX)]
  dsimp only
  set b := 1 + (S / X * (S / X) * (S / X) * (S / X)) / (2562890625 / 100000000 : ℝ) with hb
  have hr : 0 ≤ S / X := div_nonneg hS hX.le
  have hb1 : 1 ≤ b := by rw [hb]; have : 0 ≤ S / X * (S / X) * (S / X) * (S / X) / (2562890625 / 100000000 : ℝ) := by positivity
                         linarith
  have hp0 : 0 < b ^ (-(1 / 4) : ℝ) := Real.rpow_pos_of_pos (by linarith) _
  have hp1 : b ^ (-(1 / 4) : ℝ) ≤ 1 := Real.rpow_le_one_of_one_le_of_nonpos hb1 (by norm_num)
  constructor
  · exact mul_nonneg hS (by linarith)
  · nlinarith

/-- Value of the filling ratio of a finite container with capacity. -/
theorem fillingRatio_eq {c : Cont ℝ} {cap : ℝ} (hi : c.infinite = false) (hc : c.cap = some cap) :
    c.fillingRatio = some (max 0 (min 1 (c.lvl / cap))) := by
  simp [Cont.fillingRatio, Cont.withChanges, hi, hc, Cont.lvl]

theorem ratio_mem (x : ℝ) : 0 ≤ max 0 (min 1 x) ∧ max 0 (min 1 x) ≤ 1 :=
  ⟨le_max_left _ _, max_le zero_le_one (min_le_left _ _)⟩

theorem ratio_mono {x y : ℝ} (h : x ≤ y) : max 0 (min 1 x) ≤ max 0 (min 1 y) :=
  max_le_max le_rfl (min_le_min le_rfl h)

theorem ratio_full {x : ℝ} (h : 1 ≤ x) : max 0 (min 1 x) = 1 := by
  rw [min_eq_left h]; exact max_eq_right zero_le_one

theorem ratio_empty {x : ℝ} (h : x ≤ 0) : max 0 (min 1 x) = 0 := by
  rw [min_eq_right (by linarith)]; exact max_eq_left h

end HB
