import Verif.Model.Hillshade
import Mathlib.Tactic.Linarith
import Mathlib.Tactic.Ring
import Mathlib.Tactic.FieldSimp
import Mathlib.Tactic.Positivity
import Mathlib.Tactic.NormNum

/-! # C96: hillshade -/

set_option linter.unusedSectionVars false

namespace HB.Hillshade

/-- The cosine of the angle between the sun and the normal of a surface that rises by `e` per metre to the east and by `n` per metre to the north: the scalar product of
the unit vectors (east, north, up). -/
noncomputable def incidence (azimuth altitude e n : ℝ) : ℝ :=
  (Real.cos (altitude * Real.pi / 180) * Real.sin (azimuth * Real.pi / 180) * (-e) + Real.cos (altitude * Real.pi / 180) * Real.cos (azimuth * Real.pi / 180) * (-n)
    + Real.sin (altitude * Real.pi / 180) * 1) / Real.sqrt (e ^ 2 + n ^ 2 + 1 ^ 2)

theorem shade_eq (azimuth altitude zFactor sizeX sizeY gx gy : ℝ) :
    shade azimuth altitude zFactor sizeX sizeY gx gy = 255 * (incidence azimuth altitude (zFactor * gy / sizeY) (-(zFactor * gx / sizeX)) + 1) / 2 := by
  unfold shade
  simp only
  set x := zFactor * gx / sizeX
  set y := zFactor * gy / sizeY
  set al := altitude * Real.pi / 180 with hal
  set az := azimuth * Real.pi / 180 with haz
  have hr : 0 ≤ x * x + y * y := add_nonneg (mul_self_nonneg _) (mul_self_nonneg _)
  set g := Real.sqrt (x * x + y * y) with hg
  have hg0 : 0 ≤ g := Real.sqrt_nonneg _
  have hgg : g * g = x * x + y * y := Real.mul_self_sqrt hr
  have hz : ‖(⟨y, -x⟩ : ℂ)‖ = g := by
    rw [Complex.norm_def, hg]
    congr 1
    simp [Complex.normSq_apply]; ring
  have hc : g * Real.cos (arctan2 (-x) y) = y := by
    have := Complex.norm_mul_cos_arg (⟨y, -x⟩ : ℂ); rw [hz] at this; exact this
  have hs : g * Real.sin (arctan2 (-x) y) = -x := by
    have := Complex.norm_mul_sin_arg (⟨y, -x⟩ : ℂ); rw [hz] at this; exact this
  have e1 : Real.sqrt (y ^ 2 + (-x) ^ 2 + 1 ^ 2) = Real.sqrt (1 + g ^ 2) := by congr 1; nlinarith
  have e2 : (360 - azimuth) * Real.pi / 180 - Real.pi / 2 - arctan2 (-x) y = -(az + arctan2 (-x) y + Real.pi / 2) + 2 * Real.pi := by rw [haz]; ring
  have hq : 0 < Real.sqrt (1 + g ^ 2) := Real.sqrt_pos.mpr (by positivity)
  unfold incidence
  rw [← hal, ← haz, e1, e2, Real.cos_add_two_pi, Real.cos_neg, Real.cos_add_pi_div_two, Real.sin_pi_div_two_sub, Real.cos_pi_div_two_sub, Real.cos_arctan, Real.sin_arctan,
    Real.sin_add]
  have key : g * (Real.sin az * Real.cos (arctan2 (-x) y) + Real.cos az * Real.sin (arctan2 (-x) y)) = Real.sin az * y - Real.cos az * x := by
    calc _ = Real.sin az * (g * Real.cos (arctan2 (-x) y)) + Real.cos az * (g * Real.sin (arctan2 (-x) y)) := by ring
      _ = _ := by rw [hc, hs]; ring
  have e3 : Real.sin al * (1 / Real.sqrt (1 + g ^ 2)) + Real.cos al * (g / Real.sqrt (1 + g ^ 2)) * -(Real.sin az * Real.cos (arctan2 (-x) y) + Real.cos az * Real.sin (arctan2 (-x) y))
      = (Real.cos al * Real.sin az * (-y) + Real.cos al * Real.cos az * (- -x) + Real.sin al * 1) / Real.sqrt (1 + g ^ 2) := by
    have : Real.cos al * (g / Real.sqrt (1 + g ^ 2)) * -(Real.sin az * Real.cos (arctan2 (-x) y) + Real.cos az * Real.sin (arctan2 (-x) y))
        = -(Real.cos al * (g * (Real.sin az * Real.cos (arctan2 (-x) y) + Real.cos az * Real.sin (arctan2 (-x) y)))) / Real.sqrt (1 + g ^ 2) := by ring
    rw [this, key]; ring
  rw [e3]

/-- The cosine is a cosine. -/
theorem incidence_range (azimuth altitude e n : ℝ) : -1 ≤ incidence azimuth altitude e n ∧ incidence azimuth altitude e n ≤ 1 := by
  unfold incidence
  set al := altitude * Real.pi / 180
  set az := azimuth * Real.pi / 180
  have hq : 0 < Real.sqrt (e ^ 2 + n ^ 2 + 1 ^ 2) := Real.sqrt_pos.mpr (by positivity)
  have h1 := Real.sin_sq_add_cos_sq al
  have h2 := Real.sin_sq_add_cos_sq az
  set N := Real.cos al * Real.sin az * (-e) + Real.cos al * Real.cos az * (-n) + Real.sin al * 1
  have hN : N ^ 2 ≤ e ^ 2 + n ^ 2 + 1 ^ 2 := by
    have hu : (Real.cos al * Real.sin az) ^ 2 + (Real.cos al * Real.cos az) ^ 2 + Real.sin al ^ 2 = 1 := by
      calc _ = Real.cos al ^ 2 * (Real.sin az ^ 2 + Real.cos az ^ 2) + Real.sin al ^ 2 := by ring
        _ = 1 := by rw [h2]; linarith
    set a := Real.cos al * Real.sin az
    set b := Real.cos al * Real.cos az
    set c := Real.sin al
    have : e ^ 2 + n ^ 2 + 1 ^ 2 - N ^ 2 = (a * n - b * e) ^ 2 + (a + c * e) ^ 2 + (b + c * n) ^ 2 := by
      have : e ^ 2 + n ^ 2 + 1 ^ 2 = (a ^ 2 + b ^ 2 + c ^ 2) * (e ^ 2 + n ^ 2 + 1 ^ 2) := by rw [hu, one_mul]
      rw [this]; simp only [N]; ring
    nlinarith [sq_nonneg (a * n - b * e), sq_nonneg (a + c * e), sq_nonneg (b + c * n)]
  have habs := Real.abs_le_sqrt hN
  rw [abs_le] at habs
  constructor
  · rw [le_div_iff₀ hq]; linarith [habs.1]
  · rw [div_le_iff₀ hq]; linarith [habs.2]

/-- **The hillshade is made for every raster of two by two cells and more and all allowed angles, and lies in [0, 255].** -/
theorem c96_range (d : Dem) (azimuth altitude zFactor : ℝ) :
    ((∃ h, hillshade d azimuth altitude zFactor = .ok h) ↔ 2 ≤ d.rows ∧ 2 ≤ d.cols ∧ azimuth ≤ 360 ∧ altitude ≤ 90) ∧
      ∀ h, hillshade d azimuth altitude zFactor = .ok h → ∀ i j, 0 ≤ h i j ∧ h i j ≤ 255 := by
  unfold hillshade
  constructor
  · split_ifs with h1 h2 h3
    · simp; intro a b; omega
    · simp; intro a b c; linarith
    · simp; intro a b c; linarith
    · refine ⟨fun _ => ⟨by omega, by omega, by linarith, by linarith⟩, fun _ => ⟨_, rfl⟩⟩
  · intro h hh i j
    split_ifs at hh
    injection hh with hh
    subst hh
    simp only [shade_eq]
    obtain ⟨l, u⟩ := incidence_range azimuth altitude (zFactor * gradient d.cols (fun k => d.z i k) j / |d.resY|) (-(zFactor * gradient d.rows (fun k => d.z k j) i / |d.resX|))
    constructor <;> linarith

/-- `np.gradient` is exact on a line. -/
theorem gradient_line (n : ℕ) (a b : ℝ) (i : ℕ) (h2 : 2 ≤ n) (hi : i < n) : gradient n (fun k => a + b * (k : ℝ)) i = b := by
  unfold gradient
  split_ifs with h h'
  · push_cast; ring
  · have hc : ((i - 1 : ℕ) : ℝ) = (i : ℝ) - 1 := by rw [Nat.cast_sub (by omega)]; simp
    simp only [hc]; ring
  · have hc : ((i - 1 : ℕ) : ℝ) = (i : ℝ) - 1 := by rw [Nat.cast_sub (by omega)]; simp
    simp only [hc]; push_cast; ring

/-- A plane that rises by `e` per metre to the east and by `n` per metre to the north, on pixels of the given sizes. -/
def plane (rows cols : ℕ) (resX resY z0 e n : ℝ) : Dem := ⟨rows, cols, fun i j => z0 + e * (resX * j) - n * (resY * i), resX, -resY⟩

/-- What the code computes on a plane: the gradients are divided by the sizes of the pixels the wrong way round. -/
theorem plane_shade (rows cols : ℕ) (resX resY z0 e n azimuth altitude : ℝ) (hx : 0 < resX) (hy : 0 < resY) (h : ℕ → ℕ → ℝ)
    (hh : hillshade (plane rows cols resX resY z0 e n) azimuth altitude 1 = .ok h) (i j : ℕ) (hi : i < rows) (hj : j < cols) :
    h i j = 255 * (incidence azimuth altitude (e * (resX / resY)) (n * (resY / resX)) + 1) / 2 := by
  unfold hillshade at hh
  split_ifs at hh with h1
  push Not at h1
  injection hh with hh
  subst hh
  have hr : 2 ≤ rows := h1.1
  have hc : 2 ≤ cols := h1.2
  simp only [shade_eq]
  have g1 : gradient rows (fun k => (plane rows cols resX resY z0 e n).z k j) i = -(n * resY) := by
    have : (fun k : ℕ => (plane rows cols resX resY z0 e n).z k j) = fun k : ℕ => (z0 + e * (resX * j)) + (-(n * resY)) * (k : ℝ) := by
      funext k; simp only [plane]; ring
    rw [this]; exact gradient_line rows _ _ i hr hi
  have g2 : gradient cols (fun k => (plane rows cols resX resY z0 e n).z i k) j = e * resX := by
    have : (fun k : ℕ => (plane rows cols resX resY z0 e n).z i k) = fun k : ℕ => (z0 - n * (resY * i)) + (e * resX) * (k : ℝ) := by
      funext k; simp only [plane]; ring
    rw [this]; exact gradient_line cols _ _ j hc hj
  show 255 * (incidence azimuth altitude (1 * gradient cols (fun k => (plane rows cols resX resY z0 e n).z i k) j / |(-resY)|)
    (-(1 * gradient rows (fun k => (plane rows cols resX resY z0 e n).z k j) i / |resX|)) + 1) / 2 = _
  rw [g1, g2, abs_neg, abs_of_pos hx, abs_of_pos hy]
  have a1 : 1 * (e * resX) / resY = e * (resX / resY) := by ring
  have a2 : -(1 * -(n * resY) / resX) = n * (resY / resX) := by ring
  rw [a1, a2]

/-- **A slope is shaded as it faces the sun**: on square pixels every cell of a plane, also at the border, has the shade of the angle between the sun and its normal. -/
theorem c96_plane (rows cols : ℕ) (res z0 e n azimuth altitude : ℝ) (hx : 0 < res) (h : ℕ → ℕ → ℝ)
    (hh : hillshade (plane rows cols res res z0 e n) azimuth altitude 1 = .ok h) (i j : ℕ) (hi : i < rows) (hj : j < cols) :
    h i j = 255 * (incidence azimuth altitude e n + 1) / 2 := by
  rw [plane_shade rows cols res res z0 e n azimuth altitude hx hx h hh i j hi hj, div_self hx.ne', mul_one, mul_one]

/-- Flat ground has the shade of the height of the sun, whatever its direction. -/
theorem c96_flat (rows cols : ℕ) (resX resY z0 azimuth altitude : ℝ) (hx : 0 < resX) (hy : 0 < resY) (h : ℕ → ℕ → ℝ)
    (hh : hillshade (plane rows cols resX resY z0 0 0) azimuth altitude 1 = .ok h) (i j : ℕ) (hi : i < rows) (hj : j < cols) :
    h i j = 255 * (Real.sin (altitude * Real.pi / 180) + 1) / 2 := by
  rw [plane_shade rows cols resX resY z0 0 0 azimuth altitude hx hy h hh i j hi hj]
  unfold incidence
  simp

/-- **Pixels that are not square**: a plane rising to the west by one per metre, with the sun in the east at the horizon, is shaded as one of half the slope when the
pixels are twice as high as wide. -/
theorem c96_not_square (h : ℕ → ℕ → ℝ) (hh : hillshade (plane 2 2 10 20 0 (-1) 0) 90 0 1 = .ok h) :
    h 0 0 = 255 * (incidence 90 0 (-1 / 2) 0 + 1) / 2 ∧ h 0 0 ≠ 255 * (incidence 90 0 (-1) 0 + 1) / 2 := by
  have e0 := plane_shade 2 2 10 20 0 (-1) 0 90 0 (by norm_num) (by norm_num) h hh 0 0 (by norm_num) (by norm_num)
  have e1 : (-1 : ℝ) * (10 / 20) = -1 / 2 := by norm_num
  have e2 : (0 : ℝ) * (20 / 10) = 0 := by norm_num
  rw [e1, e2] at e0
  refine ⟨e0, ?_⟩
  rw [e0]
  have hs : Real.sin (90 * Real.pi / 180) = 1 := by have : (90 : ℝ) * Real.pi / 180 = Real.pi / 2 := by ring
                                                    rw [this, Real.sin_pi_div_two]
  have i1 : incidence 90 0 (-1 / 2) 0 = (1 / 2) / Real.sqrt (5 / 4) := by
    unfold incidence; rw [hs]
    norm_num
  have i2 : incidence 90 0 (-1) 0 = 1 / Real.sqrt 2 := by
    unfold incidence; rw [hs]
    norm_num
  rw [i1, i2]
  intro hc
  have hlt : (1 / 2) / Real.sqrt (5 / 4) < 1 / Real.sqrt 2 := by
    have p1 : 1 < Real.sqrt (5 / 4) := by rw [Real.lt_sqrt (by norm_num)]; norm_num
    have p2 : Real.sqrt 2 < 2 := by rw [Real.sqrt_lt' (by norm_num)]; norm_num
    have p3 : 0 < Real.sqrt 2 := Real.sqrt_pos.mpr (by norm_num)
    calc (1 / 2) / Real.sqrt (5 / 4) < 1 / 2 := div_lt_self (by norm_num) p1
      _ < 1 / Real.sqrt 2 := one_div_lt_one_div_of_lt p3 p2
  linarith

/-- The examples are not empty: the raster above is accepted. -/
theorem c96_example : (∃ h, hillshade (plane 2 2 10 20 0 (-1) 0) 90 0 1 = .ok h) ∧ (∃ h, hillshade (plane 30 40 25 25 800 (1 / 2) (-1 / 3)) 315 45 1 = .ok h) := by
  constructor
  · rw [(c96_range _ 90 0 1).1]; simp [plane]; norm_num
  · rw [(c96_range _ 315 45 1).1]; simp [plane]; norm_num

end HB.Hillshade
