import Verif.Props.Gr4jBook

/-!
# How the published GR4J formulas depend on their arguments

Each amount of the production store and of the routing store moves in one direction with the level, with the rain and with the demand,
and by no more than them.  Nothing here is about the code: the lemmas are on the documented formulas.
-/

set_option linter.unusedSectionVars false

namespace HB

open Spec.Gr Wire

noncomputable section

/-! ## Hyperbolic tangent -/

theorem tanh_lip {a b : ℝ} (ha : 0 ≤ a) (h : a ≤ b) : Real.tanh b - Real.tanh a ≤ b - a := by
  have hb := le_trans ha h
  have ca := Real.cosh_pos a
  have cb := Real.cosh_pos b
  rw [Real.tanh_eq_sinh_div_cosh, Real.tanh_eq_sinh_div_cosh, div_sub_div _ _ cb.ne' ca.ne', div_le_iff₀ (by positivity)]
  have e : Real.sinh b * Real.cosh a - Real.cosh b * Real.sinh a = Real.sinh (b - a) := by rw [Real.sinh_sub]
  rw [e]
  have h1 := tanh_le_self (show 0 ≤ b - a by linarith)
  rw [Real.tanh_eq_sinh_div_cosh, div_le_iff₀ (Real.cosh_pos _)] at h1
  have h2 : Real.cosh (b - a) ≤ Real.cosh b := Real.cosh_le_cosh.2 (by
    rw [abs_of_nonneg (by linarith), abs_of_nonneg hb]; linarith)
  have h3 : Real.cosh b ≤ Real.cosh b * Real.cosh a := le_mul_of_one_le_right cb.le (Real.one_le_cosh a)
  have h4 : (b - a) * Real.cosh (b - a) ≤ (b - a) * (Real.cosh b * Real.cosh a) :=
    mul_le_mul_of_nonneg_left (by linarith) (by linarith)
  linarith

theorem tanh_unit {x : ℝ} (h : 0 ≤ x) : 0 ≤ Real.tanh x ∧ Real.tanh x ≤ 1 := ⟨tanh_nonneg h, (Real.tanh_lt_one x).le⟩

/-! ## In shares of the capacity -/

/-- Infiltration and evapotranspiration for a filling `s` and a forcing `T = tanh(·/X1)`, in shares of the capacity. -/
def shareIn (s T : ℝ) : ℝ := (1 - s ^ 2) * T / (1 + s * T)
def shareOut (s T : ℝ) : ℝ := s * (2 - s) * T / (1 + (1 - s) * T)

theorem infil_share {X1 S Pn : ℝ} (_hX : 0 < X1) : Doc.infiltrationGR4J Pn S X1 = X1 * shareIn (S / X1) (Real.tanh (Pn / X1)) := by
  unfold Doc.infiltrationGR4J shareIn
  ring

theorem et_share {X1 S En : ℝ} (hX : 0 < X1) : Doc.etGR4J S En X1 = X1 * shareOut (S / X1) (Real.tanh (En / X1)) := by
  unfold Doc.etGR4J shareOut
  have : S = X1 * (S / X1) := by field_simp
  nth_rewrite 1 [this]
  ring

section
variable {s u T V : ℝ}

theorem shareIn_den (s0 : 0 ≤ s) (t0 : 0 ≤ T) : 0 < 1 + s * T := by positivity

theorem shareOut_den (s1 : s ≤ 1) (t0 : 0 ≤ T) : 0 < 1 + (1 - s) * T := by
  have := mul_nonneg (sub_nonneg.2 s1) t0
  linarith

theorem shareIn_nonneg (s0 : 0 ≤ s) (s1 : s ≤ 1) (t0 : 0 ≤ T) : 0 ≤ shareIn s T :=
  div_nonneg (mul_nonneg (by nlinarith) t0) (shareIn_den s0 t0).le

theorem shareIn_anti (s0 : 0 ≤ s) (h : s ≤ u) (u1 : u ≤ 1) (t0 : 0 ≤ T) : shareIn u T ≤ shareIn s T := by
  unfold shareIn
  have hs := shareIn_den s0 t0
  have hu := shareIn_den (le_trans s0 h) t0
  apply div_le_div₀ (mul_nonneg (by nlinarith) t0) _ hs _
  · exact mul_le_mul_of_nonneg_right (by nlinarith) t0
  · have := mul_le_mul_of_nonneg_right h t0
    linarith

theorem shareIn_sum (s0 : 0 ≤ s) (t0 : 0 ≤ T) : s + shareIn s T = (s + T) / (1 + s * T) := by
  unfold shareIn
  have := (shareIn_den s0 t0).ne'
  rw [eq_div_iff this, add_mul, div_mul_cancel₀ _ this]
  ring

theorem shareIn_level_mono (s0 : 0 ≤ s) (h : s ≤ u) (t0 : 0 ≤ T) (t1 : T ≤ 1) : s + shareIn s T ≤ u + shareIn u T := by
  rw [shareIn_sum s0 t0, shareIn_sum (le_trans s0 h) t0, div_le_div_iff₀ (shareIn_den s0 t0) (shareIn_den (le_trans s0 h) t0)]
  have : 0 ≤ (u - s) * (1 - T ^ 2) := mul_nonneg (by linarith) (by nlinarith)
  nlinarith

theorem shareIn_force_mono (s0 : 0 ≤ s) (s1 : s ≤ 1) (t0 : 0 ≤ T) (h : T ≤ V) : shareIn s T ≤ shareIn s V := by
  unfold shareIn
  rw [div_le_div_iff₀ (shareIn_den s0 t0) (shareIn_den s0 (le_trans t0 h))]
  have : 0 ≤ (V - T) * (1 - s ^ 2) := mul_nonneg (by linarith) (by nlinarith)
  nlinarith

theorem shareIn_force_lip (s0 : 0 ≤ s) (s1 : s ≤ 1) (t0 : 0 ≤ T) (h : T ≤ V) : shareIn s V - shareIn s T ≤ V - T := by
  unfold shareIn
  have a := shareIn_den s0 (le_trans t0 h)
  have b := shareIn_den s0 t0
  rw [div_sub_div _ _ a.ne' b.ne', div_le_iff₀ (mul_pos a b)]
  have e : (1 - s ^ 2) * V * (1 + s * T) - (1 + s * V) * ((1 - s ^ 2) * T) = (V - T) * (1 - s ^ 2) := by ring
  rw [e]
  apply mul_le_mul_of_nonneg_left _ (by linarith)
  have c : 0 ≤ s * T := mul_nonneg s0 t0
  have d : 0 ≤ s * V := mul_nonneg s0 (le_trans t0 h)
  nlinarith [mul_nonneg d c, sq_nonneg s]

theorem shareOut_nonneg (s0 : 0 ≤ s) (s1 : s ≤ 1) (t0 : 0 ≤ T) : 0 ≤ shareOut s T :=
  div_nonneg (mul_nonneg (mul_nonneg s0 (by linarith)) t0) (shareOut_den s1 t0).le

theorem shareOut_left (s1 : s ≤ 1) (t0 : 0 ≤ T) : s - shareOut s T = s * (1 - T) / (1 + (1 - s) * T) := by
  unfold shareOut
  have := (shareOut_den s1 t0).ne'
  rw [eq_div_iff this, sub_mul, div_mul_cancel₀ _ this]
  ring

theorem shareOut_le (s0 : 0 ≤ s) (s1 : s ≤ 1) (t0 : 0 ≤ T) (t1 : T ≤ 1) : shareOut s T ≤ s := by
  have := shareOut_left s1 t0
  have h : 0 ≤ s * (1 - T) / (1 + (1 - s) * T) := div_nonneg (mul_nonneg s0 (by linarith)) (shareOut_den s1 t0).le
  linarith

theorem shareOut_level_mono (s0 : 0 ≤ s) (h : s ≤ u) (u1 : u ≤ 1) (t0 : 0 ≤ T) (t1 : T ≤ 1) : s - shareOut s T ≤ u - shareOut u T := by
  rw [shareOut_left (le_trans h u1) t0, shareOut_left u1 t0]
  apply div_le_div₀ (mul_nonneg (le_trans s0 h) (by linarith)) (mul_le_mul_of_nonneg_right h (by linarith)) (shareOut_den u1 t0)
  have := mul_le_mul_of_nonneg_right h t0
  linarith

theorem shareOut_mono (s0 : 0 ≤ s) (h : s ≤ u) (u1 : u ≤ 1) (t0 : 0 ≤ T) : shareOut s T ≤ shareOut u T := by
  unfold shareOut
  apply div_le_div₀ (mul_nonneg (mul_nonneg (le_trans s0 h) (by linarith)) t0) _ (shareOut_den u1 t0)
  · have := mul_le_mul_of_nonneg_right h t0
    linarith
  · apply mul_le_mul_of_nonneg_right _ t0
    nlinarith

theorem shareOut_force_mono (s0 : 0 ≤ s) (s1 : s ≤ 1) (t0 : 0 ≤ T) (h : T ≤ V) : shareOut s T ≤ shareOut s V := by
  unfold shareOut
  rw [div_le_div_iff₀ (shareOut_den s1 t0) (shareOut_den s1 (le_trans t0 h))]
  have : 0 ≤ (V - T) * (s * (2 - s)) := mul_nonneg (by linarith) (mul_nonneg s0 (by linarith))
  nlinarith

theorem shareOut_force_lip (s0 : 0 ≤ s) (s1 : s ≤ 1) (t0 : 0 ≤ T) (h : T ≤ V) : shareOut s V - shareOut s T ≤ V - T := by
  unfold shareOut
  have a := shareOut_den s1 (le_trans t0 h)
  have b := shareOut_den s1 t0
  rw [div_sub_div _ _ a.ne' b.ne', div_le_iff₀ (mul_pos a b)]
  have e : s * (2 - s) * V * (1 + (1 - s) * T) - (1 + (1 - s) * V) * (s * (2 - s) * T) = (V - T) * (s * (2 - s)) := by ring
  rw [e]
  apply mul_le_mul_of_nonneg_left _ (by linarith)
  have c : 0 ≤ (1 - s) * T := mul_nonneg (by linarith) t0
  have d : 0 ≤ (1 - s) * V := mul_nonneg (by linarith) (le_trans t0 h)
  nlinarith [mul_nonneg d c, sq_nonneg (1 - s)]

end

/-! ## The release of a power store -/

section
variable {X x y : ℝ}

theorem release_mono (hX : 0 < X) (h0 : 0 ≤ x) (h : x ≤ y) : Doc.release x X ≤ Doc.release y X := by
  have hy := le_trans h0 h
  unfold Doc.release
  have e : ∀ z : ℝ, 0 < 1 + (z / X) ^ 4 := fun z => by positivity
  have a : (1 + (y / X) ^ 4) ^ (-(1 / 4) : ℝ) ≤ (1 + (x / X) ^ 4) ^ (-(1 / 4) : ℝ) :=
    Real.rpow_le_rpow_of_nonpos (e x) (by gcongr) (by norm_num)
  have b : (1 + (x / X) ^ 4) ^ (-(1 / 4) : ℝ) ≤ 1 := Real.rpow_le_one_of_one_le_of_nonpos (by
    have : 0 ≤ (x / X) ^ 4 := by positivity
    linarith) (by norm_num)
  exact mul_le_mul h (by linarith) (by linarith) hy

theorem release_kept_mono (hX : 0 < X) (h0 : 0 ≤ x) (h : x ≤ y) : x - Doc.release x X ≤ y - Doc.release y X := by
  have hy := le_trans h0 h
  unfold Doc.release
  have e : ∀ z : ℝ, 0 < 1 + (z / X) ^ 4 := fun z => by positivity
  have f : ∀ z : ℝ, z - z * (1 - (1 + (z / X) ^ 4) ^ (-(1 / 4) : ℝ)) = z * (1 + (z / X) ^ 4) ^ (-(1 / 4) : ℝ) := fun z => by ring
  have g : ∀ z : ℝ, ((1 + (z / X) ^ 4) ^ (-(1 / 4) : ℝ)) ^ 4 * (1 + (z / X) ^ 4) = 1 := by
    intro z
    rw [← Real.rpow_natCast, ← Real.rpow_mul (e z).le]
    norm_num
    rw [Real.rpow_neg (e z).le, Real.rpow_one, inv_mul_cancel₀ (e z).ne']
  have n : ∀ z : ℝ, 0 ≤ (1 + (z / X) ^ 4) ^ (-(1 / 4) : ℝ) := fun z => Real.rpow_nonneg (e z).le _
  rw [f, f]
  have gx := g x
  have gy := g y
  have nx := n x
  have ny := n y
  set p := (1 + (x / X) ^ 4) ^ (-(1 / 4) : ℝ)
  set q := (1 + (y / X) ^ 4) ^ (-(1 / 4) : ℝ)
  apply le_of_pow_le_pow_left₀ (n := 4) (by norm_num) (mul_nonneg hy ny)
  have ex := e x
  have ey := e y
  have px : p ^ 4 = (1 + (x / X) ^ 4)⁻¹ := eq_inv_of_mul_eq_one_left gx
  have py : q ^ 4 = (1 + (y / X) ^ 4)⁻¹ := eq_inv_of_mul_eq_one_left gy
  rw [mul_pow, mul_pow, px, py, ← div_eq_mul_inv, ← div_eq_mul_inv, div_le_div_iff₀ ex ey]
  have hxy : x ^ 4 ≤ y ^ 4 := by gcongr
  rw [div_pow, div_pow]
  have : x ^ 4 * (y ^ 4 / X ^ 4) = y ^ 4 * (x ^ 4 / X ^ 4) := by ring
  nlinarith

theorem percolation_release (S X1 : ℝ) : Doc.percolationGR4J S X1 = Doc.release S (9 / 4 * X1) := by
  unfold Doc.percolationGR4J Doc.release
  congr 4
  by_cases h : X1 = 0
  · subst h; simp
  · field_simp

end

/-- Two amounts that grow with a third and add up to it differ by no more in total. -/
theorem split_abs {a b a' b' : ℝ} (h : (a ≤ a' ∧ b ≤ b') ∨ (a' ≤ a ∧ b' ≤ b)) : |a - a'| + |b - b'| = |(a + b) - (a' + b')| := by
  rcases h with ⟨h1, h2⟩ | ⟨h1, h2⟩
  · rw [abs_of_nonpos (by linarith), abs_of_nonpos (by linarith), abs_of_nonpos (by linarith)]; ring
  · rw [abs_of_nonneg (by linarith), abs_of_nonneg (by linarith), abs_of_nonneg (by linarith)]; ring

/-- The release and what is kept of two levels differ in total by as much as the levels. -/
theorem release_split {X x y : ℝ} (hX : 0 < X) (hx : 0 ≤ x) (hy : 0 ≤ y) :
    |(x - Doc.release x X) - (y - Doc.release y X)| + |Doc.release x X - Doc.release y X| = |x - y| := by
  rw [split_abs]
  · ring_nf
  · rcases _root_.le_total x y with h | h
    · exact .inl ⟨release_kept_mono hX hx h, release_mono hX hx h⟩
    · exact .inr ⟨release_kept_mono hX hy h, release_mono hX hy h⟩

/-! ## The groundwater exchange -/

theorem pow7_lip {a b : ℝ} (hb : 0 ≤ b) (h : b ≤ a) (ha : a ≤ 1) : a ^ 7 - b ^ 7 ≤ 7 / 2 * (a ^ 2 - b ^ 2) := by
  have ha0 := le_trans hb h
  have hb1 := le_trans h ha
  have e : a ^ 7 - b ^ 7 = (a - b) * (a ^ 6 + b ^ 6 + (a ^ 5 * b + a * b ^ 5) + (a ^ 4 * b ^ 2 + a ^ 2 * b ^ 4) + a ^ 3 * b ^ 3) := by ring
  have pa : ∀ n : ℕ, a ^ (n + 1) ≤ a := fun n => pow_le_of_le_one ha0 ha (by omega)
  have pb : ∀ n : ℕ, b ^ (n + 1) ≤ b := fun n => pow_le_of_le_one hb hb1 (by omega)
  have a1 : ∀ n : ℕ, a ^ n ≤ 1 := fun n => pow_le_one₀ ha0 ha
  have b1 : ∀ n : ℕ, b ^ n ≤ 1 := fun n => pow_le_one₀ hb hb1
  have q1 : a ^ 6 + b ^ 6 ≤ a + b := add_le_add (pa 5) (pb 5)
  have q2 : a ^ 5 * b + a * b ^ 5 ≤ a + b := by
    have : a ^ 5 * b ≤ 1 * b := mul_le_mul_of_nonneg_right (a1 5) hb
    have : a * b ^ 5 ≤ a * 1 := mul_le_mul_of_nonneg_left (b1 5) ha0
    linarith
  have q3 : a ^ 4 * b ^ 2 + a ^ 2 * b ^ 4 ≤ a + b := by
    have h1 : a ^ 4 * b ^ 2 ≤ a * 1 := mul_le_mul (pa 3) (b1 2) (by positivity) ha0
    have h2 : a ^ 2 * b ^ 4 ≤ 1 * b := mul_le_mul (a1 2) (pb 3) (by positivity) zero_le_one
    linarith
  have q4 : a ^ 3 * b ^ 3 ≤ 1 / 2 * (a + b) := by
    have h1 : a ^ 3 * b ^ 3 ≤ 1 * b := mul_le_mul (a1 3) (pb 2) (by positivity) zero_le_one
    linarith
  rw [e]
  calc (a - b) * (a ^ 6 + b ^ 6 + (a ^ 5 * b + a * b ^ 5) + (a ^ 4 * b ^ 2 + a ^ 2 * b ^ 4) + a ^ 3 * b ^ 3)
      ≤ (a - b) * (7 / 2 * (a + b)) := mul_le_mul_of_nonneg_left (by linarith) (by linarith)
    _ = 7 / 2 * (a ^ 2 - b ^ 2) := by ring

theorem rpow72 {x : ℝ} (h : 0 ≤ x) : x ^ (7 / 2 : ℝ) = Real.sqrt x ^ 7 := by
  rw [Real.sqrt_eq_rpow, ← Real.rpow_natCast, ← Real.rpow_mul h]
  norm_num

theorem rpow72_lip {x y : ℝ} (hy : 0 ≤ y) (h : y ≤ x) (hx : x ≤ 1) :
    0 ≤ x ^ (7 / 2 : ℝ) - y ^ (7 / 2 : ℝ) ∧ x ^ (7 / 2 : ℝ) - y ^ (7 / 2 : ℝ) ≤ 7 / 2 * (x - y) := by
  have hx0 := le_trans hy h
  constructor
  · have := Real.rpow_le_rpow hy h (show (0 : ℝ) ≤ 7 / 2 by norm_num)
    linarith
  · rw [rpow72 hx0, rpow72 hy]
    have := pow7_lip (Real.sqrt_nonneg y) (Real.sqrt_le_sqrt h) (Real.sqrt_le_one.2 hx)
    rwa [Real.sq_sqrt hx0, Real.sq_sqrt hy] at this

/-- Growth of an error in the routing store in a day. -/
def growth (X2 X3 : ℝ) : ℝ := 1 + 7 / 2 * (max 0 X2 / X3)

theorem growth_one {X2 X3 : ℝ} (h3 : 0 < X3) : 1 ≤ growth X2 X3 := by
  have : 0 ≤ max 0 X2 / X3 := div_nonneg (le_max_left _ _) h3.le
  unfold growth
  linarith

theorem growth_le {X2 X3 : ℝ} (h3 : 0 < X3) (h2 : X2 ≤ 4 / 10 * X3) : growth X2 X3 ≤ 24 / 10 := by
  have : max 0 X2 / X3 ≤ 4 / 10 := by
    rw [div_le_iff₀ h3]
    exact max_le (by linarith) h2
  unfold growth
  linarith

section
variable {X2 X3 r q : ℝ}

theorem exchange_diff (h3 : 0 < X3) (lo : -(4 / 7 * X3) ≤ X2) (hi : X2 ≤ 4 / 10 * X3) (q0 : 0 ≤ q) (h : q ≤ r) (r1 : r ≤ X3) :
    |Doc.exchangeGR4J X2 r X3 - Doc.exchangeGR4J X2 q X3| ≤ 2 * (r - q) ∧
    |(r + Doc.exchangeGR4J X2 r X3) - (q + Doc.exchangeGR4J X2 q X3)| ≤ growth X2 X3 * (r - q) := by
  have a : 0 ≤ q / X3 := div_nonneg q0 h3.le
  have b : q / X3 ≤ r / X3 := by gcongr
  have c : r / X3 ≤ 1 := (div_le_one h3).2 r1
  obtain ⟨d1, d2⟩ := rpow72_lip a b c
  unfold Doc.exchangeGR4J growth
  set w := (r / X3) ^ (7 / 2 : ℝ) - (q / X3) ^ (7 / 2 : ℝ) with hw
  have e : X2 * (r / X3) ^ (7 / 2 : ℝ) - X2 * (q / X3) ^ (7 / 2 : ℝ) = X2 * w := by rw [hw]; ring
  have e2 : (r + X2 * (r / X3) ^ (7 / 2 : ℝ)) - (q + X2 * (q / X3) ^ (7 / 2 : ℝ)) = (r - q) + X2 * w := by rw [hw]; ring
  rw [e, e2]
  have f : X3 * w ≤ 7 / 2 * (r - q) := by
    calc X3 * w ≤ X3 * (7 / 2 * (r / X3 - q / X3)) := mul_le_mul_of_nonneg_left d2 h3.le
      _ = 7 / 2 * (r - q) := by field_simp
  rcases _root_.le_total 0 X2 with h2 | h2
  · have g : 0 ≤ X2 * w := mul_nonneg h2 d1
    have g2 : X2 * w ≤ 7 / 2 * (X2 / X3) * (r - q) := by
      calc X2 * w = X2 / X3 * (X3 * w) := by field_simp
        _ ≤ X2 / X3 * (7 / 2 * (r - q)) := mul_le_mul_of_nonneg_left f (div_nonneg h2 h3.le)
        _ = 7 / 2 * (X2 / X3) * (r - q) := by ring
    have g3 : X2 / X3 ≤ 4 / 10 := (div_le_iff₀ h3).2 hi
    rw [max_eq_right h2, abs_of_nonneg g, abs_of_nonneg (by linarith)]
    constructor
    · have : 7 / 2 * (X2 / X3) * (r - q) ≤ 2 * (r - q) := mul_le_mul_of_nonneg_right (by linarith) (by linarith)
      linarith
    · linarith
  · have g : X2 * w ≤ 0 := mul_nonpos_of_nonpos_of_nonneg h2 d1
    have g2 : -(2 * (r - q)) ≤ X2 * w := by
      have : -(4 / 7 * X3) * w ≤ X2 * w := mul_le_mul_of_nonneg_right lo d1
      linarith
    rw [max_eq_left h2, zero_div, mul_zero, add_zero, one_mul]
    exact ⟨abs_le.2 ⟨by linarith, by linarith⟩, abs_le.2 ⟨by linarith, by linarith⟩⟩

theorem exchange_lip (h3 : 0 < X3) (lo : -(4 / 7 * X3) ≤ X2) (hi : X2 ≤ 4 / 10 * X3) (q0 : 0 ≤ q) (q1 : q ≤ X3) (r0 : 0 ≤ r) (r1 : r ≤ X3) :
    |Doc.exchangeGR4J X2 r X3 - Doc.exchangeGR4J X2 q X3| ≤ 2 * |r - q| ∧
    |(r + Doc.exchangeGR4J X2 r X3) - (q + Doc.exchangeGR4J X2 q X3)| ≤ growth X2 X3 * |r - q| := by
  rcases _root_.le_total q r with h | h
  · rw [abs_of_nonneg (sub_nonneg.2 h)]
    exact exchange_diff h3 lo hi q0 h r1
  · have := exchange_diff h3 lo hi r0 h q1
    rw [abs_sub_comm, abs_sub_comm (r + _), abs_sub_comm r, abs_of_nonneg (sub_nonneg.2 h)]
    exact this

end

/-! ## The unit hydrographs -/

/-- In total over the first days, two inputs of a unit hydrograph come out as different as they went in, at most. -/
theorem uhOut_lip {ord : List ℝ} (h : Spec.Partition ord) (f g : ℕ → ℝ) (n : ℕ) :
    ∑ s ∈ Finset.range n, |uhOut ord f s - uhOut ord g s| ≤ ∑ s ∈ Finset.range n, |f s - g s| := by
  have hw : ∀ j, 0 ≤ ord.getD j 0 := by
    intro j
    by_cases hj : j < ord.length
    · rw [List.getD_eq_getElem _ _ hj]; exact h.1 _ (List.getElem_mem hj)
    · rw [List.getD_eq_default _ _ (by omega)]
  set d : ℕ → ℝ := fun s => |f s - g s| with hd
  have hb := c27_balance ord d h.2 n
  have hn : 0 ≤ ((buffer ord d n).drop 1).sum := drop_one_sum_nonneg _ fun i => buffer_nonneg _ _ h.1 (fun u => abs_nonneg _) _ _
  have h1 : ∀ s, |uhOut ord f s - uhOut ord g s| ≤ uhOut ord d s := by
    intro s
    rw [c27_convolution, c27_convolution, c27_convolution, ← Finset.sum_sub_distrib]
    refine le_trans (Finset.abs_sum_le_sum_abs _ _) (Finset.sum_le_sum fun k _ => ?_)
    rw [← mul_sub, abs_mul, abs_of_nonneg (hw k)]
  refine le_trans (Finset.sum_le_sum fun s _ => h1 s) ?_
  linarith [hb]

end

end HB
