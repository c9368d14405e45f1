import Verif.Props.Shadow2
import Mathlib.Analysis.SpecialFunctions.Trigonometric.Deriv

/-! # C91: what the shadows are -/

set_option linter.unusedSectionVars false

namespace HB.Shadow

open HB.Spec.Shadow

noncomputable section

/-- The call with the functions of numpy. -/
def run (n m : ℕ) (dem masked : ℕ → ℕ → Option ℝ) (xSize ySize zenith az : ℝ) : Except Err (ℕ → ℕ → Option ℝ) :=
  castShadows Real.tan (Real.pi / 180) n m dem masked xSize ySize zenith az

/-- The call by day: the cells of the mask get the shadow. -/
theorem run_day {n m : ℕ} {dem masked : ℕ → ℕ → Option ℝ} {xSize ySize zenith az : ℝ} (hr : |xSize| = |ySize|) (hz : zenith < 90) :
    run n m dem masked xSize ySize zenith az = .ok fun r c => (masked r c).map fun _ =>
      if inShadow (rays n m az) (Real.tan ((rays n m az).deg * (Real.pi / 180))) (Real.tan (rad zenith)) |xSize| n m dem (r, c) then 1 else 0 := by
  unfold run castShadows
  rw [if_neg (not_not.2 hr), if_neg (not_le.2 hz), ← hr, show (|xSize| + |xSize|) / 2 = |xSize| by ring]
  rfl

theorem tan_pos {zenith : ℝ} (h0 : 0 < zenith) (h1 : zenith < 90) : 0 < Real.tan (rad zenith) := by
  have := Real.pi_pos
  apply Real.tan_pos_of_pos_of_lt_pi_div_two
  · unfold rad; positivity
  · have : zenith * (Real.pi / 180) < 90 * (Real.pi / 180) := mul_lt_mul_of_pos_right h1 (by positivity)
    unfold rad; linarith

theorem slant (D B u : ℝ) (hd : 1 ≤ D) (h1 : -1 < B - D * u) (h2 : B - D * u < 1) : 0 < D + B * u := by
  rcases le_total 0 u with hu | hu
  · nlinarith [mul_nonneg hu hu, mul_nonneg hu (by linarith : 0 ≤ B - D * u + 1), mul_nonneg (by linarith : 0 ≤ D - 1) (mul_nonneg hu hu), sq_nonneg (u - 1 / 2)]
  · nlinarith [mul_nonneg_of_nonpos_of_nonpos hu hu, mul_nonneg (neg_nonneg.2 hu) (by linarith : 0 ≤ 1 - (B - D * u)),
      mul_nonneg (by linarith : 0 ≤ D - 1) (mul_nonneg_of_nonpos_of_nonpos hu hu), sq_nonneg (u + 1 / 2)]

/-- On a ray, the cells with a smaller distance are nearer to the sun. -/
theorem nearer (R : Rays ℝ) (az : ℝ) (hF : Follows R az) (p q : ℕ × ℕ) (hr : R.ref q.1 q.2 < R.ref p.1 p.2)
    (hl : |rawRay R (Real.tan (R.deg * (Real.pi / 180))) p - rawRay R (Real.tan (R.deg * (Real.pi / 180))) q| < 1) :
    0 < away az p.1 p.2 - away az q.1 q.2 ∧ |aside az p.1 p.2 - aside az q.1 q.2| < 1 := by
  obtain ⟨e, k, l, he, hM, hall⟩ := hF
  obtain ⟨d1, s1⟩ := hall p.1 p.2
  obtain ⟨d2, s2⟩ := hall q.1 q.2
  have hb := big_le az
  constructor
  · have hpos : 0 < away az p.1 p.2 / big az - away az q.1 q.2 / big az := by
      have hd : (1 : ℝ) ≤ (R.ref p.1 p.2 : ℝ) - (R.ref q.1 q.2 : ℝ) := by
        have : (1 : ℤ) ≤ R.ref p.1 p.2 - R.ref q.1 q.2 := by omega
        exact_mod_cast this
      unfold rawRay at hl
      clear s1 s2 hall
      generalize Real.tan (R.deg * (Real.pi / 180)) = t at d1 d2 hl
      have hx : ∀ x : ℝ, x / t = x * t⁻¹ := fun x => div_eq_mul_inv x t
      simp only [hx] at d1 d2 hl
      generalize t⁻¹ = u at d1 d2 hl
      obtain ⟨l1, l2⟩ := abs_lt.1 hl
      have hdiff : away az p.1 p.2 / big az - away az q.1 q.2 / big az =
          ((R.ref p.1 p.2 : ℝ) - R.ref q.1 q.2) + ((R.base p.1 p.2 : ℝ) - R.base q.1 q.2) * u := by linarith
      rw [hdiff]
      obtain ⟨D, hDe⟩ : ∃ D : ℝ, D = (R.ref p.1 p.2 : ℝ) - R.ref q.1 q.2 := ⟨_, rfl⟩
      obtain ⟨B, hBe⟩ : ∃ B : ℝ, B = (R.base p.1 p.2 : ℝ) - R.base q.1 q.2 := ⟨_, rfl⟩
      rw [← hDe, ← hBe]
      rw [← hDe] at hd
      have g : (R.base p.1 p.2 : ℝ) - (R.ref p.1 p.2 : ℝ) * u - ((R.base q.1 q.2 : ℝ) - (R.ref q.1 q.2 : ℝ) * u) = B - D * u := by rw [hDe, hBe]; ring
      rw [g] at l1 l2
      exact slant D B u hd l1 l2
    rw [← sub_div] at hpos
    exact (div_pos_iff_of_pos_right hM).1 hpos
  · have e1 : rawRay R (Real.tan (R.deg * (Real.pi / 180))) p - rawRay R (Real.tan (R.deg * (Real.pi / 180))) q =
        e * (aside az p.1 p.2 - aside az q.1 q.2) / big az := by
      rw [show p = (p.1, p.2) from rfl, show q = (q.1, q.2) from rfl, s1, s2]; ring
    rw [e1, abs_div, abs_mul, abs_of_pos hM, div_lt_one hM] at hl
    have : |e| = 1 := by rcases he with rfl | rfl <;> simp
    rw [this, one_mul] at hl
    linarith

/-- **C91 (rays)**: a covered cell is marked when, on its ray to the sun, a cell nearer to the sun is higher by more than the line to the sun rises over the
distance between them, this distance being divided by the larger of sine and cosine of the azimuth. -/
theorem c91_rays (n m : ℕ) (dem masked : ℕ → ℕ → Option ℝ) (xSize ySize zenith az : ℝ) (hr : |xSize| = |ySize|) (hz0 : 0 < zenith) (hz : zenith < 90)
    (h1 : -180 ≤ az) (h2 : az ≤ 180) (out : ℕ → ℕ → Option ℝ) (ho : run n m dem masked xSize ySize zenith az = .ok out) (r c : ℕ) (hrn : r < n) (hcm : c < m)
    (hs : out r c = some 1) :
    masked r c ≠ none ∧ ∃ h, dem r c = some h ∧ ∃ r' < n, ∃ c' < m, ∃ h', dem r' c' = some h' ∧ 0 < away az r c - away az r' c' ∧
      |aside az r c - aside az r' c'| < 1 ∧
      (away az r c - away az r' c') / max |Real.sin (rad az)| |Real.cos (rad az)| * |xSize| / Real.tan (rad zenith) < h' - h := by
  rw [run_day hr hz] at ho
  cases ho
  simp only at hs
  obtain ⟨x, hx, hv⟩ := Option.map_eq_some_iff.1 hs
  refine ⟨by rw [hx]; simp, ?_⟩
  have hin : inShadow (rays n m az) (Real.tan ((rays n m az).deg * (Real.pi / 180))) (Real.tan (rad zenith)) |xSize| n m dem (r, c) = true := by
    by_contra hn
    rw [if_neg hn] at hv
    norm_num at hv
  have hp : (r, c) ∈ cells n m := (mem_cells n m _).2 ⟨hrn, hcm⟩
  rw [inShadow_iff _ _ _ _ _ _ _ (rays_apart n m az) _ hp] at hin
  obtain ⟨g, hg, q, hq, hray, href, g', hg', hlt⟩ := hin
  obtain ⟨h, hh, rfl⟩ := Option.map_eq_some_iff.1 hg
  obtain ⟨h', hh', rfl⟩ := Option.map_eq_some_iff.1 hg'
  have hF := follows n m az h1 h2
  have hq' := (mem_cells n m _).1 hq
  obtain ⟨n1, n2⟩ := nearer (rays n m az) az hF (r, c) q href (same_ray _ _ n m _ _ hp hq hray.symm)
  refine ⟨h, hh, q.1, hq'.1, q.2, hq'.2, h', hh', n1, n2, ?_⟩
  obtain ⟨e, k, l, he, hM, hall⟩ := hF
  have d1 := (hall r c).1
  have d2 := (hall q.1 q.2).1
  simp only at hlt
  rw [d1, d2] at hlt
  show (away az r c - away az q.1 q.2) / big az * |xSize| / Real.tan (rad zenith) < h' - h
  have e1 : (away az r c - away az q.1 q.2) / big az * |xSize| / Real.tan (rad zenith) =
      (away az r c / big az + k) * |xSize| / Real.tan (rad zenith) - (away az q.1 q.2 / big az + k) * |xSize| / Real.tan (rad zenith) := by ring
  rw [e1]
  linarith

/-- **C91 (no false shadows)**: when a cell is marked, some cell less than one pixel off its line to the sun, on the side of the sun, is higher than this
line. -/
theorem c91_sound (n m : ℕ) (dem masked : ℕ → ℕ → Option ℝ) (xSize ySize zenith az : ℝ) (hr : |xSize| = |ySize|) (hz0 : 0 < zenith) (hz : zenith < 90)
    (h1 : -180 ≤ az) (h2 : az ≤ 180) (out : ℕ → ℕ → Option ℝ) (ho : run n m dem masked xSize ySize zenith az = .ok out) (r c : ℕ) (hrn : r < n) (hcm : c < m)
    (hs : out r c = some 1) :
    ∃ h, dem r c = some h ∧ ∃ r' < n, ∃ c' < m, ∃ h', dem r' c' = some h' ∧ 0 < away az r c - away az r' c' ∧ |aside az r c - aside az r' c'| < 1 ∧
      (away az r c - away az r' c') * |xSize| / Real.tan (rad zenith) < h' - h := by
  obtain ⟨-, h, hh, r', hr', c', hc', h', hh', a, b, d⟩ := c91_rays n m dem masked xSize ySize zenith az hr hz0 hz h1 h2 out ho r c hrn hcm hs
  refine ⟨h, hh, r', hr', c', hc', h', hh', a, b, lt_of_le_of_lt ?_ d⟩
  obtain ⟨_, _, _, _, hM, _⟩ := follows n m az h1 h2
  have ht := tan_pos hz0 hz
  apply div_le_div_of_nonneg_right _ ht.le
  apply mul_le_mul_of_nonneg_right _ (abs_nonneg _)
  show _ ≤ _ / big az
  rw [le_div_iff₀ hM]
  nlinarith [big_le az]

/-- **C91 (highest cells)**: a cell as high as all others is in the sun; on flat terrain all are. -/
theorem c91_top (n m : ℕ) (dem masked : ℕ → ℕ → Option ℝ) (xSize ySize zenith az : ℝ) (hr : |xSize| = |ySize|) (hz0 : 0 < zenith) (hz : zenith < 90)
    (h1 : -180 ≤ az) (h2 : az ≤ 180) (out : ℕ → ℕ → Option ℝ) (ho : run n m dem masked xSize ySize zenith az = .ok out) (r c : ℕ) (hrn : r < n) (hcm : c < m)
    (h : ℝ) (hd : dem r c = some h) (htop : ∀ r' < n, ∀ c' < m, ∀ h', dem r' c' = some h' → h' ≤ h) (hmask : masked r c ≠ none) : out r c = some 0 := by
  by_cases hs : out r c = some 1
  · obtain ⟨g, hg, r', hr', c', hc', h', hh', a, -, d⟩ := c91_sound n m dem masked xSize ySize zenith az hr hz0 hz h1 h2 out ho r c hrn hcm hs
    rw [hd] at hg
    cases hg
    have := htop r' hr' c' hc' h' hh'
    have ht := tan_pos hz0 hz
    have : 0 ≤ (away az r c - away az r' c') * |xSize| / Real.tan (rad zenith) := by positivity
    linarith
  · rw [run_day hr hz] at ho
    cases ho
    simp only at hs ⊢
    obtain ⟨x, hx⟩ := Option.ne_none_iff_exists'.1 hmask
    rw [hx] at hs ⊢
    simp only [Option.map_some, Option.some.injEq] at hs ⊢
    split at hs
    · exact absurd rfl hs
    · rename_i hn; rw [if_neg hn]

/-- **C91 (lower sun)**: a cell in the shadow stays in the shadow when the sun is lower in the same direction. -/
theorem c91_lower_sun (n m : ℕ) (dem masked : ℕ → ℕ → Option ℝ) (xSize ySize z₁ z₂ az : ℝ) (hr : |xSize| = |ySize|) (hz0 : 0 < z₁) (hz12 : z₁ ≤ z₂) (hz : z₂ < 90)
    (h1 : -180 ≤ az) (h2 : az ≤ 180) (out₁ out₂ : ℕ → ℕ → Option ℝ) (ho₁ : run n m dem masked xSize ySize z₁ az = .ok out₁)
    (ho₂ : run n m dem masked xSize ySize z₂ az = .ok out₂) (r c : ℕ) (hrn : r < n) (hcm : c < m) (hs : out₁ r c = some 1) : out₂ r c = some 1 := by
  have ht1 := tan_pos hz0 (lt_of_le_of_lt hz12 hz)
  have ht2 := tan_pos (lt_of_lt_of_le hz0 hz12) hz
  have ht : Real.tan (rad z₁) ≤ Real.tan (rad z₂) := by
    have hpi := Real.pi_pos
    rcases eq_or_lt_of_le hz12 with e | e
    · rw [e]
    · refine (Real.tan_lt_tan_of_nonneg_of_lt_pi_div_two ?_ ?_ ?_).le
      · unfold rad; positivity
      · have : z₂ * (Real.pi / 180) < 90 * (Real.pi / 180) := mul_lt_mul_of_pos_right hz (by positivity)
        unfold rad; linarith
      · exact mul_lt_mul_of_pos_right e (by positivity)
  rw [run_day hr (lt_of_le_of_lt hz12 hz)] at ho₁
  rw [run_day hr hz] at ho₂
  cases ho₁
  cases ho₂
  simp only at hs ⊢
  obtain ⟨x, hx, hv⟩ := Option.map_eq_some_iff.1 hs
  rw [hx]
  simp only [Option.map_some, Option.some.injEq]
  have hp : (r, c) ∈ cells n m := (mem_cells n m _).2 ⟨hrn, hcm⟩
  have hin : inShadow (rays n m az) (Real.tan ((rays n m az).deg * (Real.pi / 180))) (Real.tan (rad z₁)) |xSize| n m dem (r, c) = true := by
    by_contra hn
    rw [if_neg hn] at hv
    norm_num at hv
  rw [if_pos]
  rw [inShadow_iff _ _ _ _ _ _ _ (rays_apart n m az) _ hp] at hin ⊢
  obtain ⟨g, hg, q, hq, hray, href, g', hg', hlt⟩ := hin
  obtain ⟨h, hh, rfl⟩ := Option.map_eq_some_iff.1 hg
  obtain ⟨h', hh', rfl⟩ := Option.map_eq_some_iff.1 hg'
  refine ⟨_, Option.map_eq_some_iff.2 ⟨h, hh, rfl⟩, q, hq, hray, href, _, Option.map_eq_some_iff.2 ⟨h', hh', rfl⟩, ?_⟩
  have hF := follows n m az h1 h2
  obtain ⟨n1, -⟩ := nearer (rays n m az) az hF (r, c) q href (same_ray _ _ n m _ _ hp hq hray.symm)
  obtain ⟨e, k, l, he, hM, hall⟩ := hF
  have d1 := (hall r c).1
  have d2 := (hall q.1 q.2).1
  simp only at hlt ⊢
  rw [d1, d2] at hlt ⊢
  have e1 : ∀ T : ℝ, (away az r c / big az + k) * |xSize| / T - (away az q.1 q.2 / big az + k) * |xSize| / T = (away az r c - away az q.1 q.2) / big az * |xSize| / T := by
    intro T; ring
  have hle : (away az r c - away az q.1 q.2) / big az * |xSize| / Real.tan (rad z₂) ≤ (away az r c - away az q.1 q.2) / big az * |xSize| / Real.tan (rad z₁) := by
    apply div_le_div_of_nonneg_left _ ht1 ht
    have : 0 < away az r c - away az q.1 q.2 := n1
    positivity
  have a1 := e1 (Real.tan (rad z₁))
  have a2 := e1 (Real.tan (rad z₂))
  linarith

/-- **C91 (night, mask, resolution)**: pixels that are not square are refused; otherwise exactly the cells outside of the mask have no value; by night all others
are in the shadow. -/
theorem c91_mask (n m : ℕ) (dem masked : ℕ → ℕ → Option ℝ) (xSize ySize zenith az : ℝ) :
    ((∃ out, run n m dem masked xSize ySize zenith az = .ok out) ↔ |xSize| = |ySize|) ∧
      ∀ out, run n m dem masked xSize ySize zenith az = .ok out → ∀ r c, (out r c = none ↔ masked r c = none) ∧
        (90 ≤ zenith → masked r c ≠ none → out r c = some 1) ∧ (out r c = none ∨ out r c = some 0 ∨ out r c = some 1) := by
  unfold run castShadows
  by_cases hr : |xSize| = |ySize|
  · rw [if_neg (not_not.2 hr)]
    by_cases hz : 90 ≤ zenith
    · rw [if_pos hz]
      refine ⟨⟨fun _ => hr, fun _ => ⟨_, rfl⟩⟩, ?_⟩
      intro out ho r c
      cases ho
      simp only
      generalize masked r c = x
      cases x <;> simp
    · rw [if_neg hz]
      refine ⟨⟨fun _ => hr, fun _ => ⟨_, rfl⟩⟩, ?_⟩
      intro out ho r c
      cases ho
      refine ⟨by simp, fun h => absurd h hz, ?_⟩
      simp only
      generalize masked r c = x
      cases x with
      | none => left; rfl
      | some x =>
        right
        simp only [Option.map_some, Option.some.injEq]
        split
        · right; rfl
        · left; rfl
  · rw [if_pos hr]
    refine ⟨⟨fun ⟨_, h⟩ => (by cases h), fun h => absurd h hr⟩, ?_⟩
    intro out ho
    cases ho

end

end HB.Shadow
