import Verif.Props.Shadow3

/-! # C91: the four directions, and the diagonal -/

set_option linter.unusedSectionVars false

namespace HB.Shadow

open HB.Spec.Shadow

noncomputable section

theorem rad_0 : rad 0 = 0 := by unfold rad; ring
theorem rad_90 : rad 90 = Real.pi / 2 := by unfold rad; ring
theorem rad_neg90 : rad (-90) = -(Real.pi / 2) := by unfold rad; ring
theorem rad_180 : rad 180 = Real.pi := by unfold rad; ring
theorem rad_45 : rad 45 = Real.pi / 4 := by unfold rad; ring

/-- The sun in the south, west, east or north: distances are numbers of rows or columns. -/
theorem cardinal (az : ℝ) (h : az = 0 ∨ az = 90 ∨ az = -90 ∨ az = 180) :
    big az = 1 ∧ ∀ r c : ℕ, ∃ z : ℤ, aside az r c = z := by
  rcases h with rfl | rfl | rfl | rfl
  · unfold big aside
    rw [rad_0]
    exact ⟨by simp, fun r c => ⟨c, by simp⟩⟩
  · unfold big aside
    rw [rad_90]
    exact ⟨by simp, fun r c => ⟨r, by simp⟩⟩
  · unfold big aside
    rw [rad_neg90]
    exact ⟨by simp, fun r c => ⟨-r, by simp⟩⟩
  · unfold big aside
    rw [rad_180]
    exact ⟨by simp, fun r c => ⟨-c, by simp⟩⟩

/-- **C91 (exact in the four directions)**: with the sun in the south, west, east or north, a covered cell is marked exactly when a cell on its line to the sun is
higher than the line. -/
theorem c91_cardinal (n m : ℕ) (dem masked : ℕ → ℕ → Option ℝ) (xSize ySize zenith az : ℝ) (hr : |xSize| = |ySize|) (hz0 : 0 < zenith) (hz : zenith < 90)
    (haz : az = 0 ∨ az = 90 ∨ az = -90 ∨ az = 180) (out : ℕ → ℕ → Option ℝ) (ho : run n m dem masked xSize ySize zenith az = .ok out) (r c : ℕ) (hrn : r < n)
    (hcm : c < m) (hmask : masked r c ≠ none) :
    out r c = some 1 ↔ ∃ h, dem r c = some h ∧ ∃ r' < n, ∃ c' < m, ∃ h', dem r' c' = some h' ∧ 0 < away az r c - away az r' c' ∧ aside az r c = aside az r' c' ∧
      (away az r c - away az r' c') * |xSize| / Real.tan (rad zenith) < h' - h := by
  obtain ⟨hb, hint⟩ := cardinal az haz
  have h1 : -180 ≤ az := by rcases haz with rfl | rfl | rfl | rfl <;> norm_num
  have h2 : az ≤ 180 := by rcases haz with rfl | rfl | rfl | rfl <;> norm_num
  constructor
  · intro hs
    obtain ⟨-, h, hh, r', hr', c', hc', h', hh', a, b, d⟩ := c91_rays n m dem masked xSize ySize zenith az hr hz0 hz h1 h2 out ho r c hrn hcm hs
    refine ⟨h, hh, r', hr', c', hc', h', hh', a, ?_, ?_⟩
    · obtain ⟨z, hz⟩ := hint r c
      obtain ⟨z', hz'⟩ := hint r' c'
      rw [hz, hz'] at b ⊢
      have : |z - z'| < 1 := by exact_mod_cast b
      have := Int.abs_lt_one_iff.1 this
      have : z = z' := by omega
      rw [this]
    · change _ / big az * _ / _ < _ at d
      rwa [hb, div_one] at d
  · rintro ⟨h, hh, r', hr', c', hc', h', hh', a, b, d⟩
    rw [run_day hr hz] at ho
    cases ho
    obtain ⟨x, hx⟩ := Option.ne_none_iff_exists'.1 hmask
    simp only
    rw [hx]
    simp only [Option.map_some, Option.some.injEq]
    have hp : (r, c) ∈ cells n m := (mem_cells n m _).2 ⟨hrn, hcm⟩
    have hq : (r', c') ∈ cells n m := (mem_cells n m _).2 ⟨hr', hc'⟩
    rw [if_pos]
    rw [inShadow_iff _ _ _ _ _ _ _ (rays_apart n m az) _ hp]
    obtain ⟨e, k, l, he, hM, hall⟩ := follows n m az h1 h2
    obtain ⟨d1, s1⟩ := hall r c
    obtain ⟨d2, s2⟩ := hall r' c'
    have hraw : rawRay (rays n m az) (Real.tan ((rays n m az).deg * (Real.pi / 180))) (r', c') = rawRay (rays n m az) (Real.tan ((rays n m az).deg * (Real.pi / 180))) (r, c) := by
      rw [s1, s2, b]
    refine ⟨_, Option.map_eq_some_iff.2 ⟨h, hh, rfl⟩, (r', c'), hq, ?_, ?_, _, Option.map_eq_some_iff.2 ⟨h', hh', rfl⟩, ?_⟩
    · unfold rayId
      rw [hraw]
    · unfold rawRay at hraw
      simp only at hraw ⊢
      clear s1 s2 hall
      generalize Real.tan ((rays n m az).deg * (Real.pi / 180)) = t at d1 d2 hraw
      have hx : ∀ x : ℝ, x / t = x * t⁻¹ := fun x => div_eq_mul_inv x t
      simp only [hx] at d1 d2 hraw
      generalize t⁻¹ = u at d1 d2 hraw
      rw [hb, div_one] at d1 d2
      have hreal : ((rays n m az).ref r' c' : ℝ) < ((rays n m az).ref r c : ℝ) := by
        have hB : ((rays n m az).base r c : ℝ) - ((rays n m az).base r' c' : ℝ) = (((rays n m az).ref r c : ℝ) - ((rays n m az).ref r' c' : ℝ)) * u := by linarith
        have hA : away az r c - away az r' c' = (((rays n m az).ref r c : ℝ) - ((rays n m az).ref r' c' : ℝ)) * (1 + u * u) := by
          have : away az r c - away az r' c' = ((rays n m az).ref r c : ℝ) - ((rays n m az).ref r' c' : ℝ) + (((rays n m az).base r c : ℝ) - ((rays n m az).base r' c' : ℝ)) * u := by
            linarith
          rw [this, hB]; ring
        rw [hA] at a
        have hu : 0 < 1 + u * u := by nlinarith [mul_self_nonneg u]
        have := (pos_iff_pos_of_mul_pos a).2 hu
        linarith
      exact_mod_cast hreal
    · simp only
      rw [d1, d2, hb, div_one, div_one]
      have e1 : (away az r c + k) * |xSize| / Real.tan (rad zenith) - (away az r' c' + k) * |xSize| / Real.tan (rad zenith) =
          (away az r c - away az r' c') * |xSize| / Real.tan (rad zenith) := by ring
      linarith

/-! ## Examples -/

/-- Two by two cells, flat but for one at the south-west. -/
def corner (x : ℝ) : ℕ → ℕ → Option ℝ := fun r c => some (if r = 1 ∧ c = 0 then x else 0)

def whole : ℕ → ℕ → Option ℝ := fun _ _ => some 1

theorem tan_45 : Real.tan (rad 45) = 1 := by rw [rad_45, Real.tan_pi_div_four]

/-- A case meeting the hypotheses: with the sun in the south at 45 degrees, a cell higher by 12 m casts a shadow on the next one, 10 m away. -/
theorem c91_example : ∃ out, run 2 2 (corner 12) whole 10 (-10) 45 0 = .ok out ∧ out 0 0 = some 1 ∧ out 0 1 = some 0 := by
  refine ⟨_, run_day (by norm_num) (by norm_num), ?_, ?_⟩
  · refine (c91_cardinal 2 2 (corner 12) whole 10 (-10) 45 0 (by norm_num) (by norm_num) (by norm_num) (Or.inl rfl) _ (run_day (by norm_num) (by norm_num)) 0 0
      (by norm_num) (by norm_num) (by simp [whole])).2 ?_
    refine ⟨0, by simp [corner], 1, by norm_num, 0, by norm_num, 12, by simp [corner], ?_, ?_, ?_⟩
    · simp [away, rad_0]
    · simp [aside, rad_0]
    · rw [tan_45]
      simp [away, rad_0]
      norm_num
  · have hrun := run_day (n := 2) (m := 2) (dem := corner 12) (masked := whole) (xSize := 10) (ySize := -10) (zenith := 45) (az := 0) (by norm_num) (by norm_num)
    rcases (c91_mask 2 2 (corner 12) whole 10 (-10) 45 0).2 _ hrun 0 1 with ⟨h1, -, h2 | h2 | h2⟩
    · exact absurd (h1.1 h2) (by simp [whole])
    · exact h2
    · exfalso
      obtain ⟨h, hh, r', hr', c', hc', h', hh', a, b, d⟩ := (c91_cardinal 2 2 (corner 12) whole 10 (-10) 45 0 (by norm_num) (by norm_num) (by norm_num) (Or.inl rfl) _ hrun 0 1
        (by norm_num) (by norm_num) (by simp [whole])).1 h2
      have hc1 : c' = 1 := by
        have : ((1 : ℕ) : ℝ) = (c' : ℝ) := by simpa [aside, rad_0] using b
        exact_mod_cast this.symm
      subst hc1
      simp [corner] at hh hh'
      subst hh hh'
      rw [tan_45] at d
      have : 0 ≤ (away 0 0 1 - away 0 r' 1) * |(10 : ℝ)| / 1 := by positivity
      linarith

/-- **C91 (not in general: directions between)**: with the sun in the south-west at 45 degrees, a cell higher by 17 m does not cast a shadow on the next one on the
diagonal, 14.1 m away: the distance is taken as 20 m. -/
theorem c91_diagonal : ∃ out, run 2 2 (corner 17) whole 10 (-10) 45 45 = .ok out ∧ out 0 1 = some 0 ∧ aside 45 0 1 = aside 45 1 0 ∧
    0 < away 45 0 1 - away 45 1 0 ∧ (away 45 0 1 - away 45 1 0) * |(10 : ℝ)| / Real.tan (rad 45) < 17 - 0 := by
  have hs2 : Real.sqrt 2 < 3 / 2 := by
    rw [show (3 / 2 : ℝ) = Real.sqrt ((3 / 2) ^ 2) by rw [Real.sqrt_sq (by norm_num)]]
    exact Real.sqrt_lt_sqrt (by norm_num) (by norm_num)
  have hs0 : 0 < Real.sqrt 2 := Real.sqrt_pos.2 (by norm_num)
  have hrun := run_day (n := 2) (m := 2) (dem := corner 17) (masked := whole) (xSize := 10) (ySize := -10) (zenith := 45) (az := 45) (by norm_num) (by norm_num)
  refine ⟨_, hrun, ?_, ?_, ?_, ?_⟩
  · rcases (c91_mask 2 2 (corner 17) whole 10 (-10) 45 45).2 _ hrun 0 1 with ⟨h1, -, h2 | h2 | h2⟩
    · exact absurd (h1.1 h2) (by simp [whole])
    · exact h2
    · exfalso
      obtain ⟨-, h, hh, r', hr', c', hc', h', hh', a, b, d⟩ := c91_rays 2 2 (corner 17) whole 10 (-10) 45 45 (by norm_num) (by norm_num) (by norm_num) (by norm_num) (by norm_num)
        _ hrun 0 1 (by norm_num) (by norm_num) h2
      simp [corner] at hh
      subst hh
      rw [tan_45] at d
      by_cases hq : r' = 1 ∧ c' = 0
      · obtain ⟨rfl, rfl⟩ := hq
        simp [corner] at hh'
        subst hh'
        simp only [away, rad_45, Real.cos_pi_div_four, Real.sin_pi_div_four] at d
        rw [max_self, abs_of_pos (by positivity : 0 < Real.sqrt 2 / 2)] at d
        have e : (((1 : ℕ) : ℝ) * (Real.sqrt 2 / 2) - ((0 : ℕ) : ℝ) * (Real.sqrt 2 / 2) - (((0 : ℕ) : ℝ) * (Real.sqrt 2 / 2) - ((1 : ℕ) : ℝ) * (Real.sqrt 2 / 2))) / (Real.sqrt 2 / 2) = 2 := by
          push_cast
          field_simp
          ring
        rw [e, abs_of_pos (by norm_num : (0 : ℝ) < 10)] at d
        norm_num at d
      · unfold corner at hh'
        rw [if_neg hq] at hh'
        cases hh'
        have : 0 ≤ (away 45 0 1 - away 45 r' c') / max |Real.sin (rad 45)| |Real.cos (rad 45)| * |(10 : ℝ)| / 1 := by positivity
        linarith
  · simp [aside, rad_45]
  · simp [away, rad_45]
  · rw [tan_45]
    simp only [away, rad_45, Real.cos_pi_div_four, Real.sin_pi_div_four]
    rw [abs_of_pos (by norm_num : (0 : ℝ) < 10)]
    push_cast
    linarith

end

end HB.Shadow
