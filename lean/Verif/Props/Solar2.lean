import Verif.Props.Solar

/-! # C92: the radiation at one instant -/

set_option linter.unusedSectionVars false

namespace HB.Solar

open Real

/-- The cosine of the code is the product of the two directions. -/
theorem cosTerm_eq (z a slope aspect : ℝ) :
    cosTerm z a slope aspect = (Spec.Solar.direction z a).dot (Spec.Solar.normal slope aspect) := by
  unfold cosTerm
  have e : (aspect - 180) * toRad = Spec.Solar.deg aspect - Real.pi := by unfold toRad Spec.Solar.deg; ring
  rw [e, deg_toRad, deg_toRad, deg_toRad, Real.cos_sub, Real.cos_sub_pi, Real.sin_sub_pi]
  simp only [Spec.Solar.direction, Spec.Solar.normal, Spec.Solar.Dir.dot]
  ring

theorem dot_le_one (z a slope aspect : ℝ) : |(Spec.Solar.direction z a).dot (Spec.Solar.normal slope aspect)| ≤ 1 := by
  rw [← cosTerm_eq]
  unfold cosTerm
  generalize z * toRad = x; generalize slope * toRad = y; generalize a * toRad - (aspect - 180) * toRad = u
  have h1 := sin_sq_add_cos_sq x
  have h2 := sin_sq_add_cos_sq y
  have h3 := Real.cos_sq_le_one u
  have hsq : (sin y * cos u) ^ 2 ≤ sin y ^ 2 := by rw [mul_pow]; nlinarith [sq_nonneg (sin y)]
  rw [abs_le]
  constructor
  · nlinarith [sq_nonneg (cos x + cos y), sq_nonneg (sin x + sin y * cos u)]
  · nlinarith [sq_nonneg (cos x - cos y), sq_nonneg (sin x - sin y * cos u)]

theorem capped_cos {c : ℝ} (h : |c| ≤ 1) : cos (capped (clipped c)) = max 0 c ∧ 0 ≤ capped (clipped c) ∧ capped (clipped c) ≤ Real.pi / 2 := by
  rw [abs_le] at h
  have hc : max (-1) (min c 1) = c := by rw [min_eq_left h.2, max_eq_right h.1]
  have h90 : (90 : ℝ) * toRad = Real.pi / 2 := by unfold toRad; ring
  unfold capped clipped
  rw [hc, h90]
  have hp := Real.pi_pos
  by_cases h' : Real.pi / 2 < arccos c
  · rw [if_pos h', Real.cos_pi_div_two]
    have : c ≤ 0 := by
      by_contra hn
      have := Real.arccos_le_pi_div_two.mpr (le_of_lt (not_le.mp hn))
      linarith
    exact ⟨(max_eq_left this).symm, by linarith, le_refl _⟩
  · rw [if_neg h', Real.cos_arccos h.1 h.2]
    push Not at h'
    exact ⟨(max_eq_right (Real.arccos_le_pi_div_two.mp h')).symm, Real.arccos_nonneg _, h'⟩

/-- **The angle of incidence** never fails as long as one cell has a slope, whatever the four angles, is between 0 and 90 degrees, and its cosine is the product of the
direction of the sun and of the normal of the ground, or zero when the sun is behind the ground. -/
theorem c92_incidence {ι : Type} (z a : ℝ) (cell : ι → Option (ℝ × ℝ)) (h : ∃ i s, cell i = some s) :
    ∃ inc, incidence z (some a) cell = .ok inc ∧ ∀ i,
      (cell i = none → inc i = none) ∧
      ∀ slope aspect, cell i = some (slope, aspect) → ∃ t, inc i = some t ∧ 0 ≤ t ∧ t ≤ Real.pi / 2 ∧
        cos t = max 0 ((Spec.Solar.direction z a).dot (Spec.Solar.normal slope aspect)) := by
  have hw : within (10 ^ (-6 : ℤ)) (cosTerms z (some a) cell) := by
    refine ⟨?_, ?_⟩
    · obtain ⟨i, s, hi⟩ := h
      exact ⟨i, cosTerm z a s.1 s.2, by simp [cosTerms, hi]⟩
    · intro i c hi
      unfold cosTerms at hi
      simp only [Option.bind_some, Option.map_eq_some_iff] at hi
      obtain ⟨s, _, rfl⟩ := hi
      have := dot_le_one z a s.1 s.2
      rw [← cosTerm_eq] at this
      have : (0:ℝ) < 10 ^ (-6 : ℤ) := by positivity
      linarith
  refine ⟨_, by unfold incidence; rw [if_pos hw], fun i => ⟨fun hi => by simp [cosTerms, hi], fun slope aspect hi => ?_⟩⟩
  have h1 := dot_le_one z a slope aspect
  rw [← cosTerm_eq] at h1
  obtain ⟨p1, p2, p3⟩ := capped_cos h1
  exact ⟨capped (clipped (cosTerm z a slope aspect)), by simp [cosTerms, hi], p2, p3, by rw [p1, cosTerm_eq]⟩

/-- Without any slope, it fails. -/
theorem c92_incidence_empty {ι : Type} (z : ℝ) (az : Option ℝ) (cell : ι → Option (ℝ × ℝ)) (h : ∀ i, cell i = none) :
    incidence z az cell = .error .incidence := by
  unfold incidence
  rw [if_neg]
  rintro ⟨⟨i, c, hi⟩, _⟩
  unfold cosTerms at hi
  rw [h i] at hi
  cases az <;> simp at hi

theorem closeness_eq (day : ℤ) : (axis / distance day) ^ 2 = Spec.Solar.closeness day := by
  have e : 360 / 365.5 * (day : ℝ) * toRad = 2 * Real.pi * (day : ℝ) / 365.5 := by unfold toRad; field_simp; ring
  unfold distance Spec.Solar.closeness
  rw [e]
  generalize 2 * Real.pi * (day : ℝ) / 365.5 = x
  have hc := Real.neg_one_le_cos x
  have hd : 1 + 0.017 * cos x ≠ 0 := by
    have : 0 < 1 + 0.017 * cos x := by nlinarith
    exact this.ne'
  unfold axis ecc
  congr 1
  field_simp

theorem pressure_eq (elev : ℝ) : pressure elev = seaPressure * Spec.Solar.air elev := by
  unfold pressure Spec.Solar.air
  congr 2
  · unfold lapse seaTemp seaHeight; ring
  · unfold gravity molar rGas lapse; norm_num

/-- The factor of the incidence in the code's equation, by the zenith. -/
theorem hock_eq (elev trans : ℝ) (day : ℤ) (z inc : ℝ) (h : z ≤ 90 - 10 ^ (-10 : ℤ)) :
    hock elev trans day z inc = 1368 * Spec.Solar.closeness day * trans ^ (Spec.Solar.air elev / cos (Spec.Solar.deg z)) * cos inc := by
  unfold hock
  rw [if_neg (by linarith), closeness_eq, pressure_eq, deg_toRad]
  have : seaPressure ≠ 0 := by unfold seaPressure; norm_num
  have e : seaPressure * Spec.Solar.air elev / (seaPressure * cos (Spec.Solar.deg z)) = Spec.Solar.air elev / cos (Spec.Solar.deg z) := by
    rw [mul_div_mul_left _ _ this]
  rw [e]; rfl

/-- Being above the horizon by more than 1e-10 degrees, by the zenith and by the direction. -/
theorem lit_iff {u : ℝ} (h1 : -1 ≤ u) (h2 : u ≤ 1) :
    arccos u * toDeg ≤ 90 - 10 ^ (-10 : ℤ) ↔ sin (Spec.Solar.deg (1 / 10 ^ 10)) ≤ u := by
  have hp := Real.pi_pos
  have e : sin (Spec.Solar.deg (1 / 10 ^ 10)) = cos (Spec.Solar.deg (90 - 1 / 10 ^ 10)) := by
    rw [← Real.cos_pi_div_two_sub]; congr 1; unfold Spec.Solar.deg; ring
  have e2 : (10 : ℝ) ^ (-10 : ℤ) = 1 / 10 ^ 10 := by norm_num
  rw [e, e2]
  have e3 : arccos u * toDeg ≤ 90 - 1 / 10 ^ 10 ↔ arccos u ≤ Spec.Solar.deg (90 - 1 / 10 ^ 10) := by
    unfold toDeg Spec.Solar.deg
    rw [mul_div_assoc', div_le_iff₀ hp, le_div_iff₀ (by norm_num)]
  rw [e3]
  have m1 : arccos u ∈ Set.Icc 0 Real.pi := ⟨Real.arccos_nonneg _, Real.arccos_le_pi _⟩
  have m2 : Spec.Solar.deg (90 - 1 / 10 ^ 10) ∈ Set.Icc 0 Real.pi := by
    unfold Spec.Solar.deg
    constructor
    · have : (0:ℝ) ≤ 90 - 1 / 10 ^ 10 := by norm_num
      positivity
    · rw [div_le_iff₀ (by norm_num)]; nlinarith
  rw [← Real.strictAntiOn_cos.le_iff_ge m2 m1, Real.cos_arccos h1 h2]

theorem dark {u : ℝ} (h : u ≤ 0) : ¬ sin (Spec.Solar.deg (1 / 10 ^ 10)) ≤ u := by
  have hp := Real.pi_pos
  have : 0 < sin (Spec.Solar.deg (1 / 10 ^ 10)) := by
    refine Real.sin_pos_of_pos_of_lt_pi (by unfold Spec.Solar.deg; positivity) ?_
    unfold Spec.Solar.deg; nlinarith
  linarith

/-- **The radiation at one instant**: when the sun's position is told right, the code's radiation in a cell is that of the sun's direction on the cell's ground, save the
share in the cast shade. -/
theorem c92_instant {ι : Type} (I : Inputs ι) (day : ℤ) (ha : ℝ) (hc : ∃ i s, I.cell i = some s) (hl : |I.lat| < Real.pi / 2) (h1 : -Real.pi < ha) (h2 : ha < Real.pi)
    (hn : ha ≠ 0 ∨ declination day < I.lat) :
    ∃ f z a, instant I day ha = .ok f ∧ 0 ≤ z ∧ z ≤ 180 ∧ -180 < a ∧ a < 180 ∧ Spec.Solar.direction z a = Spec.Solar.sun I.lat (declination day) ha ∧
      ∀ i, (I.cell i = none → (f i).getD 0 = 0) ∧ ∀ slope aspect, I.cell i = some (slope, aspect) →
        (f i).getD 0 = Spec.Solar.radiation I.elev I.trans day (Spec.Solar.sun I.lat (declination day) ha) (Spec.Solar.normal slope aspect) * (1 - I.shade z a i) := by
  have hd : |declination day| < Real.pi / 2 := by
    refine lt_of_le_of_lt (c92_declination day).2.1 ?_
    unfold Spec.Solar.deg; nlinarith [Real.pi_pos]
  obtain ⟨z, a, hz, ha', z0, z1, a0, a1, hdir, _⟩ := c92_sun I.lat (declination day) ha hd h1 h2 hn hl
  have hr := up_range I.lat (declination day) ha
  have hz' := hz
  rw [zenith_eq, Option.some.injEq] at hz'
  unfold instant
  rw [hz]
  have hlit := lit_iff hr.1 hr.2
  rw [hz'] at hlit
  by_cases h90 : 90 ≤ z
  · refine ⟨fun _ => some 0, z, a, by simp only [if_pos h90], z0, z1, a0, a1, hdir, fun i => ⟨fun _ => rfl, fun slope aspect _ => ?_⟩⟩
    have : ¬ sin (Spec.Solar.deg (1 / 10 ^ 10)) ≤ (Spec.Solar.sun I.lat (declination day) ha).up := by
      rw [← hlit]
      have : (0:ℝ) < 10 ^ (-10 : ℤ) := by positivity
      linarith
    unfold Spec.Solar.radiation
    rw [if_neg this]; simp
  · obtain ⟨inc, hinc, hi⟩ := c92_incidence z a I.cell hc
    refine ⟨_, z, a, by simp only [if_neg h90, ha', hinc]; rfl, z0, z1, a0, a1, hdir, fun i => ⟨fun hi0 => ?_, fun slope aspect hs => ?_⟩⟩
    · rw [(hi i).1 hi0]; rfl
    · obtain ⟨t, ht, _, _, hcos⟩ := (hi i).2 slope aspect hs
      rw [ht]
      simp only [Option.map_some, Option.getD_some]
      congr 1
      unfold Spec.Solar.radiation
      by_cases hl' : z ≤ 90 - 10 ^ (-10 : ℤ)
      · rw [if_pos (hlit.mp hl'), hock_eq _ _ _ _ _ hl', hcos, ← hdir]; rfl
      · rw [if_neg (fun h => hl' (hlit.mpr h))]
        unfold hock; rw [if_pos (by linarith)]

/-- The spec's radiation is never negative, and never above the solar constant at the least distance. -/
theorem c92_radiation_range (elev trans : ℝ) (day : ℤ) (z a slope aspect : ℝ) (h0 : 0 < trans) (h1 : trans ≤ 1) (he : elev ≤ 44000) :
    0 ≤ Spec.Solar.radiation elev trans day (Spec.Solar.direction z a) (Spec.Solar.normal slope aspect) ∧
    Spec.Solar.radiation elev trans day (Spec.Solar.direction z a) (Spec.Solar.normal slope aspect) ≤ 1368 / (1 - 0.017) ^ 2 := by
  have hcl : 0 ≤ Spec.Solar.closeness day ∧ Spec.Solar.closeness day ≤ 1 / (1 - 0.017) ^ 2 := by
    unfold Spec.Solar.closeness
    have c1 := Real.neg_one_le_cos (2 * Real.pi * (day : ℝ) / 365.5)
    have c2 := Real.cos_le_one (2 * Real.pi * (day : ℝ) / 365.5)
    generalize cos (2 * Real.pi * (day : ℝ) / 365.5) = c at c1 c2
    refine ⟨sq_nonneg _, ?_⟩
    have e : (1 : ℝ) / (1 - 0.017) ^ 2 = ((1 + 0.017 * 1) / (1 - 0.017 ^ 2)) ^ 2 := by norm_num
    rw [e]
    refine pow_le_pow_left₀ (div_nonneg (by nlinarith) (by norm_num)) ?_ 2
    rw [div_le_div_iff_of_pos_right (by norm_num)]
    nlinarith
  have hd := abs_le.mp (dot_le_one z a slope aspect)
  unfold Spec.Solar.radiation
  have hpos : (0:ℝ) ≤ 1368 / (1 - 0.017) ^ 2 := by norm_num
  by_cases hl : sin (Spec.Solar.deg (1 / 10 ^ 10)) ≤ (Spec.Solar.direction z a).up
  · rw [if_pos hl]
    have hup : 0 ≤ (Spec.Solar.direction z a).up := by
      by_contra hn
      exact dark (le_of_lt (not_le.mp hn)) hl
    have hair : 0 ≤ Spec.Solar.air elev := by
      unfold Spec.Solar.air
      refine Real.rpow_nonneg ?_ _
      have : 0.0065 * elev / 288 ≤ 1 := by rw [div_le_one (by norm_num)]; linarith
      linarith
    have ht0 : 0 ≤ trans ^ (Spec.Solar.air elev / (Spec.Solar.direction z a).up) := Real.rpow_nonneg h0.le _
    have ht1 : trans ^ (Spec.Solar.air elev / (Spec.Solar.direction z a).up) ≤ 1 := Real.rpow_le_one h0.le h1 (div_nonneg hair hup)
    have hm0 : 0 ≤ max 0 ((Spec.Solar.direction z a).dot (Spec.Solar.normal slope aspect)) := le_max_left _ _
    have hm1 : max 0 ((Spec.Solar.direction z a).dot (Spec.Solar.normal slope aspect)) ≤ 1 := max_le (by norm_num) hd.2
    refine ⟨mul_nonneg (mul_nonneg (mul_nonneg (by norm_num) hcl.1) ht0) hm0, ?_⟩
    calc 1368 * Spec.Solar.closeness day * trans ^ (Spec.Solar.air elev / (Spec.Solar.direction z a).up) * max 0 ((Spec.Solar.direction z a).dot (Spec.Solar.normal slope aspect))
        ≤ 1368 * Spec.Solar.closeness day * trans ^ (Spec.Solar.air elev / (Spec.Solar.direction z a).up) * 1 :=
          mul_le_mul_of_nonneg_left hm1 (mul_nonneg (mul_nonneg (by norm_num) hcl.1) ht0)
      _ ≤ 1368 * Spec.Solar.closeness day * 1 * 1 := by
          refine mul_le_mul_of_nonneg_right (mul_le_mul_of_nonneg_left ht1 (mul_nonneg (by norm_num) hcl.1)) (by norm_num)
      _ ≤ 1368 / (1 - 0.017) ^ 2 := by
          have := hcl.2
          have e : (1368 : ℝ) / (1 - 0.017) ^ 2 = 1368 * (1 / (1 - 0.017) ^ 2) := by ring
          rw [e]; linarith
  · rw [if_neg hl]; exact ⟨le_refl _, hpos⟩

end HB.Solar
