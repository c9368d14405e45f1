import Verif.Model.Solar
import Verif.Spec.Solar
import Mathlib.Tactic.Linarith
import Mathlib.Tactic.Ring
import Mathlib.Tactic.FieldSimp
import Mathlib.Tactic.Positivity
import Mathlib.Tactic.NormNum

/-! # C92: where the sun stands -/

set_option linter.unusedSectionVars false

namespace HB.Solar

open Real

theorem pi_ne : (Real.pi : ℝ) ≠ 0 := Real.pi_pos.ne'

theorem deg_toRad (x : ℝ) : x * toRad = Spec.Solar.deg x := by unfold toRad Spec.Solar.deg; ring

theorem toDeg_toRad (x : ℝ) : x * toDeg * toRad = x := by
  unfold toDeg toRad; field_simp

/-- The direction of the sun is a unit vector. -/
theorem sun_unit (lat decl ha : ℝ) :
    (Spec.Solar.sun lat decl ha).south ^ 2 + (Spec.Solar.sun lat decl ha).west ^ 2 + (Spec.Solar.sun lat decl ha).up ^ 2 = 1 := by
  simp only [Spec.Solar.sun]
  have h1 := sin_sq_add_cos_sq lat
  have h2 := sin_sq_add_cos_sq decl
  have h3 := sin_sq_add_cos_sq ha
  have : (cos decl * cos ha * sin lat - sin decl * cos lat) ^ 2 + (cos decl * sin ha) ^ 2 + (cos decl * cos ha * cos lat + sin decl * sin lat) ^ 2
      = (cos decl ^ 2 * cos ha ^ 2) * (sin lat ^ 2 + cos lat ^ 2) + sin decl ^ 2 * (sin lat ^ 2 + cos lat ^ 2) + cos decl ^ 2 * sin ha ^ 2 := by ring
  rw [this, h1]
  have : cos decl ^ 2 * cos ha ^ 2 * 1 + sin decl ^ 2 * 1 + cos decl ^ 2 * sin ha ^ 2 = cos decl ^ 2 * (sin ha ^ 2 + cos ha ^ 2) + sin decl ^ 2 := by ring
  rw [this, h3]; linarith

theorem up_range (lat decl ha : ℝ) : -1 ≤ (Spec.Solar.sun lat decl ha).up ∧ (Spec.Solar.sun lat decl ha).up ≤ 1 := by
  have h := sun_unit lat decl ha
  constructor <;> nlinarith [sq_nonneg (Spec.Solar.sun lat decl ha).south, sq_nonneg (Spec.Solar.sun lat decl ha).west]

theorem zenith_eq (ha lat decl : ℝ) : zenith ha lat decl = some (Real.arccos (Spec.Solar.sun lat decl ha).up * toDeg) := by
  have h := up_range lat decl ha
  have e : sin lat * sin decl + cos lat * cos decl * cos ha = (Spec.Solar.sun lat decl ha).up := by simp only [Spec.Solar.sun]; ring
  unfold zenith npArccos
  rw [e, if_pos h]; rfl

/-- **The declination**: the spec's, never beyond the tropics, and the highest on day 172. -/
theorem c92_declination (day : ℤ) :
    declination day = Spec.Solar.decl day ∧ |declination day| ≤ Spec.Solar.deg 23.45 ∧ declination 172 = Spec.Solar.deg 23.45 := by
  have e : ∀ d : ℤ, declination d = Spec.Solar.decl d := by
    intro d
    unfold declination Spec.Solar.decl
    rw [deg_toRad]
    congr 2
    unfold toRad
    congr 1
    field_simp
    norm_num
    ring
  refine ⟨e day, ?_, ?_⟩
  · rw [e]
    unfold Spec.Solar.decl Spec.Solar.deg
    have hp := Real.pi_pos
    have hc := Real.abs_cos_le_one (2 * Real.pi * ((day : ℝ) - 172) / 365)
    generalize cos (2 * Real.pi * ((day : ℝ) - 172) / 365) = c at hc ⊢
    rw [mul_div_assoc, mul_div_assoc, abs_mul, abs_mul, abs_of_pos (by positivity : (0:ℝ) < Real.pi / 180), abs_of_pos (by norm_num : (0:ℝ) < 23.45)]
    nlinarith [mul_nonneg (by norm_num : (0:ℝ) ≤ 23.45) (by positivity : (0:ℝ) ≤ Real.pi / 180)]
  · rw [e]; unfold Spec.Solar.decl; norm_num

/-- The tangent in the azimuth, by the direction. -/
theorem den_eq {lat decl ha : ℝ} (hd : 0 < cos decl) :
    sin lat * cos ha - cos lat * tan decl = (Spec.Solar.sun lat decl ha).south / cos decl := by
  rw [Real.tan_eq_sin_div_cos]; simp only [Spec.Solar.sun]; field_simp

theorem num_eq {lat decl ha : ℝ} (hd : 0 < cos decl) : sin ha = (Spec.Solar.sun lat decl ha).west / cos decl := by
  simp only [Spec.Solar.sun]; field_simp

/-- The angle whose tangent is `w / s`, in the quadrant of `(s, w)`. -/
theorem polar {s w r : ℝ} (hr : 0 ≤ r) (h : r ^ 2 = s ^ 2 + w ^ 2) (hs : s ≠ 0) :
    r * cos (arctan (w / s)) = |s| ∧ r * sin (arctan (w / s)) = w / s * |s| := by
  have hp : 0 < s ^ 2 := by positivity
  have hq : √(1 + (w / s) ^ 2) = r / |s| := by
    rw [Real.sqrt_eq_iff_eq_sq (by positivity) (by positivity), div_pow, div_pow, sq_abs, h]
    field_simp
  have hr' : r ≠ 0 := by rintro rfl; nlinarith [sq_nonneg w]
  have ha : |s| ≠ 0 := abs_ne_zero.mpr hs
  rw [Real.cos_arctan, Real.sin_arctan, hq]
  constructor <;> field_simp

/-- **Where the sun stands**: between midnight and midnight, the zenith and the azimuth of the code are those of the direction of the sun, except at noon with the sun in
the north or overhead. -/
theorem c92_sun (lat decl ha : ℝ) (hd : |decl| < Real.pi / 2) (h1 : -Real.pi < ha) (h2 : ha < Real.pi) (hn : ha ≠ 0 ∨ decl < lat) (hl : |lat| < Real.pi / 2) :
    ∃ z a, zenith ha lat decl = some z ∧ azimuth ha lat decl = some a ∧ 0 ≤ z ∧ z ≤ 180 ∧ -180 < a ∧ a < 180 ∧
      Spec.Solar.direction z a = Spec.Solar.sun lat decl ha ∧ azimuthNorth ha lat decl = some (a + 180) := by
  rw [abs_lt] at hd hl
  have hcd : 0 < cos decl := Real.cos_pos_of_mem_Ioo ⟨by linarith, by linarith⟩
  set v := Spec.Solar.sun lat decl ha with hv
  have hunit := sun_unit lat decl ha
  rw [← hv] at hunit
  have hup := up_range lat decl ha
  rw [← hv] at hup
  have hpi := Real.pi_pos
  have hzr : arccos v.up * toDeg * toRad = arccos v.up := toDeg_toRad _
  have hz0 : 0 ≤ arccos v.up * toDeg := mul_nonneg (Real.arccos_nonneg _) (by unfold toDeg; positivity)
  have hz1 : arccos v.up * toDeg ≤ 180 := by
    have := Real.arccos_le_pi v.up
    unfold toDeg
    rw [mul_div_assoc', div_le_iff₀ hpi]; nlinarith
  have hr0 : 0 ≤ sin (arccos v.up) := Real.sin_nonneg_of_nonneg_of_le_pi (Real.arccos_nonneg _) (Real.arccos_le_pi _)
  have hcz : cos (arccos v.up) = v.up := Real.cos_arccos hup.1 hup.2
  have hr : sin (arccos v.up) ^ 2 = v.south ^ 2 + v.west ^ 2 := by
    have := sin_sq_add_cos_sq (arccos v.up); rw [hcz] at this; linarith
  have hw : v.west = cos decl * sin ha := rfl
  have hwpos : 0 < ha → 0 < v.west := fun h => by rw [hw]; exact mul_pos hcd (Real.sin_pos_of_pos_of_lt_pi h h2)
  have hwneg : ha < 0 → v.west < 0 := fun h => by rw [hw]; exact mul_neg_of_pos_of_neg hcd (Real.sin_neg_of_neg_of_neg_pi_lt h h1)
  have hnoon : ha = 0 → 0 < v.south := by
    intro h
    have : v.south = sin (lat - decl) := by rw [hv, Real.sin_sub, h]; simp only [Spec.Solar.sun, Real.cos_zero]; ring
    rw [this]
    rcases hn with h' | h'
    · exact absurd h h'
    · exact Real.sin_pos_of_pos_of_lt_pi (by linarith) (by linarith)
  -- it is enough to find the azimuth in radians
  have key : ∃ t, azimuth ha lat decl = some (t * (180 / Real.pi)) ∧ -Real.pi < t ∧ t < Real.pi ∧ sin (arccos v.up) * cos t = v.south ∧ sin (arccos v.up) * sin t = v.west := by
    have hdeg : ∀ t : ℝ, t * (180 / Real.pi) + 180 = (t + Real.pi) * (180 / Real.pi) := by intro t; field_simp
    have hdeg' : ∀ t : ℝ, t * (180 / Real.pi) - 180 = (t - Real.pi) * (180 / Real.pi) := by intro t; field_simp
    have hk : (0:ℝ) < 180 / Real.pi := by positivity
    unfold azimuth arctanDiv
    rw [den_eq hcd, num_eq (lat := lat) (decl := decl) hcd, ← hv]
    rcases lt_trichotomy v.south 0 with hs | hs | hs
    · have hsne : v.south / cos decl ≠ 0 := div_ne_zero hs.ne hcd.ne'
      have hq : v.west / cos decl / (v.south / cos decl) = v.west / v.south := by field_simp
      rw [if_pos hsne, hq, Option.map_some]
      obtain ⟨p1, p2⟩ := polar hr0 hr hs.ne
      rw [abs_of_neg hs] at p1 p2
      have p2' : sin (arccos v.up) * sin (arctan (v.west / v.south)) = -v.west := by rw [p2]; field_simp [hs.ne]
      have b1 := Real.neg_pi_div_two_lt_arctan (v.west / v.south)
      have b2 := Real.arctan_lt_pi_div_two (v.west / v.south)
      rcases lt_trichotomy ha 0 with h | h | h
      · have ht : 0 < arctan (v.west / v.south) := by rw [Real.arctan_pos]; exact div_pos_of_neg_of_neg (hwneg h) hs
        refine ⟨arctan (v.west / v.south) - Real.pi, ?_, by linarith, by linarith, ?_, ?_⟩
        · have : fixPlus ha (arctan (v.west / v.south) * (180 / Real.pi)) = arctan (v.west / v.south) * (180 / Real.pi) := by
            unfold fixPlus; rw [if_neg]; rintro ⟨_, h'⟩; linarith
          rw [this]; unfold fixMinus; rw [if_pos ⟨mul_pos ht hk, h⟩, hdeg']
        · rw [Real.cos_sub_pi]; linarith
        · rw [Real.sin_sub_pi]; linarith
      · exact absurd (hnoon h) (by linarith)
      · have ht : arctan (v.west / v.south) < 0 := by rw [Real.arctan_lt_zero]; exact div_neg_of_pos_of_neg (hwpos h) hs
        refine ⟨arctan (v.west / v.south) + Real.pi, ?_, by linarith, by linarith, ?_, ?_⟩
        · have : fixPlus ha (arctan (v.west / v.south) * (180 / Real.pi)) = (arctan (v.west / v.south) + Real.pi) * (180 / Real.pi) := by
            unfold fixPlus; rw [if_pos ⟨mul_neg_of_neg_of_pos ht hk, h⟩, hdeg]
          rw [this]; unfold fixMinus; rw [if_neg]; rintro ⟨_, h'⟩; linarith
        · rw [Real.cos_add_pi]; linarith
        · rw [Real.sin_add_pi]; linarith
    · have hz : ¬ (v.south / cos decl ≠ 0) := by rw [hs]; simp
      have hrw : sin (arccos v.up) = |v.west| := by
        rw [← Real.sqrt_sq hr0, hr, hs, ← Real.sqrt_sq_eq_abs]; congr 1; ring
      rw [if_neg hz]
      rcases lt_trichotomy ha 0 with h | h | h
      · have hw' := hwneg h
        have hq : v.west / cos decl < 0 := div_neg_of_neg_of_pos hw' hcd
        rw [if_neg (by linarith), if_pos hq, Option.map_some]
        refine ⟨-(Real.pi / 2), ?_, by linarith, by linarith, ?_, ?_⟩
        · have : fixPlus ha (-(Real.pi / 2) * (180 / Real.pi)) = -(Real.pi / 2) * (180 / Real.pi) := by
            unfold fixPlus; rw [if_neg]; rintro ⟨_, h'⟩; linarith
          rw [this]; unfold fixMinus; rw [if_neg]; rintro ⟨h', _⟩
          nlinarith [mul_pos hpi hk]
        · rw [Real.cos_neg, Real.cos_pi_div_two, hs]; ring
        · rw [Real.sin_neg, Real.sin_pi_div_two, hrw, abs_of_neg hw']; ring
      · exact absurd (hnoon h) (by linarith)
      · have hw' := hwpos h
        have hq : 0 < v.west / cos decl := div_pos hw' hcd
        rw [if_pos hq, Option.map_some]
        refine ⟨Real.pi / 2, ?_, by linarith, by linarith, ?_, ?_⟩
        · have : fixPlus ha (Real.pi / 2 * (180 / Real.pi)) = Real.pi / 2 * (180 / Real.pi) := by
            unfold fixPlus; rw [if_neg]; rintro ⟨h', _⟩; nlinarith [mul_pos hpi hk]
          rw [this]; unfold fixMinus; rw [if_neg]; rintro ⟨_, h'⟩; linarith
        · rw [Real.cos_pi_div_two, hs]; ring
        · rw [Real.sin_pi_div_two, hrw, abs_of_pos hw']; ring
    · have hsne : v.south / cos decl ≠ 0 := div_ne_zero hs.ne' hcd.ne'
      have hq : v.west / cos decl / (v.south / cos decl) = v.west / v.south := by field_simp
      rw [if_pos hsne, hq, Option.map_some]
      obtain ⟨p1, p2⟩ := polar hr0 hr hs.ne'
      rw [abs_of_pos hs] at p1 p2
      have p2' : sin (arccos v.up) * sin (arctan (v.west / v.south)) = v.west := by rw [p2]; field_simp
      have b1 := Real.neg_pi_div_two_lt_arctan (v.west / v.south)
      have b2 := Real.arctan_lt_pi_div_two (v.west / v.south)
      refine ⟨arctan (v.west / v.south), ?_, by linarith, by linarith, p1, p2'⟩
      have f1 : fixPlus ha (arctan (v.west / v.south) * (180 / Real.pi)) = arctan (v.west / v.south) * (180 / Real.pi) := by
        unfold fixPlus; rw [if_neg]; rintro ⟨h', h⟩
        have : 0 < arctan (v.west / v.south) := by rw [Real.arctan_pos]; exact div_pos (hwpos h) hs
        nlinarith [mul_pos this hk]
      rw [f1]; unfold fixMinus; rw [if_neg]; rintro ⟨h', h⟩
      have : arctan (v.west / v.south) < 0 := by rw [Real.arctan_lt_zero]; exact div_neg_of_neg_of_pos (hwneg h) hs
      nlinarith [mul_neg_of_neg_of_pos this hk]
  obtain ⟨t, haz, t1, t2, ht1, ht2⟩ := key
  have htr : Spec.Solar.deg (t * (180 / Real.pi)) = t := by unfold Spec.Solar.deg; field_simp
  have hzr' : Spec.Solar.deg (arccos v.up * toDeg) = arccos v.up := by rw [← deg_toRad]; exact hzr
  have hlim : t * (180 / Real.pi) < 180 ∧ -180 < t * (180 / Real.pi) := by
    rw [mul_div_assoc', div_lt_iff₀ hpi, lt_div_iff₀ hpi]; constructor <;> nlinarith
  refine ⟨arccos v.up * toDeg, t * (180 / Real.pi), zenith_eq _ _ _, haz, hz0, hz1, hlim.2, hlim.1, ?_, by unfold azimuthNorth; rw [haz]; rfl⟩
  unfold Spec.Solar.direction
  rw [htr, hzr', ht1, ht2, hcz]

/-- At noon with the sun in the north, the code says it is in the south. -/
theorem c92_noon_north (lat decl : ℝ) (hd : |decl| < Real.pi / 2) (hl : |lat| < Real.pi / 2) (h : lat < decl) :
    azimuth 0 lat decl = some 0 ∧ (Spec.Solar.sun lat decl 0).south < 0 ∧ ∀ z, 0 ≤ z → z ≤ 180 → Spec.Solar.direction z 0 ≠ Spec.Solar.sun lat decl 0 := by
  rw [abs_lt] at hd hl
  have hcd : 0 < cos decl := Real.cos_pos_of_mem_Ioo ⟨by linarith, by linarith⟩
  have hs : (Spec.Solar.sun lat decl 0).south < 0 := by
    have : (Spec.Solar.sun lat decl 0).south = sin (lat - decl) := by rw [Real.sin_sub]; simp only [Spec.Solar.sun, Real.cos_zero]; ring
    rw [this]
    exact Real.sin_neg_of_neg_of_neg_pi_lt (by linarith) (by linarith)
  refine ⟨?_, hs, ?_⟩
  · unfold azimuth arctanDiv
    rw [den_eq hcd, if_pos (div_ne_zero hs.ne hcd.ne')]
    simp [fixPlus, fixMinus]
  · intro z h0 h1 he
    have : (Spec.Solar.direction z 0).south < 0 := by rw [he]; exact hs
    have e : (Spec.Solar.direction z 0).south = sin (Spec.Solar.deg z) := by simp [Spec.Solar.direction, Spec.Solar.deg]
    have hp := Real.pi_pos
    have : 0 ≤ sin (Spec.Solar.deg z) := Real.sin_nonneg_of_nonneg_of_le_pi (by unfold Spec.Solar.deg; positivity) (by unfold Spec.Solar.deg; rw [div_le_iff₀ (by norm_num)]; nlinarith)
    linarith

theorem cos_bound {lat decl : ℝ} (h : |lat| + |decl| < Real.pi / 2) :
    0 < cos lat ∧ 0 < cos decl ∧ |sin lat * sin decl| < cos lat * cos decl := by
  have a := abs_nonneg lat; have b := abs_nonneg decl
  have la := abs_le.mp (le_of_eq (rfl : |lat| = |lat|)); have lb := abs_le.mp (le_of_eq (rfl : |decl| = |decl|))
  have h1 : 0 < cos (lat + decl) := Real.cos_pos_of_mem_Ioo ⟨by linarith, by linarith⟩
  have h2 : 0 < cos (lat - decl) := Real.cos_pos_of_mem_Ioo ⟨by linarith, by linarith⟩
  rw [Real.cos_add] at h1; rw [Real.cos_sub] at h2
  exact ⟨Real.cos_pos_of_mem_Ioo ⟨by linarith, by linarith⟩, Real.cos_pos_of_mem_Ioo ⟨by linarith, by linarith⟩, abs_lt.mpr ⟨by linarith, by linarith⟩⟩

/-- Outside the polar day and the polar night: the limit is the arc whose cosine has the sun on the horizon. -/
theorem limit_eq {lat decl : ℝ} (h : |lat| + |decl| < Real.pi / 2) :
    ∃ l, hourLimit decl lat = some l ∧ 0 < l ∧ l < Real.pi ∧ ∀ ha, (Spec.Solar.sun lat decl ha).up = cos lat * cos decl * (cos ha - cos l) := by
  obtain ⟨c1, c2, c3⟩ := cos_bound h
  rw [abs_lt] at c3
  have hp : 0 < cos lat * cos decl := mul_pos c1 c2
  have e : -tan decl * tan lat = -(sin lat * sin decl) / (cos lat * cos decl) := by
    rw [Real.tan_eq_sin_div_cos, Real.tan_eq_sin_div_cos]; field_simp
  have b1 : -1 < -tan decl * tan lat := by rw [e, lt_div_iff₀ hp]; linarith
  have b2 : -tan decl * tan lat < 1 := by rw [e, div_lt_iff₀ hp]; linarith
  refine ⟨arccos (-tan decl * tan lat), ?_, Real.arccos_pos.mpr b2, ?_, fun ha => ?_⟩
  · unfold hourLimit npArccos; rw [if_pos ⟨b1.le, b2.le⟩]
  · rcases (Real.arccos_le_pi (-tan decl * tan lat)).lt_or_eq with h | h
    · exact h
    · rw [Real.arccos_eq_pi] at h; linarith
  · rw [Real.cos_arccos b1.le b2.le, e]
    simp only [Spec.Solar.sun]
    field_simp
    ring

/-- **The hour of the sunset**: where the sun rises and sets that day, the limit is the hour angle between which and its opposite the sun is above the horizon. -/
theorem c92_limit (lat decl : ℝ) (h : |lat| + |decl| < Real.pi / 2) :
    ∃ l, hourLimit decl lat = some l ∧ 0 < l ∧ l < Real.pi ∧ ∀ ha, |ha| ≤ Real.pi →
      ((0 < (Spec.Solar.sun lat decl ha).up ↔ |ha| < l) ∧ ((Spec.Solar.sun lat decl ha).up = 0 ↔ |ha| = l)) := by
  obtain ⟨l, h1, h2, h3, h4⟩ := limit_eq h
  obtain ⟨c1, c2, _⟩ := cos_bound h
  have hp : 0 < cos lat * cos decl := mul_pos c1 c2
  refine ⟨l, h1, h2, h3, fun ha hha => ?_⟩
  rw [h4, ← Real.cos_abs ha]
  have m1 : |ha| ∈ Set.Icc 0 Real.pi := ⟨abs_nonneg _, hha⟩
  have m2 : l ∈ Set.Icc 0 Real.pi := ⟨h2.le, h3.le⟩
  constructor
  · rw [mul_pos_iff_of_pos_left hp, sub_pos, Real.strictAntiOn_cos.lt_iff_gt m2 m1]
  · rw [mul_eq_zero, sub_eq_zero]
    constructor
    · rintro (h | h)
      · linarith
      · exact Real.injOn_cos m1 m2 h
    · intro h; right; rw [h]

/-- In the polar day and the polar night the limit is NaN: there the day's computation stops with an error. -/
theorem c92_polar {ι : Type} (I : Inputs ι) (day : ℤ) (hl : |I.lat| < Real.pi / 2) (h : Real.pi / 2 < |I.lat| + |declination day|) :
    daily I day = .error .arange := by
  have hd : |declination day| < Real.pi / 2 := by
    refine lt_of_le_of_lt (c92_declination day).2.1 ?_
    unfold Spec.Solar.deg; nlinarith [Real.pi_pos]
  set decl := declination day with hdef
  have a := abs_lt.mp hl; have b := abs_lt.mp hd
  have c1 : 0 < cos I.lat := Real.cos_pos_of_mem_Ioo ⟨by linarith, by linarith⟩
  have c2 : 0 < cos decl := Real.cos_pos_of_mem_Ioo ⟨by linarith, by linarith⟩
  have hp : 0 < cos I.lat * cos decl := mul_pos c1 c2
  have e : -tan decl * tan I.lat = -(sin I.lat * sin decl) / (cos I.lat * cos decl) := by
    rw [Real.tan_eq_sin_div_cos, Real.tan_eq_sin_div_cos]; field_simp
  have hneg : cos (|I.lat| + |decl|) < 0 := Real.cos_neg_of_pi_div_two_lt_of_lt h (by linarith)
  have habs : cos (|I.lat| + |decl|) = cos I.lat * cos decl - |sin I.lat * sin decl| := by
    rw [Real.cos_add, Real.cos_abs, Real.cos_abs, abs_mul]
    have s : ∀ x : ℝ, -(Real.pi / 2) < x → x < Real.pi / 2 → sin |x| = |sin x| := by
      intro x h1 h2
      rcases le_total 0 x with h | h
      · rw [abs_of_nonneg h, abs_of_nonneg (Real.sin_nonneg_of_nonneg_of_le_pi h (by linarith))]
      · rw [abs_of_nonpos h, abs_of_nonpos (Real.sin_nonpos_of_nonpos_of_neg_pi_le h (by linarith)), Real.sin_neg]
    rw [s _ a.1 a.2, s _ b.1 b.2]
  have hlim : hourLimit decl I.lat = none := by
    unfold hourLimit npArccos
    rw [if_neg]
    rw [e]
    rintro ⟨h1, h2⟩
    rw [le_div_iff₀ hp] at h1; rw [div_le_iff₀ hp] at h2
    have : |sin I.lat * sin decl| ≤ cos I.lat * cos decl := abs_le.mpr ⟨by linarith, by linarith⟩
    linarith
  unfold daily
  rw [← hdef, hlim]

end HB.Solar
