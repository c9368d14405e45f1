import Verif.Spec.Equations
import Verif.Model.Lateral
import Verif.Props.LawsWater
import Verif.Props.LawsSnow
import Mathlib.Analysis.Complex.ExponentialBounds

/-!
# C66: the processes compute the documented equations

Each law of `Model/Laws.lean` and `Model/Lateral.lean` is the equation of its class comment (`Spec/Equations.lean`) on the stated
domain; where the code departs from it, by how much or an example.
-/

set_option linter.unusedSectionVars false

namespace HB

/-- The filling ratio of a store is the documented one, read at most at capacity. -/
theorem ratio_min {x cap : ℝ} (hcap : 0 < cap) (hx : 0 ≤ x) : max 0 (min 1 (x / cap)) = min x cap / cap := by
  rcases le_total x cap with h | h
  · rw [min_eq_left h, min_eq_right ((div_le_one hcap).2 h), max_eq_right (div_nonneg hx hcap.le)]
  · rw [min_eq_right h, min_eq_left ((one_le_div hcap).2 h), div_self hcap.ne', max_eq_right zero_le_one]

/-- **C66 (evapotranspiration).**  Above capacity the content is read as the capacity; the open-water and HBV laws hold for every
content. -/
theorem c66_et (dt pet cap : ℝ) (c : Cont ℝ) (hc : Spec.Store c cap) (hdt : 0 < dt) :
    etRate dt pet c .linear = some (Doc.etLinear pet c.lvl cap) ∧
    (∀ e, etRate dt pet c (.power e) = some (Doc.etPowerLaw pet (min c.lvl cap) cap e)) ∧
    etRate dt pet c .socont = some (Doc.etSocont pet (min c.lvl cap) cap) ∧
    (∀ a, etRate dt pet c (.expo a) = some (Doc.etExponential pet (min c.lvl cap) cap a)) ∧
    (∀ lp f, 0 < lp → etRate dt pet c (.hbv lp f) = some (Doc.etHBV f pet c.lvl lp cap)) ∧
    etRate dt pet c .openWater = some (Doc.etOpenWater pet c.lvl dt) := by
  have hfr := fillingRatio_eq hc.finite hc.cap_eq
  rw [ratio_min hc.cap_pos hc.lvl_nonneg] at hfr
  refine ⟨?_, fun e => ?_, ?_, fun a => ?_, fun lp f hlp => ?_, ?_⟩
  · simp only [etRate, hfr, Option.map_some, Doc.etLinear, Option.some.injEq]
    congr 1
    rcases le_total c.lvl cap with h | h
    · rw [min_eq_left h, min_comm]
    · rw [min_eq_right h, div_self hc.cap_pos.ne', min_self, min_eq_right ((one_le_div hc.cap_pos).2 h)]
  · simp only [etRate, hfr, Option.map_some, Doc.etPowerLaw]
  · simp only [etRate, hfr, Option.map_some, Doc.etSocont, Real.sqrt_eq_rpow]
  · simp only [etRate, hfr, Option.map_some, Doc.etExponential]
  · have ht : 0 < lp * cap := mul_pos hlp hc.cap_pos
    simp only [etRate, hc.cap_eq, Option.map_some, Doc.etHBV, not_le.2 ht, if_false, min_comm]
  · simp only [etRate, gt_iff_lt, hdt, if_true, Doc.etOpenWater]
    rw [max_eq_right (div_nonneg hc.lvl_nonneg hdt.le)]

/-! ## The tanh of the GR4J formulas -/

/-- The bound on the argument of tanh changes it by less than 2·10⁻¹¹. -/
theorem tanh_cap {x : ℝ} : 0 ≤ Real.tanh x - Real.tanh (min x 13) ∧ Real.tanh x - Real.tanh (min x 13) ≤ 2 / 10 ^ 11 := by
  refine ⟨by linarith [tanh_mono (min_le_left x 13)], ?_⟩
  rcases le_total x 13 with h | h
  · rw [min_eq_left h, sub_self]; norm_num
  · rw [min_eq_right h]
    have h1 : Real.tanh x < 1 := Real.tanh_lt_one x
    have h2 : 1 - Real.tanh 13 ≤ 2 * Real.exp (-26) := by
      rw [Real.tanh_eq_sinh_div_cosh, one_sub_div (Real.cosh_pos 13).ne', div_le_iff₀ (Real.cosh_pos 13), Real.cosh_sub_sinh,
        Real.cosh_eq]
      have e1 : Real.exp (-26) * Real.exp 13 = Real.exp (-13) := by rw [← Real.exp_add]; norm_num
      have e2 : 0 < Real.exp (-26) * Real.exp (-13) := mul_pos (Real.exp_pos _) (Real.exp_pos _)
      nlinarith
    have h3 : Real.exp (-26) ≤ 1 / 10 ^ 11 := by
      rw [Real.exp_neg, inv_eq_one_div]
      apply one_div_le_one_div_of_le (by norm_num)
      have : Real.exp 26 = Real.exp 1 ^ 26 := by rw [← Real.exp_nat_mul]; norm_num
      rw [this]
      have hd := Real.exp_one_gt_d9
      calc (10 : ℝ) ^ 11 ≤ (2.7182818283 : ℝ) ^ 26 := by norm_num
        _ ≤ Real.exp 1 ^ 26 := pow_le_pow_left₀ (by norm_num) hd.le 26
    linarith

/-- **C66 (GR4J production formulas).**  Infiltration and evaporation are the documented ones when the net rain or demand is at
most 13 X1, and within 2·10⁻¹¹ X1 of them always; the percolation is the documented one. -/
theorem c66_gr4j (S P X1 : ℝ) (hX : 0 < X1) (hS : 0 ≤ S) (hSX : S ≤ X1) (hP : 0 < P) :
    (P ≤ 13 * X1 → gr4jInfiltration S P X1 = Doc.infiltrationGR4J P S X1 ∧ gr4jEvaporation S P X1 = Doc.etGR4J S P X1) ∧
    |gr4jInfiltration S P X1 - Doc.infiltrationGR4J P S X1| ≤ 2 / 10 ^ 11 * X1 ∧
    |gr4jEvaporation S P X1 - Doc.etGR4J S P X1| ≤ 2 / 10 ^ 11 * X1 ∧
    gr4jPercolation S X1 = Doc.percolationGR4J S X1 := by
  have hn : ¬ (P ≤ 0 ∨ X1 ≤ 0) := by rintro (h | h) <;> linarith
  refine ⟨fun h => ?_, ?_, ?_, ?_⟩
  · have hm : min (P / X1) 13 = P / X1 := min_eq_left ((div_le_iff₀ hX).2 h)
    simp only [gr4jInfiltration, gr4jEvaporation, hn, if_false, hm, Doc.infiltrationGR4J, Doc.etGR4J, sq, and_self]
  all_goals have hs0 : 0 ≤ S / X1 := div_nonneg hS hX.le
  all_goals have hs1 : S / X1 ≤ 1 := (div_le_one hX).2 hSX
  all_goals have hSe : S = X1 * (S / X1) := by field_simp
  · simp only [gr4jInfiltration, hn, if_false, Doc.infiltrationGR4J]
    obtain ⟨d0, d1⟩ := tanh_cap (x := P / X1)
    have t0 : 0 ≤ Real.tanh (min (P / X1) 13) := (tws_bounds hP.le hX).1
    have u0 : 0 ≤ Real.tanh (P / X1) := tanh_nonneg (div_nonneg hP.le hX.le)
    generalize Real.tanh (min (P / X1) 13) = t at *
    generalize Real.tanh (P / X1) = u at *
    generalize S / X1 = s at *
    have a : 0 < 1 + s * t := by positivity
    have b : 0 < 1 + s * u := by positivity
    have e : X1 * (1 - s * s) * t / (1 + s * t) - X1 * (1 - s ^ 2) * u / (1 + s * u) =
        -(X1 * (1 - s * s) * (u - t) / ((1 + s * t) * (1 + s * u))) := by
      field_simp
      ring
    rw [e, abs_neg, abs_of_nonneg (div_nonneg (mul_nonneg (mul_nonneg hX.le (by nlinarith)) d0) (mul_pos a b).le)]
    have h1 : 1 ≤ (1 + s * t) * (1 + s * u) := by nlinarith [mul_nonneg hs0 t0, mul_nonneg hs0 u0]
    refine (div_le_self (mul_nonneg (mul_nonneg hX.le (by nlinarith)) d0) h1).trans ?_
    have h2 : X1 * (1 - s * s) ≤ X1 := by nlinarith [mul_nonneg hs0 hs0]
    nlinarith
  · simp only [gr4jEvaporation, hn, if_false, Doc.etGR4J]
    obtain ⟨d0, d1⟩ := tanh_cap (x := P / X1)
    have t0 : 0 ≤ Real.tanh (min (P / X1) 13) := (tws_bounds hP.le hX).1
    have u0 : 0 ≤ Real.tanh (P / X1) := tanh_nonneg (div_nonneg hP.le hX.le)
    rw [hSe]
    have hss : X1 * (S / X1) / X1 = S / X1 := by field_simp
    rw [hss]
    generalize Real.tanh (min (P / X1) 13) = t at *
    generalize Real.tanh (P / X1) = u at *
    generalize S / X1 = s at *
    have a : 0 < 1 + (1 - s) * t := by nlinarith
    have b : 0 < 1 + (1 - s) * u := by nlinarith
    have e : X1 * s * (2 - s) * t / (1 + (1 - s) * t) - X1 * s * (2 - s) * u / (1 + (1 - s) * u) =
        -(X1 * (s * (2 - s)) * (u - t) / ((1 + (1 - s) * t) * (1 + (1 - s) * u))) := by
      rw [div_sub_div _ _ a.ne' b.ne', ← neg_div]
      congr 1
      ring
    have hw : 0 ≤ s * (2 - s) := mul_nonneg hs0 (by linarith)
    have hw1 : s * (2 - s) ≤ 1 := by nlinarith [sq_nonneg (1 - s)]
    rw [e, abs_neg, abs_of_nonneg (div_nonneg (mul_nonneg (mul_nonneg hX.le hw) d0) (mul_pos a b).le)]
    have h1 : 1 ≤ (1 + (1 - s) * t) * (1 + (1 - s) * u) := by
      nlinarith [mul_nonneg (sub_nonneg.2 hs1) t0, mul_nonneg (sub_nonneg.2 hs1) u0]
    refine (div_le_self (mul_nonneg (mul_nonneg hX.le hw) d0) h1).trans ?_
    have h2 : X1 * (s * (2 - s)) ≤ X1 := by nlinarith
    nlinarith
  · simp only [gr4jPercolation, not_le.2 hX, if_false, Doc.percolationGR4J]
    congr 3
    ring

/-- **C66 (GR4J evaporation and production steps).**  On a store holding `S` at the start of the step, with the net rain `Pn`
pending: the evaporation acts on the level after infiltration, which is `S` when there is no net rain, and the routed flux is the
documented one for the level after infiltration and evaporation. -/
theorem c66_gr4j_step (c : Cont ℝ) (X1 En : ℝ) (hc : Spec.Store c X1) (hE : 0 < En) (h13 : En ≤ 13 * X1) :
    (c.stat = 0 → etRate 1 En c .gr4j = some (Doc.etGR4J c.content En X1)) ∧
    (0 < c.stat → c.stat ≤ 13 * X1 →
      let Ps := Doc.infiltrationGR4J c.stat c.content X1
      let Es := Doc.etGR4J (c.content + Ps) En X1
      etRate 1 En c .gr4j = some Es ∧
      productionRate En c = some (Doc.productionPR c.stat Ps (Doc.percolationGR4J (c.content + Ps - Es) X1))) := by
  have hPn : c.lvl - (c.content + c.dyn) = c.stat := by unfold Cont.lvl; ring
  constructor
  · intro h0
    simp only [etRate, not_le.2 hE, if_false, hc.cap_eq, Option.map_some, not_le.2 hc.cap_pos, hPn]
    have : gr4jInfiltration c.content c.stat X1 = 0 := by simp [gr4jInfiltration, h0]
    rw [this, add_zero, ((c66_gr4j c.content En X1 hc.cap_pos hc.content_nonneg hc.content_le hE).1 h13).2]
  · intro h0 h1
    have hi := ((c66_gr4j c.content c.stat X1 hc.cap_pos hc.content_nonneg hc.content_le h0).1 h1).1
    obtain ⟨i0, -, i2⟩ := infiltration_bounds (P := c.stat) hc.cap_pos hc.content_nonneg hc.content_le
    rw [hi] at i0 i2
    have he := ((c66_gr4j (c.content + Doc.infiltrationGR4J c.stat c.content X1) En X1 hc.cap_pos (by linarith [hc.content_nonneg]) i2 hE).1 h13).2
    obtain ⟨-, -, e2⟩ := evaporation_bounds (E := En) hc.cap_pos (by linarith [hc.content_nonneg] : 0 ≤ c.content + Doc.infiltrationGR4J c.stat c.content X1) i2
    rw [he] at e2
    have hp : ∀ S, gr4jPercolation S X1 = Doc.percolationGR4J S X1 := by
      intro S
      simp only [gr4jPercolation, not_le.2 hc.cap_pos, if_false, Doc.percolationGR4J]
      congr 3
      ring
    constructor
    · simp only [etRate, not_le.2 hE, if_false, hc.cap_eq, Option.map_some, not_le.2 hc.cap_pos, hPn, hi, he]
    · simp only [productionRate, hc.cap_eq, Option.map_some, not_le.2 hc.cap_pos, if_false, hPn, hi, he, hp, Doc.productionPR]

/-! ## Infiltration, percolation and capillary rise -/

/-- **C66 (infiltration).** -/
theorem c66_infiltration (beta cap : ℝ) (c t : Cont ℝ) (ht : Spec.Store t cap) (hc : 0 < c.lvl) :
    infiltrationSocont c t = some (Doc.infiltrationSocont c.lvl (min t.lvl cap) cap) ∧
    infiltrationHBV beta c t = some (Doc.infiltrationHBV c.lvl (min t.lvl cap) cap beta) ∧
    (t.lvl ≤ cap → c.lvl ≤ 13 * cap → infiltrationGR4JRate c t = some (Doc.infiltrationGR4J c.lvl t.lvl cap)) ∧
    (t.lvl ≤ cap → percolationGR4JRate t = some (Doc.percolationGR4J t.lvl cap)) := by
  have hfr := fillingRatio_eq ht.finite ht.cap_eq
  have hrm := ratio_mem (t.lvl / cap)
  have hn : ¬ (c.lvl ≤ 0 ∨ cap ≤ 0) := by rintro (h | h) <;> linarith [ht.cap_pos]
  refine ⟨?_, ?_, fun h h13 => ?_, fun h => ?_⟩
  · rw [ratio_min ht.cap_pos ht.lvl_nonneg] at hfr
    simp only [infiltrationSocont, ht.cap_eq, Option.bind_some, not_le.2 ht.cap_pos, if_false, hfr, Option.map_some, Doc.infiltrationSocont,
      Real.rpow_two]
  · simp only [infiltrationHBV, ht.cap_eq, Option.bind_some, hn, if_false, hfr, Option.map_some, Doc.infiltrationHBV]
    rw [min_eq_right hrm.2, max_eq_right hrm.1, ratio_min ht.cap_pos ht.lvl_nonneg]
  · simp only [infiltrationGR4JRate, ht.cap_eq, Option.map_some, hn, if_false]
    rw [((c66_gr4j t.lvl c.lvl cap ht.cap_pos ht.lvl_nonneg h hc).1 h13).1]
  · simp only [percolationGR4JRate, ht.cap_eq, Option.map_some, not_le.2 ht.cap_pos, if_false]
    rw [(c66_gr4j t.lvl 1 cap ht.cap_pos ht.lvl_nonneg h one_pos).2.2.2]

/-- **C66 (capillary rise).**  The weight of a target is the sum of the extents of the covers that feed it, 1 for a single
target. -/
theorem c66_capillary (cflux cap : ℝ) (t : CapTarget) (ht : Spec.Store t.cont cap) :
    capillaryRate cflux t =
      some (Doc.capillaryHBV cflux (if t.fractions = [] then 1 else t.fractions.sum) (min t.cont.lvl cap) cap) := by
  have hfr := fillingRatio_eq ht.finite ht.cap_eq
  have hrm := ratio_mem (t.cont.lvl / cap)
  simp only [capillaryRate, ht.cap_eq, Option.bind_some, not_le.2 ht.cap_pos, if_false, hfr, Option.map_some, Doc.capillaryHBV, CapTarget.weight]
  rw [min_eq_right hrm.2, max_eq_right hrm.1, ratio_min ht.cap_pos ht.lvl_nonneg]

/-! ## Outflow and runoff -/

/-- **C66 (outflows).**  The threshold and snow-holding laws give the documented amount over the step. -/
theorem c66_outflow (c snow : Cont ℝ) (k dt cap whc alpha beta slope area : ℝ) (hdt : 0 < dt) (hc : 0 < c.lvl) :
    outflowLinear k c = Doc.outflowLinear k c.lvl ∧ outflowDirect c = Doc.outflowDirect c.lvl ∧
    outflowThreshold dt cap c * dt = Doc.outflowThreshold c.lvl cap ∧
    outflowSnowHolding dt whc snow c * dt = Doc.outflowSnowHolding c.lvl whc snow.lvl ∧
    runoffHBV k alpha c = Doc.runoffHBV k c.lvl alpha ∧
    runoffSocont beta slope area c = Doc.runoffSocont beta slope area c.lvl := by
  have key : ∀ x : ℝ, (if x ≤ 0 then 0 else x / dt) * dt = max 0 x := by
    intro x
    split
    · rename_i h; rw [max_eq_left h, zero_mul]
    · rename_i h; rw [max_eq_right (not_le.1 h).le, div_mul_cancel₀ _ hdt.ne']
  refine ⟨rfl, max_comm _ _, key _, key _, ?_, ?_⟩
  · simp only [runoffHBV, not_le.2 hc, if_false, Doc.runoffHBV]
  · simp only [runoffSocont, Doc.runoffSocont, Real.sqrt_eq_rpow]
    rw [show c.lvl * 2 / 1000 = 2 * (c.lvl / 1000) by ring]
    congr 1
    ring

/-! ## Snow and ice -/

/-- **C66 (melt, refreezing, sublimation, snow to ice).**  Nothing when the store is not accessible. -/
theorem c66_snow (acc : Bool) (T Tm ddf mf rc solar crf rate pet factor coeff : ℝ) (doy : ℤ) (c : Cont ℝ) :
    meltDegreeDay acc T Tm ddf = (if acc then Doc.degreeDay ddf T Tm else 0) ∧
    meltTemperatureIndex acc T Tm mf rc solar = (if acc then Doc.temperatureIndex mf rc solar T Tm else 0) ∧
    refreezeRate (some (Tm, ddf)) crf T = Doc.refreeze crf ddf T Tm ∧
    sublimationConstant acc rate = (if acc then rate else 0) ∧
    sublimationPET acc pet factor = (if acc then factor * pet else 0) ∧
    snowToIceSwat true coeff doy c = Doc.swat coeff doy 81 c.lvl ∧
    snowToIceSwat false coeff doy c = Doc.swat coeff doy 264 c.lvl := by
  refine ⟨?_, ?_, ?_, ?_, ?_, ?_, ?_⟩
  · cases acc <;> simp [meltDegreeDay, Doc.degreeDay, mul_comm]
  · cases acc <;> simp [meltTemperatureIndex, Doc.temperatureIndex]
  · simp only [refreezeRate, Doc.refreeze]
    rcases lt_or_ge T Tm with h | h
    · rw [if_neg (not_le.2 h), if_pos h]
    · rw [if_pos h, if_neg (not_lt.2 h)]
  · cases acc <;> simp [sublimationConstant]
  · cases acc <;> simp [sublimationPET, mul_comm]
  · simp [snowToIceSwat, Doc.swat]
  · simp [snowToIceSwat, Doc.swat]

/-- The seasonal coefficient is largest a quarter of a year after the reference day, and zero a quarter before it. -/
theorem c66_swat_season (b doy ref SWE : ℝ) (hb : 0 ≤ b) (hS : 0 ≤ SWE) :
    0 ≤ Doc.swat b doy ref SWE ∧ Doc.swat b doy ref SWE ≤ Doc.swat b (ref + 365 / 4) ref SWE ∧ Doc.swat b (ref - 365 / 4) ref SWE = 0 := by
  unfold Doc.swat
  have h1 : Real.sin (2 * Real.pi * (ref + 365 / 4 - ref) / 365) = 1 := by
    rw [show 2 * Real.pi * (ref + 365 / 4 - ref) / 365 = Real.pi / 2 by ring, Real.sin_pi_div_two]
  have h2 : Real.sin (2 * Real.pi * (ref - 365 / 4 - ref) / 365) = -1 := by
    rw [show 2 * Real.pi * (ref - 365 / 4 - ref) / 365 = -(Real.pi / 2) by ring, Real.sin_neg, Real.sin_pi_div_two]
  rw [h1, h2]
  refine ⟨mul_nonneg (mul_nonneg hb (by linarith [Real.neg_one_le_sin (2 * Real.pi * (doy - ref) / 365)])) hS, ?_, by ring⟩
  apply mul_le_mul_of_nonneg_right _ hS
  exact mul_le_mul_of_nonneg_left (by linarith [Real.sin_le_one (2 * Real.pi * (doy - ref) / 365)]) hb

/-- **C66 (CemaNeige).**  With more than 1e-8 mm of snow, the new state and the melt are the documented ones. -/
theorem c66_cemaneige (p : Cema) (T : ℝ) (c : Cont ℝ) (cold : ℝ) (hc : 1 / 10 ^ 8 < c.lvl) (hm : 0 < p.meanSnow) :
    let eTG := Doc.cemaState p.ctg cold T p.tMelt
    meltCema p T c cold = (eTG, Doc.cemaMelt c.lvl (0.9 * p.meanSnow) (Doc.cemaPotential p.kf eTG T p.tMelt)) := by
  intro eTG
  have h1 : lessThanOrEqual c.lvl 0 prec = false := by
    simp only [lessThanOrEqual, prec]; norm_num at hc ⊢; linarith
  have h2 : accessible c = true := by
    have : (0 : ℝ) < 1 / 10 ^ 8 := by norm_num
    simp only [accessible, Bool.or_eq_true, decide_eq_true_eq]; right; linarith
  have hcn : 9 / 10 * p.meanSnow > 0 := by linarith
  have he : min 0 (p.ctg * cold + (1 - p.ctg) * (T - p.tMelt)) = eTG := rfl
  simp only [meltCema, h1, h2, Bool.and_false, Bool.not_true, Bool.or_self, Bool.false_eq_true, if_false, he, hcn, if_true]
  have hle : eTG ≤ 0 := min_le_left _ _
  by_cases h : eTG < 0 ∨ T ≤ p.tMelt
  · rw [if_pos h]
    have : ¬ (eTG = 0 ∧ T > p.tMelt) := by rintro ⟨a, b⟩; rcases h with h | h <;> linarith
    simp only [Doc.cemaMelt, Doc.cemaPotential, this, if_false, mul_zero]
  · rw [if_neg h]
    have h' : eTG = 0 ∧ T > p.tMelt := by
      push Not at h
      exact ⟨le_antisymm hle h.1, h.2⟩
    simp only [Doc.cemaMelt, Doc.cemaPotential, if_pos h']
    norm_num

/-- **Finding.**  Without snow the thermal state is not updated: after a day at −10 °C without snow the code's state is 0, the
documented one −5; the next snow then melts at once. -/
theorem c66_cemaneige_no_snow :
    let p : Cema := ⟨4, 1 / 2, 0, 100⟩
    (meltCema p (-10) { content := 0, dyn := 0, stat := 0, init := 0 } 0).1 = 0 ∧ Doc.cemaState p.ctg 0 (-10) p.tMelt = -5 := by
  constructor
  · simp [meltCema, lessThanOrEqual, prec, Cont.lvl, accessible]
  · norm_num [Doc.cemaState]

/-! ## Separation of rain and snow -/

/-- **C66 (rain and snow).**  The threshold law, and the CemaNeige solid fraction from 1500 m up, are the documented ones. -/
theorem c66_splitters (P T threshold elevation tMin tMax : ℝ) :
    splitThreshold P T threshold 1 1 = (P - Doc.thresholdSnow P T threshold, Doc.thresholdSnow P T threshold) ∧
    (1500 ≤ elevation → cemaSolid elevation T tMin tMax = Doc.solidFraction T (-1) 3) := by
  constructor
  · unfold splitThreshold Doc.thresholdSnow
    split <;> simp
  · intro h
    simp only [cemaSolid, ge_iff_le, h, if_true, Doc.solidFraction]
    by_cases h1 : T ≤ -1
    · rw [if_pos h1, min_eq_left, max_eq_right zero_le_one]
      rw [le_div_iff₀ (by norm_num)]; linarith
    · rw [if_neg h1]
      by_cases h2 : 3 ≤ T
      · rw [if_pos h2, max_eq_left]
        refine (min_le_right _ _).trans (div_nonpos_of_nonpos_of_nonneg (by linarith) (by norm_num))
      · rw [if_neg h2, min_eq_right, max_eq_right]
        · norm_num
        · exact div_nonneg (by linarith) (by norm_num)
        · rw [div_le_iff₀ (by norm_num)]; linarith

/-- **Finding.**  Below 1500 m the solid fraction is the share of the daily range below 0 °C and does not read the mean; the
documented formula gives half snow on a day between 10 and 20 °C (mean 15), the code none, and on a day between −20 and −10 °C half
snow, the code all. -/
theorem c66_cemaneige_low (elevation T tMin tMax : ℝ) (h : elevation < 1500) (hlt : tMin < tMax) :
    cemaSolid elevation T tMin tMax = max 0 (min 1 ((0 - tMin) / (tMax - tMin))) ∧
    (cemaSolid elevation 15 10 20 = 0 ∧ Doc.solidFraction 15 10 20 = 1 / 2) ∧
    (cemaSolid elevation (-15) (-20) (-10) = 1 ∧ Doc.solidFraction (-15) (-20) (-10) = 1 / 2) := by
  have hn : ¬ elevation ≥ 1500 := not_le.2 h
  refine ⟨?_, ?_, ?_⟩
  · simp only [cemaSolid, hn, if_false, not_lt.2 hlt.le]
    have hd : 0 < tMax - tMin := by linarith
    by_cases h1 : tMax ≤ 0
    · rw [if_pos h1, min_eq_left, max_eq_right zero_le_one]
      rw [le_div_iff₀ hd]; linarith
    · rw [if_neg h1]
      by_cases h2 : tMin ≥ 0
      · rw [if_pos h2, max_eq_left]
        exact (min_le_right _ _).trans (div_nonpos_of_nonpos_of_nonneg (by linarith) hd.le)
      · rw [if_neg h2]
        push Not at h1 h2
        have : 1 - tMax / (tMax - tMin) = (0 - tMin) / (tMax - tMin) := by field_simp; ring
        rw [this, min_eq_right, max_eq_right]
        · exact div_nonneg (by linarith) hd.le
        · rw [div_le_iff₀ hd]; linarith
  all_goals
    simp only [cemaSolid, hn, if_false, Doc.solidFraction]
    norm_num

/-! ## Lateral transfers -/

/-- **C66 (SnowSlide).**  Between the slope limits the holding depth is the documented one, and an output whose target is not
over-accumulated gets its share of the excess, capped at 1000 mm. -/
theorem c66_slide (p : SlidePar) (swe : ℝ) (outs : List LatOut) (h1 : p.minSlope ≤ p.slope) (h2 : p.slope ≤ p.maxSlope) (h3 : 0 < p.maxDepth) :
    let hold := Doc.slideHold p.coeff p.slope p.expo p.minHold p.maxDepth
    holdingDepth p = hold ∧
    ∀ (i : ℕ) (o : LatOut), outs[i]? = some o → 1 / 10 ^ 8 < o.frac → o.swe * 4 ≤ 3 / 2 * p.maxDepth →
      (slideRates p swe outs)[i]? = some (min 1000 (max 0 (swe - hold / 4)) * o.weight * o.frac) := by
  intro hold
  have hh : holdingDepth p = hold := by
    simp only [holdingDepth, max_eq_left h1, gt_iff_lt, not_lt.2 h2, if_false, h3, if_true, hold, Doc.slideHold]
    rw [mul_comm (1000 : ℝ)]
  refine ⟨hh, fun i o ho hfr hsw => ?_⟩
  have hex : slideExcess p swe = min 1000 (max 0 (swe - hold / 4)) := by
    unfold slideExcess sweToDepth
    rw [hh]
    dsimp only
    by_cases hd : swe * (1000 / 250) > hold
    · rw [if_pos hd]
      have e : (swe * (1000 / 250) - hold) / (1000 / 250) = swe - hold / 4 := by ring
      have hp : 0 < swe - hold / 4 := by norm_num at hd; linarith
      rw [e, max_eq_right hp.le]
      split
      · rename_i h; rw [min_eq_left h.le]
      · rename_i h; rw [min_eq_right (not_lt.1 h)]
    · rw [if_neg hd]
      have hp : swe - hold / 4 ≤ 0 := by norm_num at hd; linarith
      rw [max_eq_left hp, if_neg (by norm_num), min_eq_right (by norm_num)]
  have hl : latRate p.maxDepth sweToDepth (slideExcess p swe) o = slideExcess p swe * o.weight * o.frac := by
    have h0 : (0 : ℝ) < 1 / 10 ^ 8 := by norm_num
    have hp : ¬ |o.frac| ≤ prec := by
      rw [abs_of_pos (by linarith)]; simp only [prec, not_le]; norm_num at hfr ⊢; linarith
    have ha : ¬ (p.maxDepth > 0 ∧ o.swe > 3 / 2 * p.maxDepth / sweToDepth) := by
      rintro ⟨-, h⟩
      unfold sweToDepth at h
      have : 3 / 2 * p.maxDepth / (1000 / 250) = 3 / 2 * p.maxDepth / 4 := by norm_num
      rw [this, gt_iff_lt, div_lt_iff₀ (by norm_num)] at h
      linarith
    simp only [latRate, hp, if_false, avoidAccumulation, ha]
  unfold slideRates
  by_cases h0 : slideExcess p swe ≤ 0
  · rw [if_pos h0, List.getElem?_map, ho]
    have : slideExcess p swe = 0 := by
      rw [hex] at h0 ⊢
      exact le_antisymm h0 (le_min (by norm_num) (le_max_left _ _))
    rw [← hex, this]
    simp
  · rw [if_neg h0, List.getElem?_map, ho, Option.map_some, hl, hex]

/-- **C66 (Frey redistribution).**  For densities up to the maximum and slopes from 0° to 90°, the amount sent is the documented
one, capped at 1000 mm. -/
theorem c66_frey (p : FreyPar) (swe : ℝ) (hr : 0 < p.rho) (hrm : p.rho ≤ p.rhoMax) (h0 : 0 ≤ p.slope) (h90 : p.slope ≤ 90)
    (hH : 0 ≤ p.holding) (hC : 0 ≤ p.correction) :
    freyAmount p swe = min 1000 (Doc.freyExcess swe p.holding (1000 / p.rho) * Doc.freyCoefficient p.rhoMax p.rho p.slope * p.correction) := by
  have hco : freyCoef p = Doc.freyCoefficient p.rhoMax p.rho p.slope := by
    unfold freyCoef Doc.freyCoefficient
    rw [min_eq_right h90, max_eq_right h0]
    rcases hrm.lt_or_eq with h | h
    · rw [if_pos h]
    · rw [if_neg h.not_lt, h, sub_self]; simp
  have hex : max (swe - freyHolding p) 0 = Doc.freyExcess swe p.holding (1000 / p.rho) := rfl
  have hcn : 0 ≤ Doc.freyCoefficient p.rhoMax p.rho p.slope := by
    unfold Doc.freyCoefficient
    have : 0 < p.rhoMax := by linarith
    have := Real.exp_pos (-p.rho / p.rhoMax)
    exact mul_nonneg (mul_nonneg (div_nonneg (by linarith) (by linarith)) this.le) (div_nonneg h0 (by norm_num))
  have hzero : ∀ a b : ℝ, a = 0 → min 1000 (a * b) = 0 := by intro a b h; rw [h, zero_mul, min_eq_right (by norm_num)]
  unfold freyAmount
  rw [hex, hco]
  have hen : 0 ≤ Doc.freyExcess swe p.holding (1000 / p.rho) := le_max_right _ _
  by_cases h1 : swe ≤ 0
  · rw [if_pos h1]
    have : Doc.freyExcess swe p.holding (1000 / p.rho) = 0 := by
      unfold Doc.freyExcess
      apply max_eq_right
      have : 0 ≤ p.holding / (1000 / p.rho) := by positivity
      linarith
    rw [this, zero_mul, zero_mul, min_eq_right (by norm_num)]
  · rw [if_neg h1]
    by_cases h2 : Doc.freyExcess swe p.holding (1000 / p.rho) ≤ 0
    · rw [if_pos h2, le_antisymm h2 hen, zero_mul, zero_mul, min_eq_right (by norm_num)]
    · rw [if_neg h2]
      by_cases h3 : Doc.freyCoefficient p.rhoMax p.rho p.slope ≤ 0
      · rw [if_pos h3, le_antisymm h3 hcn, mul_zero, zero_mul, min_eq_right (by norm_num)]
      · rw [if_neg h3]
        dsimp only
        split
        · rename_i h; rw [min_eq_left h.le]
        · rename_i h; rw [min_eq_right (not_lt.1 h)]

/-! ## Examples -/

example : Spec.Store { content := 60, dyn := 0, stat := 0, init := 0, cap := some 100 } 100 := by
  constructor <;> simp [Cont.lvl] <;> norm_num

/-- A quarter-full Socont store evaporates at half the potential rate. -/
example : etRate 1 4 { content := 25, dyn := 0, stat := 0, init := 0, cap := some 100 } .socont = some 2 := by
  rw [(c66_et 1 4 100 _ (by constructor <;> simp [Cont.lvl] <;> norm_num) one_pos).2.2.1]
  have : Real.sqrt (1 / 4) = 1 / 2 := by
    rw [show (1 / 4 : ℝ) = (1 / 2) ^ 2 by norm_num, Real.sqrt_sq (by norm_num)]
  have e : min (Cont.lvl { content := 25, dyn := 0, stat := 0, init := 0, cap := some 100 }) 100 / 100 = 1 / 4 := by
    norm_num [Cont.lvl]
  rw [Doc.etSocont, e, this]
  norm_num

/-- Two soils: the capillary flux to one of them. -/
example : capillaryRate 3 ⟨{ content := 50, dyn := 0, stat := 0, init := 0, cap := some 100 }, [1 / 4, 1 / 4]⟩ = some (3 / 4) := by
  rw [c66_capillary 3 100 _ (by constructor <;> simp [Cont.lvl] <;> norm_num)]
  norm_num [Doc.capillaryHBV, Cont.lvl]
  simp

end HB
