import Verif.Props.LawsWater
import Verif.Model.Network
import Mathlib.Analysis.SpecialFunctions.Trigonometric.Basic

/-! # C21–C25, C56: melt, snowpack liquid water, outflow, percolation and capillary laws -/

namespace HB

/-! ## C21: melt laws -/

/-- A degree-day law with factor `f`: zero at or below the melting temperature or when the pack is out
of reach, proportional to the excess above it (spec). -/
def Spec.degreeDay (melt : Bool → ℝ → ℝ) (Tm f : ℝ) : Prop :=
  (∀ acc T, 0 ≤ melt acc T) ∧
  (∀ T, melt false T = 0) ∧
  (∀ acc T, T ≤ Tm → melt acc T = 0) ∧
  (∀ T, Tm ≤ T → melt true T = f * (T - Tm)) ∧
  (∀ acc T T', T ≤ T' → melt acc T ≤ melt acc T')

theorem degreeDay_of (Tm f : ℝ) (hf : 0 ≤ f) (melt : Bool → ℝ → ℝ)
    (h : ∀ acc T, melt acc T = if !acc then 0 else if T ≥ Tm then (T - Tm) * f else 0) :
    Spec.degreeDay melt Tm f := by
  have hnn : ∀ acc T, 0 ≤ melt acc T := by
    intro acc T
    rw [h]
    split
    · exact le_rfl
    · split
      · rename_i hT; exact mul_nonneg (by linarith [show Tm ≤ T from hT]) hf
      · exact le_rfl
  have hb : ∀ acc T, T ≤ Tm → melt acc T = 0 := by
    intro acc T hT
    rw [h]
    split
    · rfl
    · split
      · rename_i h2
        have : T = Tm := le_antisymm hT h2
        simp [this]
      · rfl
  refine ⟨hnn, fun T => by simp [h], hb, ?_, ?_⟩
  · intro T hT; simp [h, hT]; ring
  · intro acc T T' hTT
    by_cases c1 : T ≤ Tm
    · rw [hb acc T c1]; exact hnn _ _
    · have c1' : Tm ≤ T := (not_le.1 c1).le
      cases acc with
      | false => simp [h]
      | true =>
        have c2 : Tm ≤ T' := c1'.trans hTT
        simp only [h, c1', c2, ge_iff_le, if_true, Bool.not_true, Bool.false_eq_true, if_false]
        exact mul_le_mul_of_nonneg_right (by linarith) hf

/-- **C21.** The degree-day (also per aspect) and temperature-index melt laws are degree-day laws. -/
theorem c21_melt (Tm ddf mf rc solar : ℝ) (h1 : 0 ≤ ddf) (h2 : 0 ≤ mf) (h3 : 0 ≤ rc) (h4 : 0 ≤ solar) :
    Spec.degreeDay (fun acc T => meltDegreeDay acc T Tm ddf) Tm ddf ∧
    Spec.degreeDay (fun acc T => meltTemperatureIndex acc T Tm mf rc solar) Tm (mf + rc * solar) :=
  ⟨degreeDay_of Tm ddf h1 _ (fun _ _ => rfl),
   degreeDay_of Tm (mf + rc * solar) (by positivity) _ (fun _ _ => rfl)⟩

/-- **C21 (buried ice).** With the "no melt under snow" option, ice covered by snow does not melt
whatever the temperature; without snow it melts as usual. -/
theorem c21_ice_under_snow (snow ice : Cont ℝ) (T Tm ddf : ℝ) :
    (1 / 2 ^ 23 < snow.lvl → meltDegreeDay (iceAccessible true snow ice) T Tm ddf = 0) ∧
    (snow.lvl ≤ 0 → iceAccessible true snow ice = accessible ice) ∧
    iceAccessible false snow ice = accessible ice := by
  refine ⟨?_, ?_, ?_⟩
  · intro h
    have h1 : greaterThan snow.lvl 0 epsF = true := by simp [greaterThan, epsF]; norm_num at h ⊢; linarith
    have h2 : greaterThan snow.lvl 0 prec = true := by
      simp [greaterThan, prec]; norm_num at h ⊢; linarith
    simp [iceAccessible, h1, h2, meltDegreeDay]
  · intro h
    have h1 : greaterThan snow.lvl 0 epsF = false := by
      simp [greaterThan, epsF]; norm_num at h ⊢; linarith
    simp [iceAccessible, h1]
  · simp [iceAccessible]

example : meltDegreeDay true 5 2 3 = 9 := by simp [meltDegreeDay]; norm_num

/-! ## C22: CemaNeige -/

/-- The thermal states and melts over a series of days (temperature, snow container). -/
noncomputable def cemaSeries (p : Cema) : ℝ → List (ℝ × Cont ℝ) → List (ℝ × ℝ)
  | _, [] => []
  | cold, (T, c) :: rest =>
    let o := meltCema p T c cold
    o :: cemaSeries p o.1 rest

theorem meltCema_step (p : Cema) (T cold : ℝ) (c : Cont ℝ) (hcold : cold ≤ 0) (hk : 0 ≤ p.kf)
    (hc : 0 ≤ c.lvl) :
    let o := meltCema p T c cold
    o.1 ≤ 0 ∧ 0 ≤ o.2 ∧ o.2 ≤ p.kf * max (T - p.tMelt) 0 ∧
    (0 < o.2 → o.1 = 0 ∧ p.tMelt < T) ∧
    (1 / 10 ^ 8 < c.lvl → o.1 = 0 → p.tMelt < T → p.kf * (T - p.tMelt) / 10 ≤ o.2) := by
  unfold meltCema
  split
  · rename_i h
    refine ⟨hcold, le_rfl, mul_nonneg hk (le_max_right _ _), fun h => absurd h (lt_irrefl _), ?_⟩
    intro h1
    exfalso
    have hp : (0:ℝ) < c.lvl := lt_trans (by norm_num) h1
    simp [accessible, lessThanOrEqual, prec, hp] at h
    norm_num at h1 h
    linarith [h.2]
  · dsimp only
    split
    · rename_i h
      refine ⟨min_le_left _ _, le_rfl, mul_nonneg hk (le_max_right _ _), fun h => absurd h (lt_irrefl _), ?_⟩
      intro _ h1 h2
      dsimp only at h1
      rcases h with h | h <;> linarith
    · rename_i h
      push Not at h
      have h0 : min 0 (p.ctg * cold + (1 - p.ctg) * (T - p.tMelt)) = 0 := le_antisymm (min_le_left _ _) h.1
      have hT : p.tMelt < T := h.2
      have hpot : 0 ≤ p.kf * (T - p.tMelt) := mul_nonneg hk (by linarith)
      have hg0 : 0 ≤ (if 9 / 10 * p.meanSnow > 0 then min 1 (c.lvl / (9 / 10 * p.meanSnow)) else 1) := by
        split
        · rename_i hcn; exact le_min zero_le_one (div_nonneg hc hcn.le)
        · exact zero_le_one
      have hg1 : (if 9 / 10 * p.meanSnow > 0 then min 1 (c.lvl / (9 / 10 * p.meanSnow)) else 1) ≤ 1 := by
        split
        · exact min_le_left _ _
        · exact le_rfl
      generalize (if 9 / 10 * p.meanSnow > 0 then min 1 (c.lvl / (9 / 10 * p.meanSnow)) else 1) = g at *
      refine ⟨h0.le, by positivity, ?_, fun _ => ⟨h0, hT⟩, ?_⟩
      · rw [max_eq_left (by linarith)]; nlinarith
      · intro _ _ _
        show _ ≤ (9 / 10 * g + 1 / 10) * (p.kf * (T - p.tMelt))
        have := mul_nonneg hg0 hpot
        nlinarith

/-- **C22.** Over any series of days from a reset snowpack (thermal state 0), the thermal state is never
positive; melt is non-negative, only occurs when the state is zero and the air above the melting
temperature, never exceeds the degree-day potential, and is then at least a tenth of it. -/
theorem c22_cemaneige (p : Cema) (days : List (ℝ × Cont ℝ)) (hk : 0 ≤ p.kf)
    (hc : ∀ d ∈ days, 0 ≤ d.2.lvl) :
    ∀ x ∈ days.zip (cemaSeries p 0 days),
      x.2.1 ≤ 0 ∧ 0 ≤ x.2.2 ∧ x.2.2 ≤ p.kf * max (x.1.1 - p.tMelt) 0 ∧
      (0 < x.2.2 → x.2.1 = 0 ∧ p.tMelt < x.1.1) ∧
      (1 / 10 ^ 8 < x.1.2.lvl → x.2.1 = 0 → p.tMelt < x.1.1 → p.kf * (x.1.1 - p.tMelt) / 10 ≤ x.2.2) := by
  have gen : ∀ (days : List (ℝ × Cont ℝ)) (cold : ℝ), cold ≤ 0 → (∀ d ∈ days, 0 ≤ d.2.lvl) →
      ∀ x ∈ days.zip (cemaSeries p cold days),
      x.2.1 ≤ 0 ∧ 0 ≤ x.2.2 ∧ x.2.2 ≤ p.kf * max (x.1.1 - p.tMelt) 0 ∧
      (0 < x.2.2 → x.2.1 = 0 ∧ p.tMelt < x.1.1) ∧
      (1 / 10 ^ 8 < x.1.2.lvl → x.2.1 = 0 → p.tMelt < x.1.1 → p.kf * (x.1.1 - p.tMelt) / 10 ≤ x.2.2) := by
    intro days
    induction days with
    | nil => intro _ _ _ x hx; simp [cemaSeries] at hx
    | cons d rest ih =>
      intro cold hcold hl x hx
      obtain ⟨T, c⟩ := d
      have hs := meltCema_step p T cold c hcold hk (hl (T, c) (by simp))
      simp only [cemaSeries, List.zip_cons_cons, List.mem_cons] at hx
      rcases hx with rfl | hx
      · exact hs
      · exact ih _ hs.1 (fun d hd => hl d (by simp [hd])) x hx
  exact gen days 0 le_rfl hc

/-- **C22 (thermal inertia).** With an inertia factor in [0, 1], the thermal state never falls below the
coldest excess seen: it is a weighted mean of past temperatures, clipped at 0. -/
theorem c22_state_bounded (p : Cema) (days : List (ℝ × Cont ℝ)) (m : ℝ) (hm : m ≤ 0)
    (h0 : 0 ≤ p.ctg) (h1 : p.ctg ≤ 1) (hT : ∀ d ∈ days, m ≤ d.1 - p.tMelt) :
    ∀ o ∈ cemaSeries p 0 days, m ≤ o.1 := by
  have gen : ∀ (days : List (ℝ × Cont ℝ)) (cold : ℝ), m ≤ cold → (∀ d ∈ days, m ≤ d.1 - p.tMelt) →
      ∀ o ∈ cemaSeries p cold days, m ≤ o.1 := by
    intro days
    induction days with
    | nil => intro _ _ _ o ho; simp [cemaSeries] at ho
    | cons d rest ih =>
      intro cold hcold hl o ho
      obtain ⟨T, c⟩ := d
      have hd : m ≤ T - p.tMelt := hl (T, c) (by simp)
      have hstep : m ≤ (meltCema p T c cold).1 := by
        have hw : m ≤ p.ctg * cold + (1 - p.ctg) * (T - p.tMelt) := by nlinarith
        unfold meltCema
        split
        · exact hcold
        · dsimp only
          split <;> exact le_min hm hw
      simp only [cemaSeries, List.mem_cons] at ho
      rcases ho with rfl | ho
      · exact hstep
      · exact ih _ hstep (fun d hd => hl d (by simp [hd])) o ho
  exact gen days 0 hm hT

/-- Witness: a warm day after reset melts at full rate on a deep pack. -/
example : meltCema { kf := 4, ctg := 1 / 2, tMelt := 0, meanSnow := 100 } 3
    { content := 200, dyn := 0, stat := 0, init := 0 } 0 = (0, 12) := by
  simp only [meltCema, accessible, lessThanOrEqual, prec, Cont.lvl]
  norm_num

/-! ## C23: liquid water of the snowpack -/

/-- **C23 (retention).** Over the step the snowpack releases exactly the liquid water above its holding
capacity, leaving min(water, capacity × snow). -/
theorem c23_holding (dt whc : ℝ) (snow water : Cont ℝ) (hdt : 0 < dt) :
    0 ≤ outflowSnowHolding dt whc snow water ∧
    outflowSnowHolding dt whc snow water * dt = max (water.lvl - whc * snow.lvl) 0 ∧
    water.lvl - outflowSnowHolding dt whc snow water * dt = min water.lvl (whc * snow.lvl) := by
  have key : outflowSnowHolding dt whc snow water * dt = max (water.lvl - whc * snow.lvl) 0 := by
    unfold outflowSnowHolding
    dsimp only
    split
    · rename_i h; rw [max_eq_right h]; ring
    · rename_i h; rw [max_eq_left (not_le.1 h).le]; field_simp
  refine ⟨?_, key, ?_⟩
  · unfold outflowSnowHolding
    dsimp only
    split
    · exact le_rfl
    · rename_i h; exact div_nonneg (not_le.1 h).le hdt.le
  · rw [key]
    rcases le_total water.lvl (whc * snow.lvl) with h | h
    · rw [max_eq_right (by linarith), min_eq_left h]; ring
    · rw [max_eq_left (by linarith), min_eq_right h]; ring

/-- **C23 (refreezing).** Refreezing only acts below the melting temperature, proportionally to the
deficit. -/
theorem c23_refreeze (Tm ddf crf T : ℝ) (h1 : 0 ≤ ddf) (h2 : 0 ≤ crf) :
    0 ≤ refreezeRate (some (Tm, ddf)) crf T ∧
    (Tm ≤ T → refreezeRate (some (Tm, ddf)) crf T = 0) ∧
    (T ≤ Tm → refreezeRate (some (Tm, ddf)) crf T = crf * ddf * (Tm - T)) ∧
    (∀ T', T' ≤ T → refreezeRate (some (Tm, ddf)) crf T ≤ refreezeRate (some (Tm, ddf)) crf T') := by
  have h12 : 0 ≤ crf * ddf := mul_nonneg h2 h1
  have form : ∀ T, refreezeRate (some (Tm, ddf)) crf T = crf * ddf * max (Tm - T) 0 := by
    intro T
    simp only [refreezeRate]
    split
    · rename_i h; rw [max_eq_right (by linarith [show Tm ≤ T from h])]; ring
    · rename_i h; rw [max_eq_left (by linarith [not_le.1 h])]
  refine ⟨by rw [form]; positivity, fun h => by rw [form, max_eq_right (by linarith)]; ring,
    fun h => by rw [form, max_eq_left (by linarith)], fun T' h => ?_⟩
  rw [form, form]
  exact mul_le_mul_of_nonneg_left (max_le_max (by linarith) le_rfl) h12

/-- **C23 (transfer).** Applying a process that moves water between two stores of one snowpack through an
instantaneous, unscaled flux (as settings generate for melt and refreezing) keeps the sum of the two
levels, whatever the rate. -/
theorem c23_transfer (net : Net ℝ) (ph : Phys ℝ) (dt rate : ℝ) (src dst f : Nat) (hne : src ≠ dst)
    (ht : (net.flux f).target = .cont dst) (hi : (net.flux f).inst = true) (hf : (net.flux f).frac = 1)
    (h1 : (ph.cont src).infinite = false) (h2 : (ph.cont dst).infinite = false) :
    let ph' := applyChange net dt src f rate ph
    (ph'.cont src).lvl + (ph'.cont dst).lvl = (ph.cont src).lvl + (ph.cont dst).lvl := by
  unfold applyChange
  dsimp only
  generalize (if rate < 0 then 0 else rate) = r
  split
  · simp [updateFlux, hi, ht, FluxSpec.scale, hf, upd, hne, hne.symm, Cont.addStat, Cont.subDyn, h1, h2, Cont.lvl]
    ring
  · simp [updateFlux, hi, ht, FluxSpec.scale, hf, upd, hne, Cont.addStat, h2, Cont.lvl]

/-- Witness: 5 mm of water on 20 mm of snow with 10 % capacity: 3 mm leave. -/
example : outflowSnowHolding 1 (1 / 10) { content := 20, dyn := 0, stat := 0, init := 0 }
    { content := 5, dyn := 0, stat := 0, init := 0 } = 3 := by
  simp only [outflowSnowHolding, Cont.lvl]; norm_num

/-! ## C24: outflow and runoff laws -/

/-- **C24 (non-negative).** Every outflow law yields a non-negative rate from a non-negative level. -/
theorem c24_nonneg (c : Cont ℝ) (hc : 0 ≤ c.lvl) (k alpha beta slope area dt cap : ℝ) (hk : 0 ≤ k)
    (hb : 0 ≤ beta) (hs : 0 ≤ slope) (ha : 0 < area) (hdt : 0 < dt) (b : Bool) (others : List ℝ) :
    0 ≤ outflowLinear k c ∧ 0 ≤ outflowDirect c ∧ 0 ≤ outflowRest b others c ∧
    0 ≤ outflowThreshold dt cap c ∧ 0 ≤ runoffHBV k alpha c ∧ 0 ≤ runoffSocont beta slope area c := by
  refine ⟨mul_nonneg hk hc, le_max_right _ _, le_max_right _ _, ?_, ?_, ?_⟩
  · unfold outflowThreshold; dsimp only
    split
    · exact le_rfl
    · rename_i h; exact div_nonneg (not_le.1 h).le hdt.le
  · unfold runoffHBV
    split
    · exact le_rfl
    · exact mul_nonneg hk (Real.rpow_nonneg hc _)
  · unfold runoffSocont
    dsimp only
    apply le_min _ hc
    have : 0 ≤ slope ^ (1 / 2 : ℝ) := Real.rpow_nonneg hs _
    have : 0 ≤ (c.lvl * 2 / 1000) ^ (5 / 3 : ℝ) := Real.rpow_nonneg (by positivity) _
    positivity

/-- **C24 (at most what is there).** Over a step of at most one day the direct, rest, Socont and threshold
laws release at most the available water, the linear law too when `k·dt ≤ 1`; the threshold law leaves
exactly min(level, threshold), for any step length. -/
theorem c24_release (c : Cont ℝ) (hc : 0 ≤ c.lvl) (k beta slope area dt cap : ℝ) (hdt : 0 < dt) (hdt1 : dt ≤ 1)
    (hkdt : k * dt ≤ 1) (hcap : 0 ≤ cap) (b : Bool) (others : List ℝ) (ho : ∀ x ∈ others, 0 ≤ x) :
    outflowDirect c * dt ≤ c.lvl ∧ outflowRest b others c * dt ≤ c.lvl ∧
    runoffSocont beta slope area c * dt ≤ c.lvl ∧ outflowLinear k c * dt ≤ c.lvl ∧
    c.lvl - outflowThreshold dt cap c * dt = min c.lvl cap := by
  have hstep : ∀ x, x ≤ c.lvl → x * dt ≤ c.lvl := by
    intro x hx
    nlinarith
  have hsum : 0 ≤ others.sum := List.sum_nonneg ho
  refine ⟨hstep _ (max_le le_rfl hc), hstep _ ?_, hstep _ (min_le_right _ _), ?_, ?_⟩
  · unfold outflowRest
    apply max_le _ hc
    split <;> linarith
  · unfold outflowLinear; nlinarith
  · unfold outflowThreshold; dsimp only
    split
    · rename_i h; rw [min_eq_left (by linarith)]; ring
    · rename_i h
      rw [min_eq_right (by linarith [not_le.1 h]), div_mul_cancel₀ _ hdt.ne']; ring

/-- **C24 (rest).** In a solved brick the rest process complements its siblings: when they ask for no
more than the level, the total demand is exactly the level. -/
theorem c24_rest_complement (c : Cont ℝ) (others : List ℝ) (h : others.sum ≤ c.lvl) :
    others.sum + outflowRest true others c = c.lvl := by
  simp only [outflowRest, if_true]
  rw [max_eq_left (by linarith)]; ring

/-- **C24 (monotone).** The linear, power-law (HBV) and Socont runoffs never decrease with the level. -/
theorem c24_mono (c c' : Cont ℝ) (hc : 0 ≤ c.lvl) (h : c.lvl ≤ c'.lvl) (k alpha beta slope area : ℝ)
    (hk : 0 ≤ k) (ha : -1 ≤ alpha) (hb : 0 ≤ beta) (hs : 0 ≤ slope) (har : 0 < area) :
    outflowLinear k c ≤ outflowLinear k c' ∧ runoffHBV k alpha c ≤ runoffHBV k alpha c' ∧
    runoffSocont beta slope area c ≤ runoffSocont beta slope area c' := by
  refine ⟨mul_le_mul_of_nonneg_left h hk, ?_, ?_⟩
  · unfold runoffHBV
    by_cases c1 : c.lvl ≤ 0
    · simp only [c1, if_true]
      split
      · exact le_rfl
      · rename_i c2; exact mul_nonneg hk (Real.rpow_nonneg (not_le.1 c2).le _)
    · have c2 : ¬ c'.lvl ≤ 0 := by linarith [not_le.1 c1]
      simp only [c1, c2, if_false]
      exact mul_le_mul_of_nonneg_left (Real.rpow_le_rpow hc h (by linarith)) hk
  · unfold runoffSocont
    dsimp only
    have h1 : 0 ≤ slope ^ (1 / 2 : ℝ) := Real.rpow_nonneg hs _
    have h2 : (c.lvl * 2 / 1000) ^ (5 / 3 : ℝ) ≤ (c'.lvl * 2 / 1000) ^ (5 / 3 : ℝ) :=
      Real.rpow_le_rpow (by positivity) (by linarith) (by norm_num)
    apply min_le_min _ h
    gcongr

/-- **Negative result (C24).** With a step of two days the direct law asks for twice the content (the
storage constraints then limit it, C01). -/
theorem c24_two_day_step :
    outflowDirect { content := 5, dyn := 0, stat := 0, init := 0 } * 2 = 10 := by
  simp only [outflowDirect, Cont.lvl]; norm_num

/-! ## C25: percolation and capillary rise -/

/-- **C25.** Constant percolation asks for its (non-negative) rate from a non-empty storage and nothing
from an empty one. -/
theorem c25_percolation (rate : ℝ) (c : Cont ℝ) (h : 0 ≤ rate) :
    0 ≤ changeRate c (percolationConstant rate) ∧ changeRate c (percolationConstant rate) ≤ rate ∧
    (c.infinite = false → c.lvl ≤ 0 → changeRate c (percolationConstant rate) = 0) := by
  unfold changeRate percolationConstant
  refine ⟨by split <;> simp [h], by split <;> simp [h], fun hi hl => ?_⟩
  have : lessThanOrEqual c.lvl 0 prec = true := by
    simp [lessThanOrEqual]; linarith [prec_nonneg (K := ℝ)]
  simp [hi, this]

/-- **C25 (capillary rise).** Towards each soil the rise is between 0 and cflux × the area share of that
soil, vanishes at saturation, equals that share for a dry soil, and never increases when the soil fills;
the total over soils whose shares sum to at most one does not exceed cflux. -/
theorem c25_capillary (cflux : ℝ) (h : 0 ≤ cflux) (ts : List CapTarget)
    (hcap : ∀ t ∈ ts, ∃ cap, Spec.Target t.cont cap) (hw : ∀ t ∈ ts, 0 ≤ t.weight)
    (hsum : (ts.map CapTarget.weight).sum ≤ 1) :
    ∃ rs, ts.mapM (capillaryRate cflux) = some rs ∧ rs.length = ts.length ∧
      (∀ x ∈ ts.zip rs, 0 ≤ x.2 ∧ x.2 ≤ cflux * x.1.weight ∧
        (∀ cap, x.1.cont.cap = some cap → cap ≤ x.1.cont.lvl → x.2 = 0) ∧
        (x.1.cont.lvl ≤ 0 → x.2 = cflux * x.1.weight)) ∧
      rs.sum ≤ cflux := by
  have one : ∀ t : CapTarget, (∃ cap, Spec.Target t.cont cap) → 0 ≤ t.weight →
      ∃ r, capillaryRate cflux t = some r ∧ 0 ≤ r ∧ r ≤ cflux * t.weight ∧
        (∀ cap, t.cont.cap = some cap → cap ≤ t.cont.lvl → r = 0) ∧
        (t.cont.lvl ≤ 0 → r = cflux * t.weight) := by
    rintro t ⟨cap, ht⟩ hwt
    have hfr := fillingRatio_eq ht.finite ht.cap_eq
    obtain ⟨x0, x1⟩ := ratio_mem (t.cont.lvl / cap)
    refine ⟨cflux * t.weight * (1 - max 0 (min 1 (max 0 (min 1 (t.cont.lvl / cap))))), ?_, ?_, ?_, ?_, ?_⟩
    · simp only [capillaryRate, ht.cap_eq, Option.bind_some, not_le.2 ht.cap_pos, if_false, hfr, Option.map_some]
    all_goals rw [min_eq_right x1, max_eq_right x0]
    · exact mul_nonneg (mul_nonneg h hwt) (by linarith)
    · exact mul_le_of_le_one_right (mul_nonneg h hwt) (by linarith)
    · intro cap' hc' hf
      have : cap' = cap := by have := ht.cap_eq; rw [hc'] at this; exact Option.some.inj this
      subst this
      rw [ratio_full ((one_le_div ht.cap_pos).2 hf)]; ring
    · intro hl
      rw [ratio_empty (div_nonpos_of_nonpos_of_nonneg hl ht.cap_pos.le)]; ring
  have gen : ∀ ts : List CapTarget, (∀ t ∈ ts, ∃ cap, Spec.Target t.cont cap) → (∀ t ∈ ts, 0 ≤ t.weight) →
      ∃ rs, ts.mapM (capillaryRate cflux) = some rs ∧ rs.length = ts.length ∧
      (∀ x ∈ ts.zip rs, 0 ≤ x.2 ∧ x.2 ≤ cflux * x.1.weight ∧
        (∀ cap, x.1.cont.cap = some cap → cap ≤ x.1.cont.lvl → x.2 = 0) ∧
        (x.1.cont.lvl ≤ 0 → x.2 = cflux * x.1.weight)) ∧
      rs.sum ≤ cflux * (ts.map CapTarget.weight).sum := by
    intro ts
    induction ts with
    | nil => intro _ _; exact ⟨[], by simp, rfl, by simp, by simp⟩
    | cons t ts ih =>
      intro h1 h2
      obtain ⟨r, hr, p1, p2, p3, p4⟩ := one t (h1 t (by simp)) (h2 t (by simp))
      obtain ⟨rs, hrs, hlen, q1, q2⟩ := ih (fun t ht => h1 t (by simp [ht])) (fun t ht => h2 t (by simp [ht]))
      refine ⟨r :: rs, by simp [List.mapM_cons, hr, hrs], by simp [hlen], ?_, ?_⟩
      · intro x hx
        simp only [List.zip_cons_cons, List.mem_cons] at hx
        rcases hx with rfl | hx
        · exact ⟨p1, p2, p3, p4⟩
        · exact q1 x hx
      · simp only [List.sum_cons, List.map_cons, mul_add]; linarith
  obtain ⟨rs, a, b, c, d⟩ := gen ts hcap hw
  exact ⟨rs, a, b, c, d.trans (mul_le_of_le_one_right h hsum)⟩

/-- Witness: two soils fed by 40 % and 60 % of the unit, one half full and one dry. -/
example : [(⟨{ content := 50, dyn := 0, stat := 0, init := 0, cap := some 100 }, [2 / 5]⟩ : CapTarget),
    ⟨{ content := 0, dyn := 0, stat := 0, init := 0, cap := some 100 }, [1 / 5, 2 / 5]⟩].mapM (capillaryRate 5) =
    some [1, 3] := by
  simp only [List.mapM_cons, List.mapM_nil, capillaryRate, CapTarget.weight, Cont.fillingRatio, Cont.withChanges,
    reduceCtorEq, if_false]
  norm_num

/-! ## C56: sublimation and snow-to-ice transformation -/

/-- **C56.** Sublimation is non-negative, at most the prescribed rate (constant or factor × PET) and zero
without snow; the seasonal snow-to-ice transformation rate is between 0 and twice the basal coefficient
times the snow, has mean-season value at the reference day, and the southern-hemisphere curve is the
northern one shifted by 183 days. -/
theorem c56_sublimation_transform (acc : Bool) (rate pet factor coeff : ℝ) (doy : ℤ) (c : Cont ℝ)
    (h1 : 0 ≤ rate) (h2 : 0 ≤ pet) (h3 : 0 ≤ factor) (h4 : 0 ≤ coeff) (hc : 0 ≤ c.lvl) (north : Bool) :
    (0 ≤ sublimationConstant acc rate ∧ sublimationConstant acc rate ≤ rate ∧
      sublimationConstant false rate = 0) ∧
    (0 ≤ sublimationPET acc pet factor ∧ sublimationPET acc pet factor ≤ factor * pet ∧
      sublimationPET false pet factor = 0) ∧
    (0 ≤ snowToIceSwat north coeff doy c ∧ snowToIceSwat north coeff doy c ≤ 2 * coeff * c.lvl ∧
      snowToIceSwat true coeff 81 c = coeff * c.lvl ∧ snowToIceSwat false coeff 264 c = coeff * c.lvl ∧
      snowToIceSwat false coeff (doy + 183) c = snowToIceSwat true coeff doy c) := by
  refine ⟨?_, ?_, ?_, ?_, ?_, ?_, ?_⟩
  · cases acc <;> simp [sublimationConstant, h1]
  · have := mul_nonneg h2 h3
    cases acc <;> simp [sublimationPET, this, mul_comm factor pet]
  · unfold snowToIceSwat
    have := Real.neg_one_le_sin (2 * Real.pi * ((doy - (if north then 81 else 264) : ℤ) : ℝ) / 365)
    exact mul_nonneg (mul_nonneg h4 (by linarith)) hc
  · unfold snowToIceSwat
    have := Real.sin_le_one (2 * Real.pi * ((doy - (if north then 81 else 264) : ℤ) : ℝ) / 365)
    dsimp only
    apply mul_le_mul_of_nonneg_right _ hc
    nlinarith
  · simp [snowToIceSwat]
  · simp [snowToIceSwat]
  · simp only [snowToIceSwat, Bool.false_eq_true, if_false, if_true]
    have : (doy + 183 - 264 : ℤ) = doy - 81 := by ring
    rw [this]

end HB
