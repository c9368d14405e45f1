import Mathlib.Analysis.SpecialFunctions.Pow.Real
import Verif.Model.Lateral
import Mathlib.Algebra.BigOperators.Group.List.Basic
import Mathlib.Algebra.Order.BigOperators.Group.List
import Mathlib.Tactic.Linarith
import Mathlib.Tactic.FieldSimp
import Mathlib.Tactic.Ring
import Mathlib.Tactic.Positivity
import Mathlib.Tactic.NormNum

/-! # C31: lateral snow transfers -/

namespace HB

/-! ## Specification: volumes -/

/-- Volume received by the target of an output when it gets `x` mm. -/
def Spec.volIn (o : LatOut) (x : ℝ) : ℝ := x * (o.area * o.frac)

/-- Volume given by a pack of extent `oFrac` in a unit of area `oArea` when it loses `x` mm. -/
def Spec.volOut (oArea oFrac x : ℝ) : ℝ := x * (oArea * oFrac)

/-- A receiver network as the data pre-processing makes it: positive areas, extents in [0,1] summing to at
most one per receiver, shares accepted by the model and summing to at most one. -/
structure Spec.GoodConns (cs : List Conn) : Prop where
  acc : ∀ c ∈ cs, connAccepted c
  area : ∀ c ∈ cs, 0 < c.area
  frac : ∀ c ∈ cs, ∀ p ∈ c.packs, 0 ≤ p.frac
  fsum : ∀ c ∈ cs, (c.packs.map (·.frac)).sum ≤ 1
  wsum : (cs.map (·.weight)).sum ≤ 1

theorem connAccepted_pos {c : Conn} (h : connAccepted c) : 0 < c.weight ∧ c.weight ≤ 1 := by
  unfold connAccepted at h; push Not at h; exact ⟨h.1, h.2⟩

/-! ## Shares -/

theorem latRate_le {maxDepth f a : ℝ} (ha : 0 ≤ a) (o : LatOut) (hw : 0 ≤ o.weight) (hf : 0 ≤ o.frac) :
    0 ≤ latRate maxDepth f a o ∧ latRate maxDepth f a o ≤ a * (o.weight * o.frac) := by
  have h : 0 ≤ a * (o.weight * o.frac) := by positivity
  have e : a * o.weight * o.frac = a * (o.weight * o.frac) := by ring
  unfold latRate avoidAccumulation
  rw [e]
  split
  · exact ⟨le_rfl, h⟩
  · split
    · exact ⟨le_rfl, h⟩
    · exact ⟨h, le_rfl⟩

theorem latOuts_good {cs : List Conn} (h : Spec.GoodConns cs) :
    ∀ o ∈ latOuts cs, 0 < o.weight ∧ 0 ≤ o.frac ∧ 0 < o.area := by
  intro o ho
  simp only [latOuts, List.mem_flatMap, List.mem_map] at ho
  obtain ⟨c, hc, p, hp, rfl⟩ := ho
  exact ⟨(connAccepted_pos (h.acc c hc)).1, h.frac c hc p hp, h.area c hc⟩

theorem latOuts_share_le {cs : List Conn} (h : Spec.GoodConns cs) :
    ((latOuts cs).map fun o => o.weight * o.frac).sum ≤ 1 := by
  have key : ((latOuts cs).map fun o => o.weight * o.frac).sum
      = (cs.map fun c => c.weight * (c.packs.map (·.frac)).sum).sum := by
    clear h
    induction cs with
    | nil => simp [latOuts]
    | cons c cs ih =>
      simp only [latOuts, List.flatMap_cons, List.map_append, List.sum_append, List.map_cons, List.sum_cons,
        List.map_map] at ih ⊢
      rw [ih]; congr 1
      rw [← List.sum_map_mul_left]; rfl
  rw [key]
  refine le_trans (List.sum_le_sum (g := (·.weight)) fun c hc => ?_) h.wsum
  have w := (connAccepted_pos (h.acc c hc)).1
  have f := h.fsum c hc
  nlinarith

theorem share_sum_le {maxDepth f a : ℝ} (ha : 0 ≤ a) {cs : List Conn} (h : Spec.GoodConns cs) :
    0 ≤ ((latOuts cs).map (latRate maxDepth f a)).sum ∧ ((latOuts cs).map (latRate maxDepth f a)).sum ≤ a := by
  have hg := latOuts_good h
  constructor
  · apply List.sum_nonneg
    intro x hx
    obtain ⟨o, ho, rfl⟩ := List.mem_map.1 hx
    exact (latRate_le ha o (hg o ho).1.le (hg o ho).2.1).1
  · calc ((latOuts cs).map (latRate maxDepth f a)).sum
        ≤ ((latOuts cs).map fun o => a * (o.weight * o.frac)).sum :=
          List.sum_le_sum fun o ho => (latRate_le ha o (hg o ho).1.le (hg o ho).2.1).2
      _ = a * ((latOuts cs).map fun o => o.weight * o.frac).sum := by rw [List.sum_map_mul_left]
      _ ≤ a := by have := latOuts_share_le h; nlinarith

/-! ## C31 -/

theorem slideExcess_bounds (p : SlidePar) (swe : ℝ) :
    0 ≤ slideExcess p swe ∧ slideExcess p swe ≤ 1000 ∧
    slideExcess p swe ≤ max 0 (swe - holdingDepth p / sweToDepth) ∧
    (swe * sweToDepth ≤ holdingDepth p → slideExcess p swe = 0) := by
  have hs : (0 : ℝ) < sweToDepth := by norm_num [sweToDepth]
  unfold slideExcess
  dsimp only
  by_cases c : swe * sweToDepth > holdingDepth p
  · have e : (swe * sweToDepth - holdingDepth p) / sweToDepth = swe - holdingDepth p / sweToDepth := by
      field_simp
    have h0 : 0 < swe - holdingDepth p / sweToDepth := by rw [← e]; exact div_pos (by linarith) hs
    rw [if_pos c, e, max_eq_right h0.le]
    refine ⟨?_, ?_, ?_, fun hc => by linarith⟩ <;> split <;> linarith
  · rw [if_neg c]
    norm_num

/-- **C31 (holding depth).** SnowSlide: a pack at or below its holding depth sends nothing; otherwise what all
receivers get together over a step of at most one day never takes the pack below the holding depth, for every
receiver network, slope and parameter set. -/
theorem c31_slide_holding (p : SlidePar) (swe dt : ℝ) (cs : List Conn) (h : Spec.GoodConns cs)
    (hdt : 0 ≤ dt) (hdt1 : dt ≤ 1) :
    (swe * sweToDepth ≤ holdingDepth p → ∀ r ∈ slideRates p swe (latOuts cs), r = 0) ∧
    (∀ r ∈ slideRates p swe (latOuts cs), 0 ≤ r) ∧
    (holdingDepth p ≤ swe * sweToDepth →
      holdingDepth p ≤ (swe - ((slideRates p swe (latOuts cs)).map (· * dt)).sum) * sweToDepth) := by
  have hb := slideExcess_bounds p swe
  have hg := latOuts_good h
  have hs : (0 : ℝ) < sweToDepth := by norm_num [sweToDepth]
  have hnn : ∀ r ∈ slideRates p swe (latOuts cs), 0 ≤ r := by
    intro r hr
    unfold slideRates at hr
    split at hr
    · obtain ⟨_, _, rfl⟩ := List.mem_map.1 hr; exact le_rfl
    · obtain ⟨o, ho, rfl⟩ := List.mem_map.1 hr
      exact (latRate_le hb.1 o (hg o ho).1.le (hg o ho).2.1).1
  refine ⟨?_, hnn, ?_⟩
  · intro hc r hr
    have := hb.2.2.2 hc
    unfold slideRates at hr
    rw [if_pos this.le] at hr
    obtain ⟨_, _, rfl⟩ := List.mem_map.1 hr; rfl
  · intro hc
    have hsum : (slideRates p swe (latOuts cs)).sum ≤ slideExcess p swe := by
      unfold slideRates
      split
      · simp [hb.1]
      · exact (share_sum_le hb.1 h).2
    have hs0 : 0 ≤ (slideRates p swe (latOuts cs)).sum := List.sum_nonneg hnn
    rw [List.sum_map_mul_right, List.map_id']
    have h0 : 0 ≤ swe - holdingDepth p / sweToDepth := by
      rw [sub_nonneg, div_le_iff₀ hs]; exact hc
    have h1 := hb.2.2.1
    rw [max_eq_right h0] at h1
    have h2 : (slideRates p swe (latOuts cs)).sum * dt ≤ swe - holdingDepth p / sweToDepth := by nlinarith
    have h3 : holdingDepth p / sweToDepth ≤ swe - (slideRates p swe (latOuts cs)).sum * dt := by linarith
    exact (div_le_iff₀ hs).1 h3

/-- **C31 (everything above the holding depth leaves).** With complete shares (receivers covered by extents
summing to one, shares summing to one, none negligible or overloaded), an excess of at most 1000 mm is sent
entirely over a daily step: the pack ends exactly at its holding depth. -/
theorem c31_slide_complete (p : SlidePar) (swe : ℝ) (outs : List LatOut)
    (hshare : (outs.map fun o => o.weight * o.frac).sum = 1)
    (hfrac : ∀ o ∈ outs, prec < |o.frac|) (hload : ∀ o ∈ outs, ¬ (p.maxDepth > 0 ∧ o.swe > 3 / 2 * p.maxDepth / sweToDepth))
    (habove : holdingDepth p < swe * sweToDepth) (hcap : swe - holdingDepth p / sweToDepth ≤ 1000) :
    (swe - (slideRates p swe outs).sum) * sweToDepth = holdingDepth p := by
  have hs : (0 : ℝ) < sweToDepth := by norm_num [sweToDepth]
  have e : slideExcess p swe = swe - holdingDepth p / sweToDepth := by
    unfold slideExcess
    have : (swe * sweToDepth - holdingDepth p) / sweToDepth = swe - holdingDepth p / sweToDepth := by field_simp
    simp only [gt_iff_lt, habove, if_true, this]
    rw [if_neg (not_lt.2 hcap)]
  have hpos : ¬ slideExcess p swe ≤ 0 := by
    rw [e, not_le, sub_pos, div_lt_iff₀ hs]; exact habove
  have hr : slideRates p swe outs = outs.map fun o => slideExcess p swe * (o.weight * o.frac) := by
    unfold slideRates
    rw [if_neg hpos]
    apply List.map_congr_left
    intro o ho
    unfold latRate avoidAccumulation
    rw [if_neg (not_le.2 (hfrac o ho)), if_neg (hload o ho)]; ring
  rw [hr, List.sum_map_mul_left, hshare, e]
  field_simp; ring

/-- **C31 (volume).** What leaves an output in mm of the origin arrives as the same volume at the target, for
every area and extent of origin and target (output made instantaneous, as `AddSnowRedistribution` does). -/
theorem c31_volume (oArea oFrac x : ℝ) (o : LatOut) (hA : 0 < o.area) (hF : prec < |o.frac|) :
    Spec.volIn o (latDeliver true oArea oFrac o x) = Spec.volOut oArea oFrac x := by
  have hF0 : o.frac ≠ 0 := by
    intro h; rw [h, abs_zero] at hF; norm_num [prec] at hF
  unfold Spec.volIn Spec.volOut latDeliver FluxSpec.scale
  simp only [if_true]
  by_cases h1 : fractionAreas oArea oFrac o = 1
  · rw [if_neg (not_not.2 h1)]
    have : oArea * oFrac = o.area * o.frac := by
      unfold fractionAreas at h1
      have := (div_eq_one_iff_eq (mul_ne_zero hA.ne' hF0)).1 h1
      exact this
    rw [this]
  · rw [if_pos h1]
    unfold fractionAreas
    field_simp

/-- **C31 (volume, whole process).** Summed over all outputs of either process, the volume received is the
volume lost by the pack (negligible targets get nothing and take nothing). -/
theorem c31_volume_total (oArea oFrac maxDepth f a dt : ℝ) (outs : List LatOut) (hA : ∀ o ∈ outs, 0 < o.area) :
    (outs.map fun o => Spec.volIn o (latDeliver true oArea oFrac o (latRate maxDepth f a o * dt))).sum
      = Spec.volOut oArea oFrac ((outs.map fun o => latRate maxDepth f a o * dt).sum) := by
  unfold Spec.volOut
  rw [← List.sum_map_mul_right]
  congr 1
  rw [List.map_congr_left]
  intro o ho
  by_cases hF : |o.frac| ≤ prec
  · have : latRate maxDepth f a o = 0 := by unfold latRate; rw [if_pos hF]
    rw [this]; simp [Spec.volIn, latDeliver, FluxSpec.scale]
  · exact c31_volume oArea oFrac _ o (hA o ho) (not_le.1 hF)

theorem freyCoef_bounds (p : FreyPar) (hr : 0 ≤ p.rho) : 0 ≤ freyCoef p ∧ freyCoef p ≤ 1 := by
  unfold freyCoef
  split
  · rename_i h
    have hm : 0 < p.rhoMax := lt_of_le_of_lt hr h
    have a0 : 0 ≤ (p.rhoMax - p.rho) / p.rhoMax := div_nonneg (by linarith) hm.le
    have a1 : (p.rhoMax - p.rho) / p.rhoMax ≤ 1 := (div_le_one hm).2 (by linarith)
    have b0 := (Real.exp_pos (-p.rho / p.rhoMax)).le
    have b1 : Real.exp (-p.rho / p.rhoMax) ≤ 1 := by
      rw [Real.exp_le_one_iff]; exact div_nonpos_of_nonpos_of_nonneg (by linarith) hm.le
    have c0 : 0 ≤ max 0 (min 90 p.slope) / 90 := div_nonneg (le_max_left _ _) (by norm_num)
    have c1 : max 0 (min 90 p.slope) / 90 ≤ 1 := by
      rw [div_le_one (by norm_num)]; exact max_le (by norm_num) (min_le_left _ _)
    refine ⟨by positivity, ?_⟩
    exact mul_le_one₀ (mul_le_one₀ a1 b0 b1) c0 c1
  · norm_num

/-- **C31 (Frey & Holzmann).** With a correction factor in [0,1]: nothing below the holding capacity, never
more than the excess, and dense snow (at the maximum density) or flat terrain keeps its snow. -/
theorem c31_frey (p : FreyPar) (swe dt : ℝ) (cs : List Conn) (h : Spec.GoodConns cs) (hr : 0 ≤ p.rho)
    (hc : 0 ≤ p.correction) (hc1 : p.correction ≤ 1) (hdt : 0 ≤ dt) (hdt1 : dt ≤ 1) :
    (swe ≤ freyHolding p → ∀ r ∈ freyRates p swe (latOuts cs), r = 0) ∧
    (p.rhoMax ≤ p.rho ∨ p.slope ≤ 0 → ∀ r ∈ freyRates p swe (latOuts cs), r = 0) ∧
    (freyHolding p ≤ swe → freyHolding p ≤ swe - ((freyRates p swe (latOuts cs)).map (· * dt)).sum) := by
  have hk := freyCoef_bounds p hr
  have ham : 0 ≤ freyAmount p swe ∧ freyAmount p swe ≤ max (swe - freyHolding p) 0 := by
    have hm : 0 ≤ max (swe - freyHolding p) 0 := le_max_right _ _
    unfold freyAmount
    split; · exact ⟨le_rfl, hm⟩
    split; · exact ⟨le_rfl, hm⟩
    split; · exact ⟨le_rfl, hm⟩
    dsimp only
    have h1 : 0 ≤ max (swe - freyHolding p) 0 * freyCoef p * p.correction := by
      have := hk.1; positivity
    have h2 : max (swe - freyHolding p) 0 * freyCoef p * p.correction ≤ max (swe - freyHolding p) 0 := by
      rw [mul_assoc]
      exact mul_le_of_le_one_right hm (mul_le_one₀ hk.2 hc hc1)
    split
    · constructor <;> linarith
    · exact ⟨h1, h2⟩
  have hzero : freyAmount p swe = 0 → ∀ r ∈ freyRates p swe (latOuts cs), r = 0 := by
    intro h0 r hr'
    obtain ⟨o, _, rfl⟩ := List.mem_map.1 hr'
    unfold latRate avoidAccumulation
    rw [h0]; simp
  refine ⟨fun hle => hzero ?_, fun hd => hzero ?_, fun hle => ?_⟩
  · have := ham.2
    rw [max_eq_right (by linarith)] at this
    linarith [ham.1]
  · have : freyCoef p ≤ 0 := by
      unfold freyCoef
      rcases hd with hd | hd
      · rw [if_neg (not_lt.2 hd)]
      · split
        · have : max 0 (min 90 p.slope) = 0 := max_eq_left ((min_le_right _ _).trans hd)
          rw [this]; simp
        · exact le_rfl
    unfold freyAmount
    simp [this]
  · rw [List.sum_map_mul_right, List.map_id']
    have hs := share_sum_le (maxDepth := p.maxDepth) (f := 1000 / p.rho) ham.1 h
    have h2 := ham.2
    rw [max_eq_left (by linarith)] at h2
    have : (freyRates p swe (latOuts cs)).sum ≤ freyAmount p swe := hs.2
    have : 0 ≤ (freyRates p swe (latOuts cs)).sum := hs.1
    nlinarith

theorem freshDensity_bounds (d : FreyDens) (tAir : ℝ) (h : d.rhoMin ≤ d.rhoFreshMax) :
    d.rhoMin ≤ freshDensity d tAir ∧ freshDensity d tAir ≤ d.rhoFreshMax := by
  unfold freshDensity
  dsimp only
  set t := tAir / d.rhoScale + d.tScale
  have hpos : 0 < Real.sqrt (1 + t * t) := Real.sqrt_pos.2 (by nlinarith [mul_self_nonneg t])
  have habs : |t| ≤ Real.sqrt (1 + t * t) := by
    rw [← Real.sqrt_sq_eq_abs]; exact Real.sqrt_le_sqrt (by nlinarith)
  have hlo : -1 ≤ t / Real.sqrt (1 + t * t) := by
    rw [le_div_iff₀ hpos]; linarith [neg_abs_le t]
  have hhi : t / Real.sqrt (1 + t * t) ≤ 1 := by
    rw [div_le_iff₀ hpos]; linarith [le_abs_self t]
  constructor <;> nlinarith

/-- **C31 (density).** The tracked snow density stays between the minimum fresh-snow density and the maximum
density, for every temperature and snow history. -/
theorem c31_density (d : FreyDens) (tAir dt density prevSwe swe : ℝ) (h1 : d.rhoMin ≤ d.rhoFreshMax)
    (h2 : d.rhoFreshMax ≤ d.rhoMax) (hd : d.rhoMin ≤ density) (hd' : density ≤ d.rhoMax) :
    d.rhoMin ≤ freyFinalize d tAir dt density prevSwe swe ∧ freyFinalize d tAir dt density prevSwe swe ≤ d.rhoMax := by
  have hf := freshDensity_bounds d tAir h1
  unfold freyFinalize
  dsimp only
  set s := max 0 (min 1 (d.settling * dt))
  have s0 : 0 ≤ s := le_max_left _ _
  have s1 : s ≤ 1 := max_le (by norm_num) (min_le_left _ _)
  have hst : d.rhoMin ≤ density + (d.rhoMax - density) * s ∧ density + (d.rhoMax - density) * s ≤ d.rhoMax := by
    constructor <;> nlinarith
  split
  · exact ⟨hf.1, hf.2.trans h2⟩
  · split
    · rename_i hc
      have e0 : 0 ≤ max (min prevSwe swe) 0 := le_max_right _ _
      constructor
      · rw [le_div_iff₀ hc.2]; nlinarith [hc.1]
      · rw [div_le_iff₀ hc.2]; nlinarith [hc.1]
    · exact hst

/-! ## What the code does not ensure -/

/-- **Finding.** The shares of the connections of a unit are checked one by one, not together: two accepted
connections can take the pack below its holding depth. -/
theorem c31_shares_not_checked : ∃ (p : SlidePar) (swe : ℝ) (cs : List Conn), (∀ c ∈ cs, connAccepted c) ∧
    (∀ c ∈ cs, 0 < c.area ∧ (c.packs.map (·.frac)).sum = 1) ∧ holdingDepth p ≤ swe * sweToDepth ∧
    (swe - (slideRates p swe (latOuts cs)).sum) * sweToDepth < holdingDepth p := by
  refine ⟨⟨80, 0, 1, 10, 75, 400, 0⟩, 150, [⟨1, 10, [⟨1, 0⟩]⟩, ⟨1, 10, [⟨1, 0⟩]⟩], ?_, ?_, ?_, ?_⟩
  · intro c hc
    simp only [List.mem_cons, List.not_mem_nil, or_false, or_self] at hc
    subst hc; unfold connAccepted; norm_num
  · intro c hc
    simp only [List.mem_cons, List.not_mem_nil, or_false, or_self] at hc
    subst hc; norm_num
  · norm_num [holdingDepth, sweToDepth]
  · have hh : holdingDepth ⟨80, 0, 1, 10, 75, 400, 0⟩ = 400 := by norm_num [holdingDepth]
    have he : slideExcess ⟨80, 0, 1, 10, 75, 400, 0⟩ 150 = 50 := by
      simp only [slideExcess, hh]; norm_num [sweToDepth]
    unfold slideRates
    rw [he, hh]
    norm_num [latOuts, latRate, avoidAccumulation, prec, sweToDepth]

/-- **Finding.** A lateral output that is not made instantaneous loses volume when the target is smaller than
the origin, because a plain flux ignores weights above one. -/
theorem c31_plain_output_loses : ∃ (oArea oFrac x : ℝ) (o : LatOut), 0 < o.area ∧ o.frac = 1 ∧
    Spec.volIn o (latDeliver false oArea oFrac o x) < Spec.volOut oArea oFrac x := by
  refine ⟨200, 1, 10, ⟨1, 100, 1, 0⟩, by norm_num, rfl, ?_⟩
  norm_num [Spec.volIn, Spec.volOut, latDeliver, FluxSpec.scale, fractionAreas]

/-- Witness for the hypotheses of C31: two receivers, one with two land covers. -/
example : Spec.GoodConns [⟨3 / 5, 100, [⟨1 / 2, 10⟩, ⟨1 / 2, 0⟩]⟩, ⟨2 / 5, 50, [⟨1, 0⟩]⟩] := by
  refine ⟨?_, ?_, ?_, ?_, by norm_num⟩
  all_goals
    intro c hc
    simp only [List.mem_cons, List.not_mem_nil, or_false] at hc
    rcases hc with rfl | rfl
  all_goals try (simp [connAccepted]; done)
  all_goals try (norm_num [connAccepted]; done)
  all_goals
    intro p hp
    simp only [List.mem_cons, List.not_mem_nil, or_false] at hp
    try rcases hp with rfl | rfl
    all_goals try subst hp
    all_goals norm_num

/-- **C31 (holding depth).**  What a slope holds: never more than the maximal depth if there is one; on a slope steeper than
the limit only the minimal depth; otherwise the power law of the slope where it exceeds the minimum; with a negative exponent
and a positive coefficient, a steeper slope never holds more. -/
theorem c31_holding_depth (p : SlidePar) :
    (0 < p.maxDepth → holdingDepth p ≤ p.maxDepth) ∧
    (p.maxDepth ≤ 0 → p.minHold ≤ holdingDepth p) ∧
    (p.maxSlope < p.slope → p.maxDepth ≤ 0 → holdingDepth p = p.minHold) ∧
    (p.maxSlope < p.slope → 0 < p.maxDepth → holdingDepth p = min p.minHold p.maxDepth) ∧
    (p.slope ≤ p.maxSlope → p.minSlope ≤ p.slope → p.maxDepth ≤ 0 → p.minHold ≤ p.coeff * p.slope ^ p.expo * 1000 →
      holdingDepth p = p.coeff * p.slope ^ p.expo * 1000) := by
  refine ⟨fun h => ?_, fun h => ?_, fun h1 h2 => ?_, fun h1 h2 => ?_, fun h1 h2 h3 h4 => ?_⟩ <;>
    unfold holdingDepth <;> dsimp only
  · rw [if_pos h]; exact min_le_right _ _
  · rw [if_neg (not_lt.2 h)]; exact le_max_right _ _
  · rw [if_neg (not_lt.2 h2), if_pos h1, max_self]
  · rw [if_pos h2, if_pos h1, max_self]
  · rw [if_neg (not_lt.2 h3), if_neg (not_lt.2 h1), max_eq_left h2, max_eq_left h4]

theorem c31_steeper_holds_less (p : SlidePar) {s : ℝ} (hs : p.slope ≤ s) (hmin : 0 < p.minSlope) (hc : 0 ≤ p.coeff)
    (he : p.expo ≤ 0) : holdingDepth { p with slope := s } ≤ holdingDepth p := by
  have hpow : p.coeff * (max s p.minSlope) ^ p.expo * 1000 ≤ p.coeff * (max p.slope p.minSlope) ^ p.expo * 1000 := by
    have h1 : (max s p.minSlope) ^ p.expo ≤ (max p.slope p.minSlope) ^ p.expo :=
      Real.rpow_le_rpow_of_nonpos (lt_of_lt_of_le hmin (le_max_right _ _)) (max_le_max_right _ hs) he
    have := mul_le_mul_of_nonneg_left h1 hc
    linarith
  have key : max (if s > p.maxSlope then p.minHold else p.coeff * (max s p.minSlope) ^ p.expo * 1000) p.minHold ≤
      max (if p.slope > p.maxSlope then p.minHold else p.coeff * (max p.slope p.minSlope) ^ p.expo * 1000) p.minHold := by
    by_cases h1 : s > p.maxSlope
    · rw [if_pos h1, max_self]; exact le_max_right _ _
    · have h2 : ¬ p.slope > p.maxSlope := by push Not at h1 ⊢; linarith
      rw [if_neg h1, if_neg h2]
      exact max_le_max_right _ hpow
  unfold holdingDepth
  dsimp only
  split
  · exact min_le_min_right _ key
  · exact key

end HB
