import Verif.Model.LawLemmas

/-! # C16–C20: precipitation splitting, evapotranspiration, infiltration, GR4J production -/

namespace HB

/-! ## C16: precipitation splitting -/

/-- **C16 (threshold).** All snow at or below the threshold, all rain above it; the parts are
non-negative and, with correction factors of 1, sum to the precipitation. -/
theorem c16_threshold (P T th rcf scf : ℝ) (hP : 0 ≤ P) (hr : 0 ≤ rcf) (hs : 0 ≤ scf) :
    let o := splitThreshold P T th rcf scf
    0 ≤ o.1 ∧ 0 ≤ o.2 ∧ (T ≤ th → o = (0, P * scf)) ∧ (th < T → o = (P * rcf, 0)) ∧
    (rcf = 1 → scf = 1 → o.1 + o.2 = P) := by
  unfold splitThreshold
  by_cases h : T ≤ th
  · simp only [h, if_true]
    exact ⟨le_rfl, mul_nonneg hP hs, fun _ => trivial, fun h' => absurd h (not_le.2 h'), fun _ h2 => by simp [h2]⟩
  · simp only [h, if_false]
    exact ⟨mul_nonneg hP hr, le_rfl, fun h' => h'.elim, fun _ => trivial, fun h1 _ => by simp [h1]⟩

/-- **C16 (linear).** For any transition bounds (even inverted): all snow at or below the start, all rain
from the end on (when start < T), parts ≥ 0; the two shares always partition the precipitation. -/
theorem c16_linear (P T a b rcf scf : ℝ) (hP : 0 ≤ P) (hr : 0 ≤ rcf) (hs : 0 ≤ scf) :
    let o := splitLinear P T a b rcf scf
    0 ≤ o.1 ∧ 0 ≤ o.2 ∧ (T ≤ a → o = (0, P * scf)) ∧ (a < T → b ≤ T → o = (P * rcf, 0)) ∧
    (∃ s, 0 ≤ s ∧ s ≤ 1 ∧ o = (P * (1 - s) * rcf, P * s * scf)) := by
  unfold splitLinear
  by_cases h : T ≤ a
  · simp only [h, if_true]
    exact ⟨le_rfl, mul_nonneg hP hs, fun _ => trivial, fun h' => absurd h (not_le.2 h'),
      1, zero_le_one, le_rfl, by simp⟩
  · simp only [h, if_false]
    by_cases h2 : T ≥ b
    · simp only [h2, if_true]
      exact ⟨mul_nonneg hP hr, le_rfl, fun h' => h'.elim, fun _ _ => trivial, 0, le_rfl, zero_le_one, by simp⟩
    · simp only [h2, if_false]
      have hab : 0 < b - a := by linarith [not_le.1 h, not_le.1 h2]
      have hf0 : 0 ≤ (T - a) / (b - a) := div_nonneg (by linarith [not_le.1 h]) hab.le
      have hf1 : (T - a) / (b - a) ≤ 1 := (div_le_one hab).2 (by linarith [not_le.1 h2])
      refine ⟨by positivity, mul_nonneg (mul_nonneg hP (by linarith)) hs, fun h' => h'.elim,
        fun _ h' => h'.elim, 1 - (T - a) / (b - a), by linarith, by linarith, by simp⟩

/-- **C16 (linear, monotone).** Warmer air never gives more snow (nor less rain). -/
theorem c16_linear_mono (P T T' a b rcf scf : ℝ) (hP : 0 ≤ P) (hr : 0 ≤ rcf) (hs : 0 ≤ scf) (h : T ≤ T') :
    (splitLinear P T' a b rcf scf).2 ≤ (splitLinear P T a b rcf scf).2 ∧
    (splitLinear P T a b rcf scf).1 ≤ (splitLinear P T' a b rcf scf).1 := by
  have hb := c16_linear P T a b rcf scf hP hr hs
  have hb' := c16_linear P T' a b rcf scf hP hr hs
  obtain ⟨-, -, h3, h4, s, hs0, hs1, he⟩ := hb
  obtain ⟨-, -, h3', h4', s', hs0', hs1', he'⟩ := hb'
  by_cases c1 : T ≤ a
  · rw [h3 c1, he']
    refine ⟨?_, mul_nonneg (mul_nonneg hP (by linarith)) hr⟩
    exact mul_le_mul_of_nonneg_right (by nlinarith) hs
  · by_cases c2 : b ≤ T'
    · rw [h4' (by linarith [not_le.1 c1]) c2, he]
      refine ⟨mul_nonneg (mul_nonneg hP hs0) hs, mul_le_mul_of_nonneg_right (by nlinarith) hr⟩
    · have ha : ¬ T' ≤ a := by linarith [not_le.1 c1]
      have hb2 : ¬ T ≥ b := by linarith [not_le.1 c2]
      have hab : 0 < b - a := by linarith [not_le.1 c1, not_le.1 hb2]
      have hm : (T - a) / (b - a) ≤ (T' - a) / (b - a) := div_le_div_of_nonneg_right (by linarith) hab.le
      simp only [splitLinear, c1, ha, hb2, c2, ge_iff_le, if_false]
      constructor
      · exact mul_le_mul_of_nonneg_right (mul_le_mul_of_nonneg_left (by linarith) hP) hs
      · exact mul_le_mul_of_nonneg_right (mul_le_mul_of_nonneg_left hm hP) hr

theorem c16_threshold_mono (P T T' th rcf scf : ℝ) (hP : 0 ≤ P) (hr : 0 ≤ rcf) (hs : 0 ≤ scf) (h : T ≤ T') :
    (splitThreshold P T' th rcf scf).2 ≤ (splitThreshold P T th rcf scf).2 ∧
    (splitThreshold P T th rcf scf).1 ≤ (splitThreshold P T' th rcf scf).1 := by
  have := mul_nonneg hP hr
  have := mul_nonneg hP hs
  unfold splitThreshold
  by_cases c1 : T ≤ th <;> by_cases c2 : T' ≤ th <;> simp [c1, c2] <;> first | assumption | skip
  all_goals first | (constructor <;> assumption) | exact absurd (h.trans c2) c1

theorem cemaSolid_mem (e T tn tx : ℝ) : 0 ≤ cemaSolid e T tn tx ∧ cemaSolid e T tn tx ≤ 1 := by
  unfold cemaSolid
  split
  · split
    · simp
    · split
      · simp
      · rename_i h1 h2
        have := not_le.1 h1; have := not_le.1 h2
        constructor <;> linarith
  · dsimp only
    generalize hM : (if tx < tn then tn else tx) = M
    split
    · simp
    · split
      · simp
      · rename_i h1 h2
        have h1 := not_le.1 h1; have h2 := not_le.1 h2
        have hd : 0 < M - tn := by linarith
        have a1 : M / (M - tn) ≤ 1 := (div_le_one hd).2 (by linarith)
        have a2 : 0 ≤ M / (M - tn) := div_nonneg h1.le hd.le
        constructor <;> linarith

/-- **C16 (CemaNeige).** Same claims: parts ≥ 0, partition of the precipitation, all snow at or below the
transition and all rain above it (−1 °C and 3 °C on the mean at 1500 m and above; 0 °C on the extremes below). -/
theorem c16_cemaneige (P e T tn tx rcf scf : ℝ) (hP : 0 ≤ P) (hr : 0 ≤ rcf) (hs : 0 ≤ scf) :
    let o := splitCema P e T tn tx rcf scf
    0 ≤ o.1 ∧ 0 ≤ o.2 ∧ (∃ s, 0 ≤ s ∧ s ≤ 1 ∧ o = (P * (1 - s) * rcf, P * s * scf)) ∧
    (1500 ≤ e → (T ≤ -1 → o = (0, P * scf)) ∧ (3 ≤ T → o = (P * rcf, 0))) ∧
    (e < 1500 → tn ≤ tx → (tx ≤ 0 → o = (0, P * scf)) ∧ (0 ≤ tn → 0 < tx → o = (P * rcf, 0))) := by
  obtain ⟨s0, s1⟩ := cemaSolid_mem e T tn tx
  refine ⟨mul_nonneg (mul_nonneg hP (by linarith)) hr, mul_nonneg (mul_nonneg hP s0) hs,
    ⟨_, s0, s1, rfl⟩, ?_, ?_⟩
  · intro he
    constructor
    · intro hT; simp [splitCema, cemaSolid, he, hT]
    · intro hT
      have : ¬ T ≤ -1 := by linarith
      simp [splitCema, cemaSolid, he, hT, this]
  · intro he hx
    have he' : ¬ e ≥ 1500 := not_le.2 he
    have hx' : ¬ tx < tn := not_lt.2 hx
    constructor
    · intro hT; simp [splitCema, cemaSolid, he', hx', hT]
    · intro h1 h2
      simp [splitCema, cemaSolid, he', hx', not_le.2 h2, h1]

/-- **C16 (CemaNeige, monotone).** Raising the mean, minimum or maximum temperature never increases the
solid fraction. -/
theorem c16_cemaneige_mono (e T T' tn tn' tx tx' : ℝ) (h : T ≤ T') (hn : tn ≤ tn') (hx : tx ≤ tx') :
    cemaSolid e T' tn' tx' ≤ cemaSolid e T tn tx := by
  obtain ⟨s0, s1⟩ := cemaSolid_mem e T tn tx
  obtain ⟨s0', s1'⟩ := cemaSolid_mem e T' tn' tx'
  revert s0 s1 s0' s1'
  unfold cemaSolid
  by_cases he : e ≥ 1500
  · simp only [he, if_true]
    intro s0 s1 s0' s1'
    by_cases a : T ≤ -1
    · simp only [a, if_true] at *; exact s1'
    · have a' : ¬ T' ≤ -1 := by linarith [not_le.1 a]
      by_cases b : T' ≥ 3
      · simp only [a, a', b, if_true, if_false] at *; exact s0
      · have b' : ¬ T ≥ 3 := by linarith [not_le.1 b]
        simp only [a, a', b, b', if_false]; linarith
  · simp only [he, if_false]
    have hM : (if tx < tn then tn else tx) ≤ (if tx' < tn' then tn' else tx') := by
      split <;> split <;> linarith
    have hMn : tn ≤ (if tx < tn then tn else tx) := by split <;> linarith
    have hMn' : tn' ≤ (if tx' < tn' then tn' else tx') := by split <;> linarith
    generalize (if tx < tn then tn else tx) = M at *
    generalize (if tx' < tn' then tn' else tx') = M' at *
    intro s0 s1 s0' s1'
    by_cases a : M ≤ 0
    · simp only [a, if_true] at *; exact s1'
    · have a' : ¬ M' ≤ 0 := by linarith [not_le.1 a]
      by_cases b : tn' ≥ 0
      · simp only [a, a', b, if_true, if_false] at *; exact s0
      · have b' : ¬ tn ≥ 0 := by linarith [not_le.1 b]
        simp only [a, a', b, b', if_false]
        have p1 := not_le.1 a; have p2 := not_le.1 a'
        have q1 := not_le.1 b; have q2 := not_le.1 b'
        have d1 : 0 < M - tn := by linarith
        have d2 : 0 < M' - tn' := by linarith
        have : M / (M - tn) ≤ M' / (M' - tn') := by
          rw [div_le_div_iff₀ d1 d2]
          nlinarith
        linarith

/-- **C16 (rain, multiplexer).** The plain rain splitter passes the (corrected) precipitation; the
multiplexer gives each output the full input, so outputs weighted by area shares summing to one deliver
exactly the input. -/
theorem c16_rain_multi (P : ℝ) (w : List ℝ) (hw : w.sum = 1) :
    splitRain P 1 = P ∧ (∀ x ∈ splitMulti w.length P, x = P) ∧ (splitMulti w.length P).length = w.length ∧
    (List.zipWith (· * ·) w (splitMulti w.length P)).sum = P := by
  refine ⟨by simp [splitRain], fun x hx => List.eq_of_mem_replicate hx, by simp [splitMulti], ?_⟩
  have : ∀ l : List ℝ, (List.zipWith (· * ·) l (splitMulti l.length P)).sum = l.sum * P := by
    intro l
    induction l with
    | nil => simp [splitMulti]
    | cons a l ih =>
      simp only [splitMulti] at ih
      simp only [splitMulti, List.length_cons, List.replicate_succ, List.zipWith_cons_cons, List.sum_cons, ih]
      ring
  rw [this, hw, one_mul]

example : splitLinear 10 1 0 2 1 1 = (5, 5) := by
  unfold splitLinear; norm_num
example : splitCema 8 1000 0 (-1) 3 1 1 = (6, 2) := by
  unfold splitCema cemaSolid; norm_num

/-! ## C17: evapotranspiration -/

/-- Potential evapotranspiration that a law may reach. -/
def Spec.demand (pet : ℝ) : ETLaw → ℝ
  | .hbv _ f => f * pet
  | _ => pet

/-- Physically admissible parameters. -/
def Spec.etOK : ETLaw → Prop
  | .power e => 0 < e
  | .expo a => 0 ≤ a
  | .hbv lp f => 0 < lp ∧ 0 ≤ f
  | _ => True

/-- A storage with a positive capacity, filled within it at the start of the step. -/
structure Spec.Store (c : Cont ℝ) (cap : ℝ) : Prop where
  finite : c.infinite = false
  cap_eq : c.cap = some cap
  cap_pos : 0 < cap
  content_nonneg : 0 ≤ c.content
  content_le : c.content ≤ cap
  lvl_nonneg : 0 ≤ c.lvl

/-- **C17 (bounds).** -/
theorem c17_bounds (law : ETLaw) (dt pet cap : ℝ) (c : Cont ℝ) (hlaw : Spec.etOK law)
    (hc : Spec.Store c cap) (hdt : 0 < dt) (hpet : 0 ≤ pet) :
    ∃ r, etRate dt pet c law = some r ∧ 0 ≤ r ∧ r ≤ Spec.demand pet law := by
  have hfr := fillingRatio_eq hc.finite hc.cap_eq
  obtain ⟨x0, x1⟩ := ratio_mem (c.lvl / cap)
  cases law with
  | linear =>
    simp only [etRate, hfr, Option.map_some, Spec.demand]
    refine ⟨_, rfl, mul_nonneg hpet (le_min zero_le_one x0), ?_⟩
    exact mul_le_of_le_one_right hpet (min_le_left _ _)
  | power e =>
    simp only [etRate, hfr, Option.map_some, Spec.demand]
    refine ⟨_, rfl, mul_nonneg hpet (Real.rpow_nonneg x0 _), ?_⟩
    exact mul_le_of_le_one_right hpet (Real.rpow_le_one x0 x1 (le_of_lt hlaw))
  | socont =>
    simp only [etRate, hfr, Option.map_some, Spec.demand]
    refine ⟨_, rfl, mul_nonneg hpet (Real.rpow_nonneg x0 _), ?_⟩
    exact mul_le_of_le_one_right hpet (Real.rpow_le_one x0 x1 (by norm_num))
  | expo a =>
    simp only [etRate, hfr, Option.map_some, Spec.demand]
    have ha : 0 ≤ a := hlaw
    refine ⟨_, rfl, mul_nonneg hpet ?_, mul_le_of_le_one_right hpet ?_⟩
    · have : Real.exp (-a * max 0 (min 1 (c.lvl / cap))) ≤ 1 :=
        Real.exp_le_one_iff.2 (by nlinarith)
      linarith
    · linarith [Real.exp_pos (-a * max 0 (min 1 (c.lvl / cap)))]
  | hbv lp f =>
    simp only [etRate, hc.cap_eq, Option.map_some, Spec.demand]
    have ht : 0 < lp * cap := mul_pos hlaw.1 hc.cap_pos
    have hd : 0 ≤ f * pet := mul_nonneg hlaw.2 hpet
    rw [if_neg (not_le.2 ht)]
    refine ⟨_, rfl, mul_nonneg hd (le_min zero_le_one (div_nonneg hc.lvl_nonneg ht.le)), ?_⟩
    exact mul_le_of_le_one_right hd (min_le_left _ _)
  | openWater =>
    simp only [etRate, Spec.demand, hdt, if_true, gt_iff_lt]
    exact ⟨_, rfl, le_min hpet (le_max_left _ _), min_le_left _ _⟩
  | gr4j =>
    simp only [etRate, Spec.demand]
    split
    · exact ⟨_, rfl, le_rfl, hpet⟩
    · simp only [hc.cap_eq, Option.map_some, not_le.2 hc.cap_pos, if_false]
      obtain ⟨i0, -, i2⟩ := infiltration_bounds (P := c.lvl - (c.content + c.dyn)) hc.cap_pos
        hc.content_nonneg hc.content_le
      obtain ⟨e0, e1, -⟩ := evaporation_bounds (E := pet) hc.cap_pos
        (add_nonneg hc.content_nonneg i0) i2
      exact ⟨_, rfl, e0, by rwa [max_eq_left hpet] at e1⟩

/-- **C17 (supply).** The open-water and GR4J laws never ask, over the step, more than the storage
holds; the other laws are limited by the storage constraints (C01). -/
theorem c17_supply (dt pet cap : ℝ) (c : Cont ℝ) (hc : Spec.Store c cap) (hdt : 0 < dt) (hpet : 0 ≤ pet) :
    (∃ r, etRate dt pet c .openWater = some r ∧ r * dt ≤ c.lvl) ∧
    (c.dyn = 0 → 0 ≤ c.stat → ∃ r, etRate 1 pet c .gr4j = some r ∧ r ≤ c.lvl) := by
  constructor
  · simp only [etRate, hdt, if_true, gt_iff_lt]
    refine ⟨_, rfl, ?_⟩
    have : min pet (max 0 (c.lvl / dt)) ≤ c.lvl / dt :=
      (min_le_right _ _).trans (max_le (div_nonneg hc.lvl_nonneg hdt.le) le_rfl)
    rwa [le_div_iff₀ hdt] at this
  · intro hd hs
    simp only [etRate]
    split
    · exact ⟨_, rfl, hc.lvl_nonneg⟩
    · simp only [hc.cap_eq, Option.map_some, not_le.2 hc.cap_pos, if_false]
      have hP : c.lvl - (c.content + c.dyn) = c.stat := by unfold Cont.lvl; ring
      rw [hP]
      obtain ⟨i0, i1, i2⟩ := infiltration_bounds (P := c.stat) hc.cap_pos hc.content_nonneg hc.content_le
      obtain ⟨-, -, e2⟩ := evaporation_bounds (E := pet) hc.cap_pos (add_nonneg hc.content_nonneg i0) i2
      refine ⟨_, rfl, e2.trans ?_⟩
      rw [max_eq_left hs] at i1
      unfold Cont.lvl; linarith

/-- **C17 (empty).** Nothing evaporates from an empty storage, for any law. -/
theorem c17_empty (law : ETLaw) (dt pet : ℝ) (c : Cont ℝ) (hi : c.infinite = false) (he : c.lvl ≤ 1 / 10 ^ 8) :
    (etRate dt pet c law).map (changeRate c) = (etRate dt pet c law).map (fun _ => 0) := by
  have : changeRate c = fun _ => 0 := by
    funext r
    simp [changeRate, hi, lessThanOrEqual, prec]
    intro h; norm_num at he h; linarith
  rw [this]

/-- **C17 (saturated).** A full storage evaporates exactly at the potential rate (linear, power, Socont,
HBV laws); open water does so as soon as it holds enough. -/
theorem c17_saturated (dt pet cap : ℝ) (c : Cont ℝ) (hc : Spec.Store c cap) (hdt : 0 < dt)
    (hfull : cap ≤ c.lvl) :
    etRate dt pet c .linear = some pet ∧
    (∀ e, etRate dt pet c (.power e) = some pet) ∧
    etRate dt pet c .socont = some pet ∧
    (∀ lp f, 0 < lp → lp ≤ 1 → etRate dt pet c (.hbv lp f) = some (f * pet)) ∧
    (pet * dt ≤ c.lvl → etRate dt pet c .openWater = some pet) := by
  have hfr := fillingRatio_eq hc.finite hc.cap_eq
  rw [ratio_full ((one_le_div hc.cap_pos).2 hfull)] at hfr
  refine ⟨by simp [etRate, hfr], fun e => by simp [etRate, hfr], by simp [etRate, hfr], ?_, ?_⟩
  · intro lp f h0 h1
    have ht : 0 < lp * cap := mul_pos h0 hc.cap_pos
    have : 1 ≤ c.lvl / (lp * cap) := by
      rw [one_le_div ht]
      have : lp * cap ≤ cap := mul_le_of_le_one_left hc.cap_pos.le h1
      linarith
    simp [etRate, hc.cap_eq, not_le.2 ht, min_eq_left this]
  · intro h
    simp only [etRate, hdt, gt_iff_lt, if_true]
    rw [min_eq_left]
    exact le_max_of_le_right (by rwa [le_div_iff₀ hdt])

theorem gr4j_level_mono {S S' P P' X : ℝ} (hX : 0 < X) (hS : 0 ≤ S) (hSS : S ≤ S') (hS'X : S' ≤ X)
    (hP : P ≤ P') : S + gr4jInfiltration S P X ≤ S' + gr4jInfiltration S' P' X := by
  have hS' : 0 ≤ S' := hS.trans hSS
  have hSX : S ≤ X := hSS.trans hS'X
  by_cases h : P ≤ 0
  · have : gr4jInfiltration S P X = 0 := by simp [gr4jInfiltration, h]
    rw [this]
    have := (infiltration_bounds (P := P') hX hS' hS'X).1
    linarith
  · have hP0 : 0 < P := not_le.1 h
    have hP'0 : 0 < P' := by linarith
    have form : ∀ S P : ℝ, 0 ≤ S → S ≤ X → 0 < P → S + gr4jInfiltration S P X =
        X * ((S / X + Real.tanh (min (P / X) 13)) / (1 + S / X * Real.tanh (min (P / X) 13))) := by
      intro S P hS hSX hP
      unfold gr4jInfiltration
      rw [if_neg (by simp [not_le.2 hP, hX])]
      dsimp only
      have t0 := (tws_bounds hP.le hX).1
      generalize Real.tanh (min (P / X) 13) = t at *
      have hs0 : 0 ≤ S / X := div_nonneg hS hX.le
      have hden : 1 + S / X * t ≠ 0 := by positivity
      have hSe : S = X * (S / X) := by field_simp
      generalize S / X = s at *
      subst hSe
      field_simp
      ring
    rw [form S P hS hSX hP0, form S' P' hS' hS'X hP'0]
    have t0 := (tws_bounds hP0.le hX).1
    have t1' := (tws_bounds hP'0.le hX).2.1
    have htt : Real.tanh (min (P / X) 13) ≤ Real.tanh (min (P' / X) 13) :=
      tanh_mono (min_le_min (div_le_div_of_nonneg_right hP hX.le) le_rfl)
    generalize Real.tanh (min (P / X) 13) = t at *
    generalize Real.tanh (min (P' / X) 13) = t' at *
    have hs0 : 0 ≤ S / X := div_nonneg hS hX.le
    have hss : S / X ≤ S' / X := div_le_div_of_nonneg_right hSS hX.le
    have hs1 : S' / X ≤ 1 := (div_le_one hX).2 hS'X
    generalize S / X = s at *
    generalize S' / X = s' at *
    have hs'0 : 0 ≤ s' := hs0.trans hss
    have ht'0 : 0 ≤ t' := t0.trans htt
    apply mul_le_mul_of_nonneg_left _ hX.le
    rw [div_le_div_iff₀ (by positivity) (by positivity)]
    -- (s+t)(1+s't') ≤ (s'+t')(1+st)
    have h1 : 0 ≤ (s' - s) * (1 - t * t') := mul_nonneg (by linarith) (by nlinarith)
    have h2 : 0 ≤ (t' - t) * (1 - s * s') := mul_nonneg (by linarith) (by nlinarith)
    nlinarith

/-- **C17 (monotone).** A fuller storage never evaporates less: for every law, if every component of the
level of `c'` is at least that of `c` (same capacity), its rate is at least as high. -/
theorem c17_mono (law : ETLaw) (dt pet cap : ℝ) (c c' : Cont ℝ) (hlaw : Spec.etOK law)
    (hc : Spec.Store c cap) (hc' : Spec.Store c' cap) (hdt : 0 < dt) (hpet : 0 ≤ pet)
    (h1 : c.content ≤ c'.content) (h2 : c.dyn ≤ c'.dyn) (h3 : c.stat ≤ c'.stat) :
    ∃ r r', etRate dt pet c law = some r ∧ etRate dt pet c' law = some r' ∧ r ≤ r' := by
  have hl : c.lvl ≤ c'.lvl := by unfold Cont.lvl; linarith
  have hfr := fillingRatio_eq hc.finite hc.cap_eq
  have hfr' := fillingRatio_eq hc'.finite hc'.cap_eq
  have hm := ratio_mono (div_le_div_of_nonneg_right hl hc.cap_pos.le)
  obtain ⟨x0, x1⟩ := ratio_mem (c.lvl / cap)
  cases law with
  | linear =>
    simp only [etRate, hfr, hfr', Option.map_some]
    exact ⟨_, _, rfl, rfl, mul_le_mul_of_nonneg_left (min_le_min le_rfl hm) hpet⟩
  | power e =>
    simp only [etRate, hfr, hfr', Option.map_some]
    exact ⟨_, _, rfl, rfl, mul_le_mul_of_nonneg_left (Real.rpow_le_rpow x0 hm (le_of_lt hlaw)) hpet⟩
  | socont =>
    simp only [etRate, hfr, hfr', Option.map_some]
    exact ⟨_, _, rfl, rfl, mul_le_mul_of_nonneg_left (Real.rpow_le_rpow x0 hm (by norm_num)) hpet⟩
  | expo a =>
    simp only [etRate, hfr, hfr', Option.map_some]
    refine ⟨_, _, rfl, rfl, mul_le_mul_of_nonneg_left ?_ hpet⟩
    have ha : 0 ≤ a := hlaw
    have : Real.exp (-a * max 0 (min 1 (c'.lvl / cap))) ≤ Real.exp (-a * max 0 (min 1 (c.lvl / cap))) :=
      Real.exp_le_exp.2 (by nlinarith)
    linarith
  | hbv lp f =>
    simp only [etRate, hc.cap_eq, hc'.cap_eq, Option.map_some]
    have ht : 0 < lp * cap := mul_pos hlaw.1 hc.cap_pos
    simp only [not_le.2 ht, if_false]
    exact ⟨_, _, rfl, rfl, mul_le_mul_of_nonneg_left
      (min_le_min le_rfl (div_le_div_of_nonneg_right hl ht.le)) (mul_nonneg hlaw.2 hpet)⟩
  | openWater =>
    simp only [etRate, hdt, gt_iff_lt, if_true]
    exact ⟨_, _, rfl, rfl, min_le_min le_rfl (max_le_max le_rfl (div_le_div_of_nonneg_right hl hdt.le))⟩
  | gr4j =>
    simp only [etRate]
    by_cases hp : pet ≤ 0
    · simp [hp]
    · simp only [hp, if_false, hc.cap_eq, hc'.cap_eq, Option.map_some, not_le.2 hc.cap_pos]
      refine ⟨_, _, rfl, rfl, ?_⟩
      have e1 : c.lvl - (c.content + c.dyn) = c.stat := by unfold Cont.lvl; ring
      have e2 : c'.lvl - (c'.content + c'.dyn) = c'.stat := by unfold Cont.lvl; ring
      rw [e1, e2]
      apply evaporation_mono hc.cap_pos
      · have := (infiltration_bounds (P := c.stat) hc.cap_pos hc.content_nonneg hc.content_le).1
        linarith [hc.content_nonneg]
      · exact gr4j_level_mono hc.cap_pos hc.content_nonneg h1 hc'.content_le h3
      · exact (infiltration_bounds (P := c'.stat) hc.cap_pos hc'.content_nonneg hc'.content_le).2.2

/-- Witness: a half-full store. -/
example : Spec.Store { content := 50, dyn := 0, stat := 0, init := 0, cap := some 100 } 100 := by
  constructor <;> simp [Cont.lvl] <;> norm_num
example : etRate 1 4 { content := 50, dyn := 0, stat := 0, init := 0, cap := some 100 } .linear = some 2 := by
  simp only [etRate, Cont.fillingRatio, Cont.withChanges]; norm_num

/-! ## C18: infiltration and the companion rest process -/

/-- The two infiltration laws shared by the Socont and HBV models. -/
inductive Spec.Infil | socont | hbv (beta : ℝ)

noncomputable def Spec.Infil.rate (c target : Cont ℝ) : Spec.Infil → Option ℝ
  | .socont => infiltrationSocont c target
  | .hbv b => infiltrationHBV b c target

def Spec.Infil.OK : Spec.Infil → Prop
  | .socont => True
  | .hbv b => 0 < b

/-- Target storage with a positive capacity (its level may exceed it). -/
structure Spec.Target (t : Cont ℝ) (cap : ℝ) : Prop where
  finite : t.infinite = false
  cap_eq : t.cap = some cap
  cap_pos : 0 < cap

/-- **C18.** The infiltration is between 0 and the surface water, everything for a dry target, nothing
for a full one; and together with the rest process exactly the surface water: in a solved brick the rest
process sees the infiltration as a linked rate, in a direct brick (daily step) it sees the surface after
the withdrawal. -/
theorem c18_infiltration (law : Spec.Infil) (c t : Cont ℝ) (cap : ℝ) (hlaw : law.OK) (ht : Spec.Target t cap)
    (hci : c.infinite = false) (hc : 0 ≤ c.lvl) :
    ∃ r, law.rate c t = some r ∧ 0 ≤ r ∧ r ≤ c.lvl ∧
      (t.lvl ≤ 0 → r = c.lvl) ∧ (cap ≤ t.lvl → r = 0) ∧
      r + outflowRest true [r] c = c.lvl ∧
      r + outflowRest false [] (c.subDyn (r * 1)) = c.lvl := by
  have hfr := fillingRatio_eq ht.finite ht.cap_eq
  obtain ⟨x0, x1⟩ := ratio_mem (t.lvl / cap)
  have key : ∀ r : ℝ, r ≤ c.lvl → r + outflowRest true [r] c = c.lvl ∧
      r + outflowRest false [] (c.subDyn (r * 1)) = c.lvl := by
    intro r hr
    constructor
    · simp only [outflowRest, if_true, List.sum_cons, List.sum_nil, add_zero]
      rw [max_eq_left (by linarith)]; ring
    · have : (c.subDyn (r * 1)).lvl = c.lvl - r := by
        simp [Cont.subDyn, hci, Cont.lvl]; ring
      simp only [outflowRest, Bool.false_eq_true, if_false, this]
      rw [max_eq_left (by linarith)]; ring
  have hdry : t.lvl ≤ 0 → max 0 (min 1 (t.lvl / cap)) = 0 := fun h =>
    ratio_empty (div_nonpos_of_nonpos_of_nonneg h ht.cap_pos.le)
  have hfull : cap ≤ t.lvl → max 0 (min 1 (t.lvl / cap)) = 1 := fun h =>
    ratio_full ((one_le_div ht.cap_pos).2 h)
  have main : ∀ e : ℝ, 0 < e →
      let r := c.lvl * (1 - (max 0 (min 1 (t.lvl / cap))) ^ e)
      0 ≤ r ∧ r ≤ c.lvl ∧ (t.lvl ≤ 0 → r = c.lvl) ∧ (cap ≤ t.lvl → r = 0) := by
    intro e he
    have y0 := Real.rpow_nonneg x0 e
    have y1 := Real.rpow_le_one x0 x1 he.le
    refine ⟨mul_nonneg hc (by linarith), mul_le_of_le_one_right hc (by linarith), ?_, ?_⟩
    · intro h; rw [hdry h, Real.zero_rpow he.ne']; ring
    · intro h; rw [hfull h, Real.one_rpow]; ring
  cases law with
  | socont =>
    simp only [Spec.Infil.rate, infiltrationSocont, ht.cap_eq, Option.bind_some, not_le.2 ht.cap_pos, if_false,
      hfr, Option.map_some]
    obtain ⟨a, b, c1, d⟩ := main 2 (by norm_num)
    exact ⟨_, rfl, a, b, c1, d, (key _ b).1, (key _ b).2⟩
  | hbv beta =>
    simp only [Spec.Infil.rate, infiltrationHBV, ht.cap_eq, Option.bind_some]
    by_cases h0 : c.lvl ≤ 0
    · have : c.lvl = 0 := le_antisymm h0 hc
      simp only [h0, true_or, if_true]
      exact ⟨0, rfl, le_rfl, hc, fun _ => this.symm, fun _ => rfl, (key 0 hc).1, (key 0 hc).2⟩
    · rw [if_neg (by simp [h0, ht.cap_pos])]
      simp only [hfr, Option.map_some]
      have hcl : max 0 (min 1 (max 0 (min 1 (t.lvl / cap)))) = max 0 (min 1 (t.lvl / cap)) := by
        rw [min_eq_right x1, max_eq_right x0]
      rw [hcl]
      obtain ⟨a, b, c1, d⟩ := main beta hlaw
      exact ⟨_, rfl, a, b, c1, d, (key _ b).1, (key _ b).2⟩

/-- The infiltration never increases when the target fills up. -/
theorem c18_antitone (law : Spec.Infil) (c t t' : Cont ℝ) (cap : ℝ) (hlaw : law.OK) (ht : Spec.Target t cap)
    (ht' : Spec.Target t' cap) (hc : 0 ≤ c.lvl) (h : t.lvl ≤ t'.lvl) :
    ∃ r r', law.rate c t = some r ∧ law.rate c t' = some r' ∧ r' ≤ r := by
  have hfr := fillingRatio_eq ht.finite ht.cap_eq
  have hfr' := fillingRatio_eq ht'.finite ht'.cap_eq
  have hm := ratio_mono (div_le_div_of_nonneg_right h ht.cap_pos.le)
  obtain ⟨x0, x1⟩ := ratio_mem (t.lvl / cap)
  obtain ⟨y0, y1⟩ := ratio_mem (t'.lvl / cap)
  cases law with
  | socont =>
    simp only [Spec.Infil.rate, infiltrationSocont, ht.cap_eq, ht'.cap_eq, Option.bind_some, not_le.2 ht.cap_pos,
      if_false, hfr, hfr', Option.map_some]
    exact ⟨_, _, rfl, rfl, mul_le_mul_of_nonneg_left
      (by linarith [Real.rpow_le_rpow x0 hm (by norm_num : (0:ℝ) ≤ 2)]) hc⟩
  | hbv beta =>
    simp only [Spec.Infil.rate, infiltrationHBV, ht.cap_eq, ht'.cap_eq, Option.bind_some]
    by_cases h0 : c.lvl ≤ 0
    · simp [h0]
    · have hn : ¬ (c.lvl ≤ 0 ∨ cap ≤ 0) := by simp [h0, ht.cap_pos]
      simp only [hn, if_false, hfr, hfr', Option.map_some]
      rw [min_eq_right x1, max_eq_right x0, min_eq_right y1, max_eq_right y0]
      have hb : 0 < beta := hlaw
      exact ⟨_, _, rfl, rfl, mul_le_mul_of_nonneg_left
        (by linarith [Real.rpow_le_rpow x0 hm hb.le]) hc⟩

example : infiltrationHBV 1 { content := 8, dyn := 0, stat := 0, init := 0 }
    { content := 50, dyn := 0, stat := 0, init := 0, cap := some 100 } = some 4 := by
  simp only [infiltrationHBV, Cont.fillingRatio, Cont.withChanges, Cont.lvl, Option.bind_some, Option.map_some]
  norm_num

/-! ## C19: GR4J production store -/

/-- **C19 (formulas).** For a store level within `[0, X1]`: infiltration is between 0 and the net rain and
never overfills the store; evaporation is between 0 and both demand and content; percolation is between
0 and the content. -/
theorem c19_formulas (S X1 P E : ℝ) (hX : 0 < X1) (hS : 0 ≤ S) (hSX : S ≤ X1) (hP : 0 ≤ P) (hE : 0 ≤ E) :
    (0 ≤ gr4jInfiltration S P X1 ∧ gr4jInfiltration S P X1 ≤ P ∧ S + gr4jInfiltration S P X1 ≤ X1) ∧
    (0 ≤ gr4jEvaporation S E X1 ∧ gr4jEvaporation S E X1 ≤ E ∧ gr4jEvaporation S E X1 ≤ S) ∧
    (0 ≤ gr4jPercolation S X1 ∧ gr4jPercolation S X1 ≤ S) := by
  have a := infiltration_bounds (P := P) hX hS hSX
  have b := evaporation_bounds (E := E) hX hS hSX
  rw [max_eq_left hP] at a
  rw [max_eq_left hE] at b
  exact ⟨a, b, percolation_bounds hX hS⟩

/-- **C19 (production step).** The discrete production step of a store of capacity `X1` holding `S0` with
net rain `Pn` pending and net demand `En`: it returns exactly net rain − infiltration + percolation to
routing (≥ 0), and once this and the GR4J evaporation are withdrawn over the day the store is back within
`[0, X1]`, at `S0 + infiltration − evaporation − percolation`. -/
theorem c19_production_step (c : Cont ℝ) (X1 En : ℝ) (hc : Spec.Store c X1) (hP : 0 ≤ c.stat) (hE : 0 ≤ En) :
    ∃ PR Es Ps Perc,
      productionRate En c = some PR ∧ etRate 1 En c .gr4j = some Es ∧
      Ps = gr4jInfiltration c.content c.stat X1 ∧
      Perc = gr4jPercolation (c.content + Ps - Es) X1 ∧
      PR = c.stat - Ps + Perc ∧ 0 ≤ PR ∧ 0 ≤ Es ∧
      c.content + c.stat - Es - PR = c.content + Ps - Es - Perc ∧
      0 ≤ c.content + c.stat - Es - PR ∧ c.content + c.stat - Es - PR ≤ X1 := by
  have hPn : c.lvl - (c.content + c.dyn) = c.stat := by unfold Cont.lvl; ring
  obtain ⟨i0, i1, i2⟩ := infiltration_bounds (P := c.stat) hc.cap_pos hc.content_nonneg hc.content_le
  rw [max_eq_left hP] at i1
  obtain ⟨e0, e1, e2⟩ := evaporation_bounds (E := En) hc.cap_pos (add_nonneg hc.content_nonneg i0) i2
  set Ps := gr4jInfiltration c.content c.stat X1 with hPs
  set Es := gr4jEvaporation (c.content + Ps) En X1 with hEs
  obtain ⟨p0, p1⟩ := percolation_bounds (S := c.content + Ps - Es) hc.cap_pos (by linarith)
  refine ⟨c.stat - Ps + gr4jPercolation (c.content + Ps - Es) X1, Es, Ps, _, ?_, ?_, rfl, rfl, rfl,
    by linarith, e0, by ring, by linarith, by linarith⟩
  · simp only [productionRate, hc.cap_eq, Option.map_some, not_le.2 hc.cap_pos, if_false, hPn, ← hPs, ← hEs]
  · simp only [etRate, hc.cap_eq, Option.map_some, not_le.2 hc.cap_pos, if_false, hPn, ← hPs, ← hEs]
    split
    · rename_i h
      have : En = 0 := le_antisymm h hE
      rw [hEs, this]; simp [gr4jEvaporation]
    · rfl

/-- **C19 (infiltration and percolation processes).** -/
theorem c19_processes (c t : Cont ℝ) (X1 : ℝ) (hc : 0 ≤ c.lvl) (ht : t.cap = some X1) (hX : 0 < X1)
    (h0 : 0 ≤ t.lvl) (h1 : t.lvl ≤ X1) :
    (∃ r, infiltrationGR4JRate c t = some r ∧ 0 ≤ r ∧ r ≤ c.lvl ∧ t.lvl + r ≤ X1) ∧
    (∃ r, percolationGR4JRate t = some r ∧ 0 ≤ r ∧ r ≤ t.lvl) := by
  constructor
  · simp only [infiltrationGR4JRate, ht, Option.map_some]
    by_cases h : c.lvl ≤ 0
    · simp [h, hc, h1]
    · rw [if_neg (by simp [h, hX])]
      obtain ⟨a, b, d⟩ := infiltration_bounds (P := c.lvl) hX h0 h1
      rw [max_eq_left hc] at b
      exact ⟨_, rfl, a, b, d⟩
  · simp only [percolationGR4JRate, ht, Option.map_some, not_le.2 hX, if_false]
    exact ⟨_, rfl, percolation_bounds hX h0⟩

/-- **Negative result (C19).** If the store starts above its capacity (an initial content larger than
X1 is not refused), the infiltration is negative. -/
theorem c19_overfull_start : gr4jInfiltration 200 10 100 < 0 := by
  unfold gr4jInfiltration
  rw [if_neg (by norm_num)]
  have t0 : 0 < Real.tanh (min (10 / 100) 13) := by
    rw [Real.tanh_eq_sinh_div_cosh]
    exact div_pos (Real.sinh_pos_iff.2 (by norm_num)) (Real.cosh_pos _)
  dsimp only
  generalize Real.tanh (min (10 / 100) 13) = t at *
  apply div_neg_of_neg_of_pos
  · nlinarith
  · nlinarith

example : Spec.Store { content := 50, dyn := 0, stat := 10, init := 0, cap := some 100 } 100 := by
  constructor <;> simp [Cont.lvl] <;> norm_num

/-! ## C20: interception -/

/-- **C20.** The interception evaporates min(P, E) and publishes the remaining demand: remaining rain and
demand are ≥ 0 and at least one is zero. (Below 1e-8 mm of rain the process does nothing: the demand is
untouched and the remaining rain is at most 1e-8.) -/
theorem c20_interception (c : Cont ℝ) (E : ℝ) (hP : 0 ≤ c.lvl) (hE : 0 ≤ E) :
    let o := interception E c
    let rain := c.lvl - o.1
    let demand := o.2.getD E
    0 ≤ o.1 ∧ 0 ≤ rain ∧ 0 ≤ demand ∧
    (1 / 10 ^ 8 < c.lvl → o.1 = min c.lvl E ∧ demand = E - min c.lvl E ∧ (rain = 0 ∨ demand = 0)) ∧
    (c.lvl ≤ 1 / 10 ^ 8 → o.1 = 0 ∧ demand = E ∧ rain ≤ 1 / 10 ^ 8) := by
  unfold interception
  by_cases h : c.lvl ≤ 0 + prec
  · have h' : c.lvl ≤ 1 / 10 ^ 8 := by simpa [prec] using h
    simp only [lessThanOrEqual, h, decide_true, if_true, Option.getD_none, sub_zero]
    exact ⟨le_rfl, hP, hE, fun h2 => absurd h' (not_le.2 h2), fun _ => ⟨trivial, trivial, h'⟩⟩
  · have h' : ¬ c.lvl ≤ 1 / 10 ^ 8 := by simpa [prec] using h
    simp only [lessThanOrEqual, h, decide_false, Bool.false_eq_true, if_false, Option.getD_some]
    refine ⟨le_min hP hE, by linarith [min_le_left c.lvl E], le_max_left _ _, fun _ => ⟨trivial, ?_, ?_⟩,
      fun h2 => absurd h2 h'⟩
    · rcases le_total c.lvl E with g | g
      · rw [min_eq_left g, max_eq_right (by linarith)]
      · rw [min_eq_right g, max_eq_left (by linarith)]; ring
    · rcases le_total c.lvl E with g | g
      · left; rw [min_eq_left g]; ring
      · right; exact max_eq_left (by linarith)

/-- **Negative result (C20).** Evaluating the process twice within a step (as a multi-stage solver would
on a solved brick; land covers are computed directly, once) neutralises the demand twice: with P = 1 and
E = 3 the published demand falls to 1 instead of 2. -/
theorem c20_twice_counts_twice :
    let c : Cont ℝ := { content := 1, dyn := 0, stat := 0, init := 0 }
    let first := interception 3 c
    let second := interception (first.2.getD 3) c
    first.2 = some 2 ∧ second.2 = some 1 := by
  simp only [interception, lessThanOrEqual, prec, Cont.lvl]
  norm_num

example : (interception 3 { content := 5, dyn := 0, stat := 0, init := 0 }).1 = 3 := by
  simp only [interception, lessThanOrEqual, prec, Cont.lvl]
  norm_num

end HB
