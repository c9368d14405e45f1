import Verif.Model.Sequential
import Mathlib.Analysis.SpecialFunctions.ExpDeriv
import Mathlib.Analysis.Calculus.MeanValue
import Mathlib.Topology.Order.IntermediateValue
import Mathlib.Tactic.Linarith
import Mathlib.Tactic.FieldSimp
import Mathlib.Tactic.Ring
import Mathlib.Tactic.Positivity
import Mathlib.Tactic.NormNum

/-! # C13, C14, C55: the sequential solvers -/

namespace HB

/-! ## C13: analytic integration of linear reservoirs -/

/-- The content of a reservoir: `S` follows `dS/dt = I − k S` from `S0` (spec). -/
def Spec.Reservoir (k I S0 : ℝ) (S : ℝ → ℝ) : Prop :=
  S 0 = S0 ∧ ∀ t, HasDerivAt S (I - k * S t) t

/-- The equation has a solution, and the code's closed formula is the value of every solution. -/
theorem reservoir_solution (k I S0 h : ℝ) (hk : k ≠ 0) :
    Spec.Reservoir k I S0 (fun t => analyticContent k I S0 t) ∧
    ∀ S, Spec.Reservoir k I S0 S → S h = analyticContent k I S0 h := by
  have hexp : ∀ t : ℝ, HasDerivAt (fun t => Real.exp (-k * t)) (-k * Real.exp (-k * t)) t := by
    intro t
    have h1 : HasDerivAt (fun t : ℝ => -k * t) (-k) t := by
      simpa using (hasDerivAt_id t).const_mul (-k)
    have := h1.exp
    simpa [mul_comm] using this
  constructor
  · refine ⟨by simp [analyticContent], fun t => ?_⟩
    have h1 := (hexp t).const_mul S0
    have h2 := ((hexp t).const_sub 1).const_mul (I / k)
    have h3 := h1.add h2
    refine HasDerivAt.congr_deriv (f := fun t => analyticContent k I S0 t) h3 ?_
    unfold analyticContent
    field_simp
    ring
  · rintro S ⟨h0, hS⟩
    have hconst : ∀ t : ℝ, HasDerivAt (fun t => (S t - I / k) * Real.exp (k * t)) 0 t := by
      intro t
      have h1 : HasDerivAt (fun t : ℝ => k * t) k t := by simpa using (hasDerivAt_id t).const_mul k
      have h2 := ((hS t).sub_const (I / k)).mul h1.exp
      refine h2.congr_deriv ?_
      field_simp
      ring
    have hd : Differentiable ℝ (fun t => (S t - I / k) * Real.exp (k * t)) :=
      fun t => (hconst t).differentiableAt
    have := is_const_of_deriv_eq_zero hd (fun t => (hconst t).deriv) h 0
    simp only [mul_zero, Real.exp_zero, mul_one, h0] at this
    have he : Real.exp (k * h) * Real.exp (-k * h) = 1 := by rw [← Real.exp_add]; simp
    have h4 : S h - I / k = (S0 - I / k) * Real.exp (-k * h) := by
      calc S h - I / k = (S h - I / k) * (Real.exp (k * h) * Real.exp (-k * h)) := by rw [he, mul_one]
        _ = (S h - I / k) * Real.exp (k * h) * Real.exp (-k * h) := by ring
        _ = _ := by rw [this]
    unfold analyticContent
    linarith

theorem analyticOut_nonneg_arg {k net content h : ℝ} (hk : 0 < k) (hh : 0 < h) (hc : 0 ≤ content)
    (hn : 0 ≤ net) : 0 ≤ (net * h - (analyticContent k net content h - content)) / h := by
  apply div_nonneg _ hh.le
  unfold analyticContent
  have he1 : Real.exp (-k * h) ≤ 1 := Real.exp_le_one_iff.2 (by nlinarith)
  have he2 : -k * h + 1 ≤ Real.exp (-k * h) := Real.add_one_le_exp _
  have h1 : 0 ≤ content * (1 - Real.exp (-k * h)) := mul_nonneg hc (by linarith)
  have h2 : net / k * (1 - Real.exp (-k * h)) ≤ net * h := by
    rw [div_mul_eq_mul_div, div_le_iff₀ hk]
    nlinarith
  linarith

theorem analyticContent_nonneg {k net content h : ℝ} (hk : 0 < k) (hh : 0 < h) (hc : 0 ≤ content)
    (hn : 0 ≤ net) : 0 ≤ analyticContent k net content h := by
  unfold analyticContent
  have he0 : 0 ≤ Real.exp (-k * h) := (Real.exp_pos _).le
  have he1 : Real.exp (-k * h) ≤ 1 := Real.exp_le_one_iff.2 (by nlinarith)
  have h1 : 0 ≤ net / k := div_nonneg hn hk.le
  have := mul_nonneg hc he0
  have := mul_nonneg h1 (by linarith : (0:ℝ) ≤ 1 - Real.exp (-k * h))
  linarith

theorem analyticRates_sum (ps : List AProc) (content inflow h : ℝ) (hk : 0 < linearTotal ps) :
    (analyticRates ps content inflow h).sum =
      analyticOut (linearTotal ps) (inflow - frozenTotal ps) content h + frozenTotal ps := by
  unfold analyticRates
  dsimp only
  set k := linearTotal ps with hkd
  set Q := analyticOut k (inflow - frozenTotal ps) content h
  have key : ∀ l : List AProc, (l.flatMap (analyticRateOf k Q)).sum = Q * linearTotal l / k + frozenTotal l := by
    intro l
    induction l with
    | nil => simp [linearTotal, frozenTotal]
    | cons p l ih =>
      rw [List.flatMap_cons, List.sum_append, ih]
      cases p with
      | linear ki =>
        simp only [analyticRateOf, not_le.mpr hk, if_false, List.sum_cons, List.sum_nil, linearTotal, frozenTotal,
          List.map_cons]
        ring
      | frozen r =>
        simp only [analyticRateOf, linearTotal, frozenTotal, List.map_cons, List.sum_cons]
        ring
  rw [key, ← hkd]
  field_simp

/-- **C13.** With the analytic solver, a reservoir with linear outflows (total coefficient `k > 0`) and
possibly other processes whose rates are constant over the step ends the step, when the returned rates
are applied, exactly on the solution of `dS/dt = I − k S` (`I` = inflow minus the constant rates); the
linear release is non-negative, each linear process takes its share, and the content stays ≥ 0. -/
theorem c13_exact (ps : List AProc) (content inflow h : ℝ) (hk : 0 < linearTotal ps) (hh : 0 < h)
    (hc : 0 ≤ content) (hn : 0 ≤ inflow - frozenTotal ps) (S : ℝ → ℝ)
    (hS : Spec.Reservoir (linearTotal ps) (inflow - frozenTotal ps) content S) :
    content + (inflow - (analyticRates ps content inflow h).sum) * h = S h ∧
    0 ≤ S h ∧
    (∀ i ki, ps = ps.take i ++ .linear ki :: ps.drop (i + 1) → 0 ≤ ki →
      ∃ r ∈ analyticRates ps content inflow h,
        r = ki / linearTotal ps * ((analyticRates ps content inflow h).sum - frozenTotal ps) ∧ 0 ≤ r) := by
  have hout := analyticOut_nonneg_arg (net := inflow - frozenTotal ps) hk hh hc hn
  have hQ : analyticOut (linearTotal ps) (inflow - frozenTotal ps) content h =
      ((inflow - frozenTotal ps) * h -
        (analyticContent (linearTotal ps) (inflow - frozenTotal ps) content h - content)) / h := by
    unfold analyticOut; exact max_eq_left hout
  have hs := (reservoir_solution _ _ _ h hk.ne').2 S hS
  refine ⟨?_, ?_, ?_⟩
  · rw [analyticRates_sum _ _ _ _ hk, hQ, hs]
    field_simp
    ring
  · rw [hs]; exact analyticContent_nonneg hk hh hc hn
  · intro i ki hi hki
    refine ⟨analyticOut (linearTotal ps) (inflow - frozenTotal ps) content h * ki / linearTotal ps, ?_, ?_, ?_⟩
    · have hmem : AProc.linear ki ∈ ps := by rw [hi]; simp
      unfold analyticRates
      exact List.mem_flatMap.2 ⟨_, hmem, by simp [analyticRateOf, not_le.mpr hk]⟩
    · rw [analyticRates_sum _ _ _ _ hk]; ring
    · have : 0 ≤ analyticOut (linearTotal ps) (inflow - frozenTotal ps) content h := le_max_right _ _
      positivity

/-- **C13 (released volume).** For a purely linear reservoir the released volume is `S0 + I dt − S1`. -/
theorem c13_released (k content inflow h : ℝ) (hk : 0 < k) (hh : 0 < h) (hc : 0 ≤ content)
    (hi : 0 ≤ inflow) (S : ℝ → ℝ) (hS : Spec.Reservoir k inflow content S) :
    ∃ r, analyticRates [.linear k] content inflow h = [r] ∧ 0 ≤ r ∧
      r * h = content + inflow * h - S h := by
  have hkk : linearTotal [.linear k] = k := by simp [linearTotal]
  have hff : frozenTotal [.linear k] = 0 := by simp [frozenTotal]
  have h1 := c13_exact [.linear k] content inflow h (by rw [hkk]; exact hk) hh hc
    (by rw [hff]; linarith) S (by rw [hkk, hff]; simpa using hS)
  refine ⟨analyticOut k inflow content h * k / k, ?_, ?_, ?_⟩
  · simp [analyticRates, analyticRateOf, hkk, hff, not_le.mpr hk]
  · have : 0 ≤ analyticOut k inflow content h := le_max_right _ _
    positivity
  · have h2 := h1.1
    rw [analyticRates_sum _ _ _ _ (by rw [hkk]; exact hk), hkk, hff] at h2
    have e : analyticOut k inflow content h * k / k = analyticOut k inflow content h := by field_simp
    rw [e]
    simp only [sub_zero, add_zero] at h2
    linarith

/-- **C13 (splitting).** Two consecutive steps `h₁` then `h₂` with the same inflow reach the content of
one step of `h₁ + h₂`; in particular two half steps equal a full step. -/
theorem c13_two_steps (k net content h1 h2 : ℝ) (hk : 0 < k) :
    analyticContent k net (analyticContent k net content h1) h2 = analyticContent k net content (h1 + h2) := by
  unfold analyticContent
  have : Real.exp (-k * (h1 + h2)) = Real.exp (-k * h1) * Real.exp (-k * h2) := by
    rw [← Real.exp_add]; congr 1; ring
  rw [this]; ring

/-- Witness: there is such a reservoir, whose release is strictly positive. -/
example : ∃ S, Spec.Reservoir 2 3 10 S ∧ 0 < 10 + 3 * 1 - S 1 := by
  refine ⟨_, (reservoir_solution 2 3 10 1 two_ne_zero).1, ?_⟩
  simp only [analyticContent]
  have h1 : Real.exp (-2 * 1) < 1 := Real.exp_lt_one_iff.2 (by norm_num)
  generalize Real.exp (-2 * 1) = x at h1 ⊢
  linarith

/-! ## C14: bisection -/

section

variable {K : Type*} [Field K] [LinearOrder K] [IsStrictOrderedRing K]

theorem bisect_spec (g : K → K) (n : Nat) : ∀ lo hi : K, lo ≤ hi →
    let r := bisect g n lo hi
    lo ≤ r.1 ∧ r.1 ≤ r.2 ∧ r.2 ≤ hi ∧ (g lo ≤ 0 → g r.1 ≤ 0) ∧ (0 ≤ g hi → 0 ≤ g r.2) ∧
    (r.2 - r.1 < bisTol ∨ r.2 - r.1 ≤ (hi - lo) / 2 ^ n) := by
  induction n with
  | zero => intro lo hi h; simp [bisect, h]
  | succ n ih =>
    intro lo hi h
    simp only [bisect]
    have hm1 : lo ≤ (lo + hi) / 2 := by linarith
    have hm2 : (lo + hi) / 2 ≤ hi := by linarith
    by_cases hg : g ((lo + hi) / 2) > 0
    · simp only [hg, if_true]
      split
      · rename_i ht
        exact ⟨le_refl _, hm1, hm2, id, fun _ => hg.le, Or.inl ht⟩
      · obtain ⟨a, b, c, d, e, f⟩ := ih lo ((lo + hi) / 2) hm1
        refine ⟨a, b, c.trans hm2, d, fun _ => e hg.le, ?_⟩
        rcases f with f | f
        · exact Or.inl f
        · right; rw [pow_succ]
          have : ((lo + hi) / 2 - lo) / 2 ^ n = (hi - lo) / (2 ^ n * 2) := by field_simp; ring
          rw [← this]; exact f
    · simp only [hg, if_false]
      split
      · rename_i ht
        exact ⟨hm1, hm2, le_refl _, fun _ => not_lt.1 hg, id, Or.inl ht⟩
      · obtain ⟨a, b, c, d, e, f⟩ := ih ((lo + hi) / 2) hi hm2
        refine ⟨hm1.trans a, b, c, fun _ => d (not_lt.1 hg), e, ?_⟩
        rcases f with f | f
        · exact Or.inl f
        · right; rw [pow_succ]
          have : (hi - (lo + hi) / 2) / 2 ^ n = (hi - lo) / (2 ^ n * 2) := by field_simp; ring
          rw [← this]; exact f

/-- The largest bracket for which 100 halvings reach the tolerance (1.27e18 mm). -/
def Spec.sane (content inflow h : K) : Prop := content + h * inflow ≤ 10 ^ 18

/-- **C14 (bracket).** For a non-negative, non-decreasing total outflow with no outflow from an empty
store, the content found lies between 0 and content + inflow × dt, in an interval of width at most
1e-12 whose ends have residuals of opposite signs; so the residual at the content found is at most the
variation of the step equation over 1e-12. -/
theorem c14_bracket (Q : K → K) (content inflow h : K) (hh : 0 < h) (hc : 0 ≤ content) (hi : 0 ≤ inflow)
    (hQ0 : ∀ S, 0 ≤ S → 0 ≤ Q S) (hmono : ∀ S T, 0 ≤ S → S ≤ T → Q S ≤ Q T)
    (hclamp : h * Q 0 ≤ content + h * inflow) (hs : Spec.sane content inflow h) :
    ∃ a b, 0 ≤ a ∧ a ≤ implicitEnd Q false content inflow h ∧ implicitEnd Q false content inflow h ≤ b ∧
      b ≤ content + inflow * h ∧ b - a ≤ 1 / 10 ^ 12 ∧
      residual Q content inflow h a ≤ 0 ∧ 0 ≤ residual Q content inflow h b := by
  have hhi : bracketHi content inflow h = content + h * inflow := by
    unfold bracketHi; rw [max_eq_left hi]
  have hhi0 : 0 ≤ content + h * inflow := by positivity
  have hlo0 : 0 ≤ bracketLo Q false content inflow h := by
    unfold bracketLo; simp
  have hlohi : bracketLo Q false content inflow h ≤ bracketHi content inflow h := by
    unfold bracketLo; simp only [Bool.false_eq_true, if_false]
    rw [hhi]
    apply max_le _ hhi0
    have := mul_nonneg hh.le (hQ0 _ hhi0)
    linarith
  have hglo : residual Q content inflow h (bracketLo Q false content inflow h) ≤ 0 := by
    have hm := hmono _ _ hlo0 hlohi
    unfold residual
    have h2 := mul_le_mul_of_nonneg_left hm hh.le
    unfold bracketLo at *
    simp only [Bool.false_eq_true, if_false] at *
    rcases le_total (content + h * (inflow - Q (bracketHi content inflow h))) 0 with hl | hl
    · rw [max_eq_right hl]; linarith
    · rw [max_eq_left hl] at h2 ⊢; linarith
  have hghi : 0 ≤ residual Q content inflow h (bracketHi content inflow h) := by
    unfold residual; rw [hhi]
    have := mul_nonneg hh.le (hQ0 _ hhi0)
    linarith
  unfold implicitEnd
  dsimp only
  by_cases hgt : bracketHi content inflow h > bracketLo Q false content inflow h
  · rw [if_pos hgt]
    obtain ⟨a, b, c, d, e, f⟩ := bisect_spec (residual Q content inflow h) 100 _ _ hgt.le
    refine ⟨_, _, hlo0.trans a, by linarith, by linarith, c.trans (by rw [hhi, mul_comm]), ?_, d hglo, e hghi⟩
    rcases f with f | f
    · exact f.le
    · refine f.trans ?_
      rw [hhi]
      have : (content + h * inflow - bracketLo Q false content inflow h) ≤ 10 ^ 18 := by
        have := hs; unfold Spec.sane at this; linarith
      rw [div_le_div_iff₀ (by positivity) (by positivity)]
      have h3 : (10 : K) ^ 18 * 10 ^ 12 ≤ 1 * 2 ^ 100 := by norm_num
      nlinarith
  · rw [if_neg hgt]
    have heq : bracketLo Q false content inflow h = bracketHi content inflow h :=
      le_antisymm hlohi (not_lt.1 hgt)
    refine ⟨_, _, hlo0, le_refl _, le_refl _, by rw [heq, hhi]; linarith, by simp, hglo, ?_⟩
    rw [heq]; exact hghi

/-- **C14 (applied rates).** Applying the returned implicit Euler rates over the step leads to the
content found minus its residual: the reported rates balance the step. -/
theorem c14_rates_balance (ps : List (K → K)) (content inflow h : K) (b : Bool) :
    content + h * (inflow - (implicitEulerRates ps b content inflow h).sum) =
      implicitEnd (totalAt ps) b content inflow h -
        residual (totalAt ps) content inflow h (implicitEnd (totalAt ps) b content inflow h) := by
  unfold implicitEulerRates residual totalAt; ring

/-- **C14 (applied rates, Crank–Nicolson).** -/
theorem c14_cn_rates_balance (ps : List (K → K)) (content inflow h : K) (b : Bool) :
    content + h * (inflow - (crankNicolsonRates ps b content inflow h).sum) =
      implicitEnd (cnOutflow ps content) b content inflow h -
        residual (cnOutflow ps content) content inflow h
          (implicitEnd (cnOutflow ps content) b content inflow h) := by
  have hsum : ∀ (l : List (K → K)) (a c : K),
      (l.map (fun q => (q a + q c) / 2)).sum = (totalAt l a + totalAt l c) / 2 := by
    intro l a c
    induction l with
    | nil => simp [totalAt]
    | cons q l ih =>
      simp only [List.map_cons, List.sum_cons, ih, totalAt]; ring
  unfold crankNicolsonRates
  rw [hsum]
  unfold residual cnOutflow; ring

end

/-- **C14 (accuracy).** For a continuous total outflow the step equation has exactly one non-negative
solution, and the content found is within 1e-12 of it. Applies to implicit Euler (`Q = totalAt ps`) and
to Crank–Nicolson (`Q = cnOutflow ps content`). -/
theorem c14_accuracy (Q : ℝ → ℝ) (content inflow h : ℝ) (hh : 0 < h) (hc : 0 ≤ content) (hi : 0 ≤ inflow)
    (hQ0 : ∀ S, 0 ≤ S → 0 ≤ Q S) (hmono : ∀ S T, 0 ≤ S → S ≤ T → Q S ≤ Q T)
    (hcont : ContinuousOn Q (Set.Ici 0))
    (hclamp : h * Q 0 ≤ content + h * inflow) (hs : Spec.sane content inflow h) :
    ∃ S, (0 ≤ S ∧ S = content + h * (inflow - Q S)) ∧
      (∀ T, 0 ≤ T → T = content + h * (inflow - Q T) → T = S) ∧
      |implicitEnd Q false content inflow h - S| ≤ 1 / 10 ^ 12 := by
  obtain ⟨a, b, ha, h1, h2, hb, hw, hga, hgb⟩ := c14_bracket Q content inflow h hh hc hi hQ0 hmono hclamp hs
  have hab : a ≤ b := h1.trans h2
  have hcg : ContinuousOn (residual Q content inflow h) (Set.Icc a b) := by
    have hQc : ContinuousOn Q (Set.Icc a b) := hcont.mono (fun x hx => ha.trans hx.1)
    unfold residual
    exact (continuousOn_id.sub continuousOn_const).sub (continuousOn_const.mul (continuousOn_const.sub hQc))
  obtain ⟨S, ⟨hS1, hS2⟩, hS⟩ := intermediate_value_Icc hab hcg ⟨hga, hgb⟩
  have hS0 : 0 ≤ S := ha.trans hS1
  refine ⟨S, ⟨hS0, by unfold residual at hS; linarith⟩, ?_, ?_⟩
  · intro T hT heq
    have hS' : S = content + h * (inflow - Q S) := by unfold residual at hS; linarith
    rcases le_total S T with hle | hle
    · have := mul_le_mul_of_nonneg_left (hmono S T hS0 hle) hh.le
      linarith
    · have := mul_le_mul_of_nonneg_left (hmono T S hT hle) hh.le
      linarith
  · rw [abs_le]; constructor <;> linarith

/-- Witness: a linear reservoir. -/
example : ∃ S, (0 ≤ S ∧ S = 10 + 1 * (3 - (fun x => 2 * x) S)) ∧
      (∀ T, 0 ≤ T → T = 10 + 1 * (3 - (fun x => 2 * x) T) → T = S) ∧
      |implicitEnd (fun x : ℝ => 2 * x) false 10 3 1 - S| ≤ 1 / 10 ^ 12 :=
  c14_accuracy (fun x => 2 * x) 10 3 1 one_pos (by norm_num) (by norm_num) (fun S hS => by positivity)
    (fun S T _ h => by linarith) (by fun_prop) (by norm_num) (by unfold Spec.sane; norm_num)

/-- **Negative result (C14).** Crank–Nicolson on a fast reservoir (`Q = 5 S`, one day, no inflow): the
step equation has no non-negative solution, so the content found cannot satisfy it (the condition
`hclamp` fails); the constraints then limit the rates. -/
theorem c14_cn_stiff_no_solution :
    ¬ ∃ S : ℝ, 0 ≤ S ∧ S = 1 + 1 * (0 - cnOutflow [fun x => 5 * x] 1 S) := by
  rintro ⟨S, hS, h⟩
  simp [cnOutflow, totalAt] at h
  linarith

/-! ## C55: exponential Euler -/

/-- **C55 (exactness).** For a total outflow that is linear in the content (slope `k > 1e-10`) the
exponential Euler scheme ends on the exact solution of `dS/dt = I − k S`. -/
theorem c55_exp_linear (ps : List (ℝ → ℝ)) (k content inflow h : ℝ) (hk : 1 / 10 ^ 10 < k)
    (hlin : ∀ S, totalAt ps S = k * S) (hh : 0 < h) (hc : 0 ≤ content) (hi : 0 ≤ inflow)
    (S : ℝ → ℝ) (hS : Spec.Reservoir k inflow content S) :
    expEnd ps false content inflow h = S h := by
  have hk0 : 0 < k := lt_trans (by norm_num) hk
  have heps : 0 < max (1 / 1000) (1 / 1000 * max content (content + h * inflow)) :=
    lt_of_lt_of_le (by norm_num) (le_max_left _ _)
  have hslope : expSlope ps content inflow h = k := by
    unfold expSlope
    simp only [hlin]
    field_simp
    ring
  have hs := (reservoir_solution k inflow content h hk0.ne').2 S hS
  have hnn := analyticContent_nonneg hk0 hh hc hi
  unfold expEnd
  simp only [hslope, Bool.false_eq_true, if_false, hlin]
  have e : content + (inflow - k * content) / k * (1 - Real.exp (-k * h)) = analyticContent k inflow content h := by
    unfold analyticContent; field_simp; ring
  rw [e, hs]
  exact max_eq_left hnn

/-- **C55 (balance).** Whenever some connection has a positive rate, the rates returned are
non-negative and applying them over the step leads to the computed end content — unless that content
would need a negative outflow, in which case nothing is released. -/
theorem c55_exp_balance (ps : List (ℝ → ℝ)) (b : Bool) (content inflow h : ℝ) (hh : 0 < h)
    (hs : 1 / 10 ^ 10 < expSlope ps content inflow h)
    (hp : ∀ q ∈ ps, 0 ≤ q content ∧ 0 ≤ q (expEnd ps b content inflow h))
    (hpos : ∃ q ∈ ps, 0 < q content + q (expEnd ps b content inflow h)) :
    (∀ r ∈ expEulerRates ps b content inflow h, 0 ≤ r) ∧
    content + h * (inflow - (expEulerRates ps b content inflow h).sum) =
      min (expEnd ps b content inflow h) (content + h * inflow) := by
  set e := expEnd ps b content inflow h with he
  have hsum : 0 < (ps.map (fun q => q content + q e)).sum := by
    obtain ⟨q, hq, hqp⟩ := hpos
    have hle : q content + q e ≤ (ps.map (fun q => q content + q e)).sum :=
      List.single_le_sum (fun x hx => by
        obtain ⟨q', hq', rfl⟩ := List.mem_map.1 hx
        have := hp q' hq'; linarith [this.1, this.2]) _ (List.mem_map_of_mem hq)
    linarith
  have hr : expEulerRates ps b content inflow h =
      ps.map (fun q => max (inflow - (e - content) / h) 0 *
        ((q content + q e) / (ps.map (fun q => q content + q e)).sum)) := by
    unfold expEulerRates
    rw [if_neg (not_le.mpr hs)]
    simp only [← he]
    simp only [gt_iff_lt, hsum, if_true]
  set W := (ps.map (fun q => q content + q e)).sum with hW
  set T := max (inflow - (e - content) / h) 0 with hT
  constructor
  · intro r hr'
    rw [hr] at hr'
    obtain ⟨q, hq, rfl⟩ := List.mem_map.1 hr'
    have := hp q hq
    exact mul_nonneg (le_max_right _ _) (div_nonneg (by linarith [this.1, this.2]) hsum.le)
  · have htot : (expEulerRates ps b content inflow h).sum = T := by
      rw [hr]
      have : ∀ l : List (ℝ → ℝ), (l.map (fun q => T * ((q content + q e) / W))).sum =
          T * ((l.map (fun q => q content + q e)).sum / W) := by
        intro l
        induction l with
        | nil => simp
        | cons q l ih => simp only [List.map_cons, List.sum_cons, ih]; ring
      rw [this, ← hW, div_self hsum.ne', mul_one]
    rw [htot, hT]
    rcases le_total (inflow - (e - content) / h) 0 with hle | hle
    · rw [max_eq_right hle]
      have : h * inflow ≤ e - content := by
        have h1 : inflow ≤ (e - content) / h := by linarith
        rw [le_div_iff₀ hh] at h1; linarith
      rw [min_eq_right (by linarith)]; ring
    · rw [max_eq_left hle]
      have : e - content ≤ h * inflow := by
        have h1 : (e - content) / h ≤ inflow := by linarith
        rw [div_le_iff₀ hh] at h1; linarith
      rw [min_eq_left (by linarith)]
      field_simp
      ring

/-- Witness for C55. -/
example : expEnd [fun x => 2 * x] false 10 3 1 = analyticContent 2 3 10 1 :=
  c55_exp_linear _ 2 10 3 1 (by norm_num) (fun S => by simp [totalAt]) one_pos (by norm_num) (by norm_num) _
    (reservoir_solution 2 3 10 1 two_ne_zero).1

end HB
