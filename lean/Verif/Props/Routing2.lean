import Mathlib.Analysis.SpecialFunctions.Pow.Real
import Verif.Props.Routing
import Mathlib.Analysis.Complex.ExponentialBounds

/-! # C28, C29, C30: GR4J, GR6J and HBV routing -/

namespace HB

open Finset (range)

/-! ## C28: GR4J routing -/

/-- Water held by the GR routing: the routing store and the entries of the two buffers that are still to be
delivered (the first entry of an advanced buffer has been delivered in the step).  Specification. -/
def Spec.inTransit (r : ℝ) (st1 st2 : List ℝ) : ℝ := r + (st1.drop 1).sum + (st2.drop 1).sum

theorem routingRelease_eq {X3 r : ℝ} (hX : 0 < X3) :
    r - routingRelease X3 r = r * (1 + (r / X3) ^ 4) ^ (-(1 / 4) : ℝ) := by
  unfold routingRelease
  simp only [gt_iff_lt, hX, if_true]
  rw [show r / X3 * (r / X3) * (r / X3) * (r / X3) = (r / X3) ^ 4 by ring]
  ring

/-- The power-law release leaves the store between 0 and its capacity, whatever was in it. -/
theorem routingRelease_bounds {X3 r : ℝ} (hX : 0 < X3) (hr : 0 ≤ r) :
    0 ≤ routingRelease X3 r ∧ 0 ≤ r - routingRelease X3 r ∧ r - routingRelease X3 r ≤ X3 := by
  have hq : 0 ≤ r / X3 := div_nonneg hr hX.le
  have h1 : 1 ≤ 1 + (r / X3) ^ 4 := by linarith [pow_nonneg hq 4]
  have hpow : 0 ≤ (1 + (r / X3) ^ 4) ^ (-(1 / 4) : ℝ) := Real.rpow_nonneg (by linarith) _
  have hle1 : (1 + (r / X3) ^ 4) ^ (-(1 / 4) : ℝ) ≤ 1 := Real.rpow_le_one_of_one_le_of_nonpos h1 (by norm_num)
  have e := routingRelease_eq (r := r) hX
  refine ⟨?_, ?_, ?_⟩
  · nlinarith
  · rw [e]; positivity
  · rw [e, Real.rpow_neg (by linarith)]
    have h2 : r / X3 ≤ (1 + (r / X3) ^ 4) ^ (1 / 4 : ℝ) := by
      calc r / X3 = ((r / X3) ^ 4) ^ (1 / 4 : ℝ) := by
            rw [← Real.rpow_natCast, ← Real.rpow_mul hq]; norm_num
        _ ≤ _ := Real.rpow_le_rpow (by positivity) (by linarith) (by norm_num)
    have h3 : 0 < (1 + (r / X3) ^ 4) ^ (1 / 4 : ℝ) := Real.rpow_pos_of_pos (by linarith) _
    rw [← div_eq_mul_inv, div_le_iff₀ h3]
    rw [div_le_iff₀ hX] at h2
    linarith

/-- **C28 (prediction).** The discharge handed to the solver is the one committed at the end of the step. -/
theorem c28_prediction (p : GR4JPar) (s : GR4JSt) (PR : ℝ) (h1 : s.st1.length = p.ord1.length)
    (h2 : s.st2.length = p.ord2.length) :
    (gr4jRates p s PR).1 = (gr4jFinalize p s PR).2.1 ∧ (gr4jRates p s PR).2.1 = (gr4jFinalize p s PR).2.2 := by
  simp only [gr4jRates, gr4jFinalize, predict_eq _ _ _ h1, predict_eq _ _ _ h2, and_self]

/-- **C28 (balance).** Over one step, water held changes by inflow plus exchange minus discharge, for every
state, inflow, X2 and X3, when the ordinates sum to one. -/
theorem c28_balance (p : GR4JPar) (s : GR4JSt) (PR : ℝ) (h1 : s.st1.length = p.ord1.length)
    (h2 : s.st2.length = p.ord2.length) (o1 : p.ord1.sum = 1) (o2 : p.ord2.sum = 1) :
    let s' := (gr4jFinalize p s PR).1
    let qr := (gr4jFinalize p s PR).2.1
    let qd := (gr4jFinalize p s PR).2.2
    let exch := (gr4jRates p s PR).2.2
    Spec.inTransit s'.r s'.st1 s'.st2 = Spec.inTransit s.r s.st1 s.st2 + PR + exch - (qr + qd) := by
  intro s' qr qd exch
  have a1 := advance_sum p.ord1 s.st1 (9 / 10 * PR) h1
  have a2 := advance_sum p.ord2 s.st2 (1 / 10 * PR) h2
  simp only [s', qr, qd, exch, gr4jRates, gr4jFinalize, Spec.inTransit, predict_eq _ _ _ h1, predict_eq _ _ _ h2,
    sum_drop_one (advance _ _ _), a1, a2, o1, o2]
  ring

/-- **C28 (bounds).** After any step from a non-negative store the routing store is within [0, X3] and both
releases are non-negative. -/
theorem c28_bounds (p : GR4JPar) (s : GR4JSt) (PR : ℝ) (hX : 0 < p.X3) :
    0 ≤ (gr4jFinalize p s PR).1.r ∧ (gr4jFinalize p s PR).1.r ≤ p.X3 ∧
    0 ≤ (gr4jFinalize p s PR).2.1 ∧ 0 ≤ (gr4jFinalize p s PR).2.2 := by
  have h := routingRelease_bounds hX
    (le_max_left 0 (s.r + (advance p.ord1 s.st1 (9 / 10 * PR)).getD 0 0 + gr4jExchange p s.r))
  exact ⟨h.2.1, h.2.2, h.1, le_max_left _ _⟩

/-- A whole run with daily steps: the process state and the content of the brick's water container, which
receives the inflow and the injected exchange and gives the discharge
(ProcessRoutingGR4J.cpp:112-127, WaterContainer::Finalize). -/
noncomputable def gr4jRun (p : GR4JPar) (ins : ℕ → ℝ) : ℕ → GR4JSt × ℝ
  | 0 => (⟨0, List.replicate p.ord1.length 0, List.replicate p.ord2.length 0⟩, 0)
  | t + 1 =>
    let s := (gr4jRun p ins t).1
    let x := gr4jRates p s (ins t)
    ((gr4jFinalize p s (ins t)).1, (gr4jRun p ins t).2 + ins t + x.2.2 - (x.1 + x.2.1))

theorem gr4jRun_len (p : GR4JPar) (ins : ℕ → ℝ) (t : ℕ) :
    (gr4jRun p ins t).1.st1.length = p.ord1.length ∧ (gr4jRun p ins t).1.st2.length = p.ord2.length := by
  induction t with
  | zero => simp [gr4jRun]
  | succ t ih => exact ⟨advance_length _ _ _ ih.1, advance_length _ _ _ ih.2⟩

/-- The first buffer of a run is the unit hydrograph buffer of C27. -/
theorem gr4jRun_buffer (p : GR4JPar) (ins : ℕ → ℝ) (t : ℕ) :
    (gr4jRun p ins t).1.st1 = buffer p.ord1 (fun s => 9 / 10 * ins s) t ∧
    (gr4jRun p ins t).1.st2 = buffer p.ord2 (fun s => 1 / 10 * ins s) t := by
  induction t with
  | zero => exact ⟨rfl, rfl⟩
  | succ t ih =>
    refine ⟨?_, ?_⟩
    · show advance p.ord1 _ _ = advance p.ord1 _ _; rw [ih.1]
    · show advance p.ord2 _ _ = advance p.ord2 _ _; rw [ih.2]

theorem buffer_nonneg (ord : List ℝ) (ins : ℕ → ℝ) (ho : ∀ w ∈ ord, 0 ≤ w) (hi : ∀ t, 0 ≤ ins t) (t i : ℕ) :
    0 ≤ (buffer ord ins t).getD i 0 := by
  have hw : ∀ j, 0 ≤ ord.getD j 0 := by
    intro j
    by_cases hj : j < ord.length
    · rw [List.getD_eq_getElem _ _ hj]; exact ho _ (List.getElem_mem hj)
    · rw [List.getD_eq_default _ _ (by omega)]
  cases t with
  | zero =>
    simp only [buffer, List.getD_eq_getElem?_getD, List.getElem?_replicate]
    split <;> simp
  | succ t =>
    rw [buffer_getD]
    exact Finset.sum_nonneg fun k _ => mul_nonneg (hw _) (hi _)

theorem drop_one_sum_nonneg (l : List ℝ) (h : ∀ i, 0 ≤ l.getD i 0) : 0 ≤ (l.drop 1).sum := by
  apply List.sum_nonneg
  intro x hx
  obtain ⟨i, hi, rfl⟩ := List.getElem_of_mem (List.mem_of_mem_drop hx)
  rw [← List.getD_eq_getElem _ 0 hi]; exact h i

/-- **C28 (whole run).** After any number of steps on any inflow series, the brick's container holds exactly
the water in transit; if the inflows are non-negative it is non-negative, so the discharge is never
short of water once the exchange is counted, whatever the sign of X2 (see C70 for the constraint, which does not count it). -/
theorem c28_run (p : GR4JPar) (ins : ℕ → ℝ) (hX : 0 < p.X3) (P1 : Spec.Partition p.ord1) (P2 : Spec.Partition p.ord2)
    (t : ℕ) :
    let s := (gr4jRun p ins t).1
    (gr4jRun p ins t).2 = Spec.inTransit s.r s.st1 s.st2 ∧ 0 ≤ s.r ∧ s.r ≤ p.X3 ∧
    ((∀ u, 0 ≤ ins u) → 0 ≤ (gr4jRun p ins t).2) := by
  intro s
  have hr : 0 ≤ s.r ∧ s.r ≤ p.X3 := by
    cases t with
    | zero => exact ⟨le_rfl, hX.le⟩
    | succ t => exact ⟨(c28_bounds p _ (ins t) hX).1, (c28_bounds p _ (ins t) hX).2.1⟩
  have hc : (gr4jRun p ins t).2 = Spec.inTransit s.r s.st1 s.st2 := by
    simp only [s]; clear hr s
    induction t with
    | zero => simp [gr4jRun, Spec.inTransit]
    | succ t ih =>
      have hl := gr4jRun_len p ins t
      have hp := c28_prediction p (gr4jRun p ins t).1 (ins t) hl.1 hl.2
      have hb := c28_balance p (gr4jRun p ins t).1 (ins t) hl.1 hl.2 P1.2 P2.2
      simp only at hb
      simp only [gr4jRun]
      rw [hb, ih, hp.1, hp.2]
  refine ⟨hc, hr.1, hr.2, fun hi => ?_⟩
  rw [hc]
  unfold Spec.inTransit
  have hbuf := gr4jRun_buffer p ins t
  have a := drop_one_sum_nonneg s.st1 (by
    intro i; simp only [s]; rw [hbuf.1]; exact buffer_nonneg _ _ P1.1 (fun u => by have := hi u; positivity) _ _)
  have b := drop_one_sum_nonneg s.st2 (by
    intro i; simp only [s]; rw [hbuf.2]; exact buffer_nonneg _ _ P2.1 (fun u => by have := hi u; positivity) _ _)
  linarith [hr.1]

/-- **C28, for the code's own ordinates**: any X2, any X4 (also non-positive), X3 > 0. -/
theorem c28_run_x4 (X2 X3 X4 : ℝ) (hX : 0 < X3) (ins : ℕ → ℝ) (hi : ∀ u, 0 ≤ ins u) (t : ℕ) :
    let run := gr4jRun ⟨X2, X3, uh1 X4, uh2 X4⟩ ins t
    run.2 = Spec.inTransit run.1.r run.1.st1 run.1.st2 ∧ 0 ≤ run.1.r ∧ run.1.r ≤ X3 ∧ 0 ≤ run.2 := by
  have h := c28_run ⟨X2, X3, uh1 X4, uh2 X4⟩ ins hX (c26_partition X4 1).1 (c26_partition X4 1).2.1 t
  exact ⟨h.1, h.2.1, h.2.2.1, h.2.2.2 hi⟩

/-- **Finding.** The logged `internal_storage` is not the water in transit: it also counts the first entry of
each buffer, which has already been delivered in the step. -/
theorem c28_logged_counts_delivered (s : GR4JSt) :
    gr4jLogged s = Spec.inTransit s.r s.st1 s.st2 + s.st1.getD 0 0 + s.st2.getD 0 0 := by
  unfold gr4jLogged Spec.inTransit
  rw [sum_drop_one, sum_drop_one]; ring

/-- Witness of the finding: X4 = 0.5, an inflow of 10 mm: everything leaves the hydrographs at once, yet the
log shows 10 mm more than is held. -/
example : let s := (gr4jFinalize ⟨0, 100, [1], [1]⟩ ⟨0, [0], [0]⟩ 10).1
    gr4jLogged s = Spec.inTransit s.r s.st1 s.st2 + 10 := by
  intro s
  rw [c28_logged_counts_delivered]
  have h1 : s.st1 = [9] := by simp [s, gr4jFinalize, advance]; try norm_num
  have h2 : s.st2 = [1] := by simp [s, gr4jFinalize, advance]
  rw [h1, h2]; simp only [List.getD_cons_zero]; ring

/-! ## C29: GR6J -/

/-- The store function of Michel et al. (2003), of which the code is a three-piece evaluation. -/
noncomputable def Spec.softplus (R X6 : ℝ) : ℝ := X6 * Real.log (1 + Real.exp (R / X6))

/-- **C29 (outflow bounds).** For every level and coefficient the outflow is non-negative and at least the
level, so the store ends at or below zero. -/
theorem c29_bounds (R X6 : ℝ) : 0 ≤ expOutflow R X6 ∧ R - expOutflow R X6 ≤ 0 := by
  unfold expOutflow
  split
  · exact ⟨le_max_left _ _, by linarith [le_max_right 0 R]⟩
  · rename_i hX
    have hX := not_le.1 hX
    dsimp only
    set ar := max (-33) (min 33 (R / X6)) with har
    have hexp := Real.exp_pos ar
    split
    · rename_i h7
      have : 0 < R / X6 := by
        by_contra hc
        have : min 33 (R / X6) ≤ 0 := (min_le_right _ _).trans (not_lt.1 hc)
        have : ar ≤ 0 := max_le (by norm_num) this
        linarith
      have hR : 0 < R := by
        have := mul_pos this hX
        rwa [div_mul_cancel₀ _ hX.ne'] at this
      have : 0 < X6 / Real.exp ar := div_pos hX hexp
      constructor <;> linarith
    · split
      · rename_i h7
        have : R / X6 < 0 := by
          by_contra hc
          have h0 : (0 : ℝ) ≤ min 33 (R / X6) := le_min (by norm_num) (not_lt.1 hc)
          have : 0 ≤ ar := h0.trans (le_max_right _ _)
          linarith
        have hR : R < 0 := by
          have := mul_neg_of_neg_of_pos this hX
          rwa [div_mul_cancel₀ _ hX.ne'] at this
        have : 0 < X6 * Real.exp ar := mul_pos hX hexp
        constructor <;> linarith
      · rename_i h1 h2
        have har' : ar = R / X6 := by
          rw [har]
          have h1 := not_lt.1 h1; have h2 := not_lt.1 h2
          rw [har] at h1 h2
          rcases le_total (R / X6) 33 with c | c
          · rw [min_eq_right c] at *
            rcases le_total (-33) (R / X6) with d | d
            · exact max_eq_right d
            · rw [max_eq_left d] at h2; norm_num at h2
          · rw [min_eq_left c] at h1; norm_num at h1
        have hlog : ar ≤ Real.log (Real.exp ar + 1) := by
          rw [Real.le_log_iff_exp_le (by positivity)]; linarith
        have hlog0 : 0 ≤ Real.log (Real.exp ar + 1) := Real.log_nonneg (by linarith)
        have : R = X6 * ar := by rw [har']; field_simp
        constructor
        · positivity
        · rw [this]; nlinarith

/-- **C29 (accounting and balance).** The exponential store keeps exactly what it is not releasing, the
discharge sent to the outlet is the sum of the committed releases, and the total held changes by inflow plus
exchange minus discharge. -/
theorem c29_balance (p : GR6JPar) (s : GR6JSt) (PR : ℝ) (hX : 0 < p.X3) (h1 : s.st1.length = p.ord1.length)
    (h2 : s.st2.length = p.ord2.length) (o1 : p.ord1.sum = 1) (o2 : p.ord2.sum = 1) :
    let s' := (gr6jFinalize p s PR).1
    let qr := (gr6jFinalize p s PR).2.1
    let qe := (gr6jFinalize p s PR).2.2.1
    let qd := (gr6jFinalize p s PR).2.2.2
    let F := gr6jExchange p s.r
    let u1 := s.st1.getD 1 0 + p.ord1.getD 0 0 * (9 / 10 * PR)
    let u2 := s.st2.getD 1 0 + p.ord2.getD 0 0 * (1 / 10 * PR)
    s'.rexp = s.rexp + 4 / 10 * u1 + F - qe ∧ qe = expOutflow (s.rexp + 4 / 10 * u1 + F) p.X6 ∧
    gr6jRate p s PR = qr + qe + qd ∧ 0 ≤ qr ∧ 0 ≤ qe ∧ 0 ≤ qd ∧ 0 ≤ s'.r ∧ s'.r ≤ p.X3 ∧
    Spec.inTransit s'.r s'.st1 s'.st2 + s'.rexp =
      Spec.inTransit s.r s.st1 s.st2 + s.rexp + PR
        + (max (-(s.r + 6 / 10 * u1)) F + F + max (-u2) F) - (qr + qe + qd) := by
  intro s' qr qe qd F u1 u2
  have g1 := advance_getD p.ord1 s.st1 (9 / 10 * PR) h1 0
  have g2 := advance_getD p.ord2 s.st2 (1 / 10 * PR) h2 0
  simp only [zero_add] at g1 g2
  have e1 : (advance p.ord1 s.st1 (9 / 10 * PR)).getD 0 0 = u1 := g1
  have e2 : (advance p.ord2 s.st2 (1 / 10 * PR)).getD 0 0 = u2 := g2
  have a1 := advance_sum p.ord1 s.st1 (9 / 10 * PR) h1
  have a2 := advance_sum p.ord2 s.st2 (1 / 10 * PR) h2
  have hb := routingRelease_bounds hX (le_max_left 0 (s.r + 6 / 10 * u1 + F))
  have hqe := (c29_bounds (s.rexp + 4 / 10 * u1 + F) p.X6).1
  have hqd : 0 ≤ max 0 (u2 + F) := le_max_left _ _
  have eqr : qr = routingRelease p.X3 (max 0 (s.r + 6 / 10 * u1 + F)) := by simp only [qr, gr6jFinalize, e1]; rfl
  have eqe : qe = expOutflow (s.rexp + 4 / 10 * u1 + F) p.X6 := by simp only [qe, gr6jFinalize, e1]; rfl
  have eqd : qd = max 0 (u2 + F) := by simp only [qd, gr6jFinalize, e2]; rfl
  have er : s'.r = max 0 (s.r + 6 / 10 * u1 + F) - qr := by rw [eqr]; simp only [s', gr6jFinalize, e1]; rfl
  have ere : s'.rexp = s.rexp + 4 / 10 * u1 + F - qe := by rw [eqe]; simp only [s', gr6jFinalize, e1]; rfl
  refine ⟨ere, eqe, ?_, eqr ▸ hb.1, eqe ▸ hqe, eqd ▸ hqd, ?_, ?_, ?_⟩
  · unfold gr6jRate
    simp only [predict_eq _ _ _ h1, predict_eq _ _ _ h2, e1, e2]
    rw [eqr, eqe, eqd]
    exact max_eq_right (by have := hb.1; positivity)
  · rw [er, eqr]; exact hb.2.1
  · rw [er, eqr]; exact hb.2.2
  · have m1 : max 0 (s.r + 6 / 10 * u1 + F) = s.r + 6 / 10 * u1 + max (-(s.r + 6 / 10 * u1)) F := by
      rw [← max_add_add_left]; congr 1; ring
    have m2 : max 0 (u2 + F) = u2 + max (-u2) F := by
      rw [← max_add_add_left]; congr 1; ring
    have s1 : (s'.st1.drop 1).sum = (s.st1.drop 1).sum + 9 / 10 * PR - u1 := by
      rw [sum_drop_one]; show (advance _ _ _).sum - (advance _ _ _).getD 0 0 = _; rw [a1, e1, o1]; ring
    have s2 : (s'.st2.drop 1).sum = (s.st2.drop 1).sum + 1 / 10 * PR - u2 := by
      rw [sum_drop_one]; show (advance _ _ _).sum - (advance _ _ _).getD 0 0 = _; rw [a2, e2, o2]; ring
    unfold Spec.inTransit
    rw [er, ere, s1, s2, m1, eqd, m2]; ring

theorem log_one_add_bounds {y : ℝ} (hy : 0 ≤ y) : y - y ^ 2 ≤ Real.log (1 + y) ∧ Real.log (1 + y) ≤ y := by
  constructor
  · have h := Real.one_sub_inv_le_log_of_pos (by linarith : 0 < 1 + y)
    have : y - y ^ 2 ≤ 1 - (1 + y)⁻¹ := by
      have h1 : 0 < 1 + y := by linarith
      rw [show (1 : ℝ) - (1 + y)⁻¹ = y / (1 + y) by field_simp; ring, le_div_iff₀ h1]
      nlinarith [pow_nonneg hy 3]
    linarith
  · have := Real.log_le_sub_one_of_pos (by linarith : 0 < 1 + y); linarith

theorem exp_neg7 : Real.exp (-7) ≤ 1 / 1000 := by
  have h : (2.7 : ℝ) ≤ Real.exp 1 := by have := Real.exp_one_gt_d9; linarith
  have : (2.7 : ℝ) ^ 7 ≤ Real.exp 7 := by
    calc (2.7 : ℝ) ^ 7 ≤ Real.exp 1 ^ 7 := by gcongr
      _ = Real.exp 7 := by rw [← Real.exp_nat_mul]; norm_num
  rw [Real.exp_neg]
  rw [inv_eq_one_div]
  apply one_div_le_one_div_of_le (by norm_num)
  have : (1000 : ℝ) ≤ 2.7 ^ 7 := by norm_num
  linarith

/-- **C29 (accuracy).** For every level, the three-piece evaluation differs from the exact store function by
at most `X6 · 10⁻⁶`. -/
theorem c29_accuracy (R X6 : ℝ) (hX : 0 < X6) : |expOutflow R X6 - Spec.softplus R X6| ≤ X6 * (1 / 1000000) := by
  unfold expOutflow Spec.softplus
  rw [if_neg (not_le.2 hX)]
  dsimp only
  set a := R / X6 with ha
  have hR : R = X6 * a := by rw [ha]; field_simp
  have e7 := exp_neg7
  -- a clamped exponential stays within 1e-6 of the logarithm
  have key : ∀ b c : ℝ, b ≤ -7 → c = max (-33) b → |Real.exp c - Real.log (1 + Real.exp b)| ≤ 1 / 1000000 := by
    intro b c hb hc
    have hbc : b ≤ c := hc ▸ le_max_right _ _
    have hc7 : c ≤ -7 := hc ▸ max_le (by norm_num) hb
    have p1 := Real.exp_pos b
    have hm : Real.exp b ≤ Real.exp c := Real.exp_le_exp.2 hbc
    have hc' : Real.exp c ≤ 1 / 1000 := (Real.exp_le_exp.2 hc7).trans e7
    have hl := log_one_add_bounds p1.le
    rw [abs_le]
    constructor
    · linarith
    · rcases le_total (-33) b with h | h
      · have : c = b := hc.trans (max_eq_right h)
        subst this
        nlinarith
      · have h33 : c = -33 := hc.trans (max_eq_left h)
        have hl0 : 0 ≤ Real.log (1 + Real.exp b) := Real.log_nonneg (by linarith)
        have h28 : Real.exp c ≤ (1 / 1000) ^ 4 := by
          rw [h33]
          calc Real.exp (-33) ≤ Real.exp (-28) := Real.exp_le_exp.2 (by norm_num)
            _ = Real.exp (-7) ^ 4 := by rw [← Real.exp_nat_mul]; norm_num
            _ ≤ _ := by gcongr
        norm_num at h28 ⊢
        linarith
  have lift : ∀ x y : ℝ, |x - y| ≤ 1 / 1000000 → |X6 * x - X6 * y| ≤ X6 * (1 / 1000000) := by
    intro x y h
    rw [← mul_sub, abs_mul, abs_of_pos hX]
    exact mul_le_mul_of_nonneg_left h hX.le
  by_cases c1 : max (-33) (min 33 a) > 7
  · rw [if_pos c1]
    have ha7 : 7 < a := by
      by_contra hc
      have : max (-33) (min 33 a) ≤ 7 := max_le (by norm_num) ((min_le_right _ _).trans (not_lt.1 hc))
      linarith
    have hmx : max (-33) (min 33 a) = min 33 a := max_eq_right (le_min (by norm_num) (by linarith))
    rw [hmx]
    have hlog : Real.log (1 + Real.exp a) = a + Real.log (1 + Real.exp (-a)) := by
      have : 1 + Real.exp a = Real.exp a * (1 + Real.exp (-a)) := by
        rw [mul_add, ← Real.exp_add]; simp; ring
      rw [this, Real.log_mul (Real.exp_pos _).ne' (by positivity), Real.log_exp]
    rw [hlog]
    have hk := key (-a) (-(min 33 a)) (by linarith) (by
      rw [← max_neg_neg])
    have := lift _ _ hk
    have e : R + X6 / Real.exp (min 33 a) - X6 * (a + Real.log (1 + Real.exp (-a)))
        = X6 * Real.exp (-(min 33 a)) - X6 * Real.log (1 + Real.exp (-a)) := by
      rw [hR, Real.exp_neg (min 33 a), div_eq_mul_inv]; ring
    rw [e]; exact this
  · rw [if_neg c1]
    by_cases c2 : max (-33) (min 33 a) < -7
    · rw [if_pos c2]
      have ha7 : a < -7 := by
        by_contra hc
        have : (-7 : ℝ) ≤ max (-33) (min 33 a) := (le_min (by norm_num) (not_lt.1 hc)).trans (le_max_right _ _)
        linarith
      have : min 33 a = a := min_eq_right (by linarith)
      rw [this]
      exact lift _ _ (key a _ ha7.le rfl)
    · rw [if_neg c2]
      have h1 := not_lt.1 c1; have h2 := not_lt.1 c2
      have har : max (-33) (min 33 a) = a := by
        rcases le_total a 33 with c | c
        · rw [min_eq_right c] at *
          rcases le_total (-33) a with d | d
          · exact max_eq_right d
          · rw [max_eq_left d] at h2; norm_num at h2
        · rw [min_eq_left c] at h1; norm_num at h1
      rw [har, add_comm (Real.exp a) 1, sub_self, abs_zero]
      positivity

/-- **C29, negative result.** The outflow is not continuous across the regimes (the two outer pieces drop the
second-order term of the logarithm): at the level `-7·X6` it jumps. -/
theorem c29_not_continuous : ¬ Continuous (fun R : ℝ => expOutflow R 1) := by
  intro hc
  have h1 : Filter.Tendsto (fun R : ℝ => expOutflow R 1) (nhdsWithin (-7) (Set.Iio (-7))) (nhds (expOutflow (-7) 1)) :=
    (hc.tendsto (-7)).mono_left nhdsWithin_le_nhds
  have h2 : Filter.Tendsto (fun R : ℝ => Real.exp R) (nhdsWithin (-7) (Set.Iio (-7))) (nhds (Real.exp (-7))) :=
    (Real.continuous_exp.tendsto (-7)).mono_left nhdsWithin_le_nhds
  have h3 : (fun R : ℝ => expOutflow R 1) =ᶠ[nhdsWithin (-7) (Set.Iio (-7))] fun R => Real.exp R := by
    have : Set.Ioo (-33 : ℝ) (-7) ∈ nhdsWithin (-7 : ℝ) (Set.Iio (-7)) := Ioo_mem_nhdsLT (by norm_num)
    filter_upwards [this] with R hR
    have e1 : min 33 R = R := min_eq_right (by linarith [hR.2])
    have e2 : max (-33) R = R := max_eq_right hR.1.le
    have e3 : ¬ R > 7 := by linarith [hR.2]
    simp [expOutflow, e1, e2, e3, hR.2, not_le.2 (one_pos (α := ℝ))]
  have h4 := tendsto_nhds_unique (h1.congr' h3) h2
  have e5 : expOutflow (-7) 1 = Real.log (Real.exp (-7) + 1) := by
    have : max (-33 : ℝ) (min 33 (-7 / 1)) = -7 := by norm_num
    unfold expOutflow
    rw [if_neg (by norm_num)]
    dsimp only
    rw [this, if_neg (by norm_num), if_neg (by norm_num), one_mul]
  rw [e5] at h4
  have hp := Real.exp_pos (-7)
  have := Real.log_lt_sub_one_of_pos (by linarith : 0 < Real.exp (-7) + 1) (by linarith)
  linarith

/-- Consequence: more water in the store can release less. -/
theorem c29_not_monotone : ∃ R R' : ℝ, R < R' ∧ expOutflow R' 1 < expOutflow R 1 := by
  by_contra hcon
  push Not at hcon
  have hp := Real.exp_pos (-7)
  have hlt := Real.log_lt_sub_one_of_pos (by linarith : 0 < Real.exp (-7) + 1) (by linarith)
  have e5 : expOutflow (-7) 1 = Real.log (Real.exp (-7) + 1) := by
    have : max (-33 : ℝ) (min 33 (-7 / 1)) = -7 := by norm_num
    unfold expOutflow
    rw [if_neg (by norm_num)]
    dsimp only
    rw [this, if_neg (by norm_num), if_neg (by norm_num), one_mul]
  -- pick R < -7 with exp R above log (1 + exp (-7))
  have hlog : 0 < Real.log (Real.exp (-7) + 1) := Real.log_pos (by linarith)
  set L := Real.log (Real.exp (-7) + 1) with hL
  have hlL : Real.log L < -7 := by
    rw [Real.log_lt_iff_lt_exp hlog]; linarith
  set R := (max (Real.log L) (-33) + -7) / 2 with hR
  have hm : max (Real.log L) (-33) < -7 := max_lt hlL (by norm_num)
  have r1 : R < -7 := by rw [hR]; linarith
  have r2 : max (Real.log L) (-33) < R := by rw [hR]; linarith
  have r3 : -33 < R := (le_max_right _ _).trans_lt r2
  have r4 : Real.log L < R := (le_max_left _ _).trans_lt r2
  have eR : expOutflow R 1 = Real.exp R := by
    have e1 : min 33 R = R := min_eq_right (by linarith)
    have e2 : max (-33) R = R := max_eq_right r3.le
    have e3 : ¬ R > 7 := by linarith
    simp [expOutflow, e1, e2, e3, r1, not_le.2 (one_pos (α := ℝ))]
  have h := hcon R (-7) r1
  rw [eR, e5] at h
  have : L < Real.exp R := by rwa [← Real.log_lt_iff_lt_exp hlog]
  linarith

/-- **Finding.** In GR6J the exchange is not put in the container (contrast with GR4J): after a step the
container and the routing stores differ by exactly the exchange. -/
theorem c29_container_drift (p : GR6JPar) (s : GR6JSt) (PR content : ℝ) (hX : 0 < p.X3)
    (h1 : s.st1.length = p.ord1.length) (h2 : s.st2.length = p.ord2.length) (o1 : p.ord1.sum = 1)
    (o2 : p.ord2.sum = 1) (hmirror : content = Spec.inTransit s.r s.st1 s.st2 + s.rexp) :
    let s' := (gr6jFinalize p s PR).1
    let F := gr6jExchange p s.r
    let u1 := s.st1.getD 1 0 + p.ord1.getD 0 0 * (9 / 10 * PR)
    let u2 := s.st2.getD 1 0 + p.ord2.getD 0 0 * (1 / 10 * PR)
    (content + PR - gr6jRate p s PR) - (Spec.inTransit s'.r s'.st1 s'.st2 + s'.rexp)
      = -(max (-(s.r + 6 / 10 * u1)) F + F + max (-u2) F) := by
  intro s' F u1 u2
  have h := c29_balance p s PR hX h1 h2 o1 o2
  simp only at h
  obtain ⟨-, -, hq, -, -, -, -, -, hb⟩ := h
  rw [hmirror, hq]
  show _ = -(max (-(s.r + 6 / 10 * u1)) F + F + max (-u2) F)
  simp only [s']
  rw [hb]; simp only [u1, u2, F]; ring

/-- Witness for the hypotheses: X2 = 1, X5 = −1/2, an empty routing: the exchange is 1/2 per branch. -/
example : gr6jExchange ⟨1, 100, -1 / 2, 5, uh1 2, uh2 2⟩ 0 = 1 / 2 := by
  unfold gr6jExchange; norm_num

/-! ## C30: HBV routing -/

theorem hbvFinalize_length (ord : List ℝ) (s : HBVSt) (c d : ℝ) (h : s.sched.length = ord.length) (hn : 0 < ord.length) :
    (hbvFinalize ord s c d).sched.length = ord.length := by
  simp [hbvFinalize, h]; omega

theorem hbvFinalize_getD (ord : List ℝ) (s : HBVSt) (c d : ℝ) (h : s.sched.length = ord.length) (hn : 0 < ord.length)
    (i : ℕ) :
    (hbvFinalize ord s c d).sched.getD i 0 =
      s.sched.getD (i + 1) 0 + ord.getD (i + 1) 0 * (c - s.prev + d) +
      (if i = 0 then s.sched.getD 0 0 + ord.getD 0 0 * (c - s.prev + d) - d else 0) := by
  have base : ∀ i : ℕ, (List.zipWith (fun a w => a + w * (c - s.prev + d)) (s.sched.drop 1) (ord.drop 1) ++ [0]).getD i 0
      = s.sched.getD (i + 1) 0 + ord.getD (i + 1) 0 * (c - s.prev + d) := by
    intro i
    by_cases hi : i + 1 < ord.length
    · rw [List.getD_eq_getElem _ _ (by simp; omega), List.getD_eq_getElem s.sched _ (by omega),
        List.getD_eq_getElem ord _ hi, List.getElem_append_left (by simp; omega)]
      simp [Nat.add_comm]
    · rw [List.getD_eq_default s.sched _ (by omega), List.getD_eq_default ord _ (by omega)]
      by_cases h2 : i + 1 = ord.length
      · rw [List.getD_eq_getElem _ _ (by simp; omega), List.getElem_append_right (by simp; omega)]
        simp
      · rw [List.getD_eq_default _ _ (by simp; omega)]; simp
  simp only [hbvFinalize]
  by_cases h0 : i = 0
  · subst h0
    rw [List.getD_eq_getElem _ _ (by simp)]
    simp only [List.getElem_set_self, base, if_true]
  · rw [if_neg h0, add_zero, ← base i, List.getD_eq_getElem?_getD,
      List.getElem?_set_ne (by omega), List.getD_eq_getElem?_getD]

/-- **C30 (conservation, one step).** Whatever was delivered, after the step the schedule again sums to the
content of the container: no water is lost from the schedule and none is stranded outside it. -/
theorem c30_conservation (ord : List ℝ) (s : HBVSt) (content delivered : ℝ) (h : s.sched.length = ord.length)
    (hn : 0 < ord.length) (ho : ord.sum = 1) (hs : s.sched.sum = s.prev) :
    hbvLogged (hbvFinalize ord s content delivered) = content ∧
    (hbvFinalize ord s content delivered).prev = content := by
  refine ⟨?_, rfl⟩
  unfold hbvLogged
  rw [getD_sum, hbvFinalize_length _ _ _ _ h hn]
  simp only [hbvFinalize_getD ord s content delivered h hn]
  rw [Finset.sum_add_distrib, Finset.sum_add_distrib, ← Finset.sum_mul, Finset.sum_ite_eq' (range ord.length) 0]
  rw [if_pos (Finset.mem_range.2 hn)]
  have shift : ∀ l : List ℝ, l.length = ord.length → ∑ i ∈ range ord.length, l.getD (i + 1) 0 = l.sum - l.getD 0 0 := by
    intro l hl
    have h1 := Finset.sum_range_succ' (fun i => l.getD i 0) ord.length
    have h2 := Finset.sum_range_succ (fun i => l.getD i 0) ord.length
    rw [List.getD_eq_default l _ (by omega)] at h2
    rw [getD_sum l, hl]
    linarith
  rw [shift _ h, shift ord rfl, ho, hs]
  ring

/-- A run: inflows `ins`, amounts actually delivered `del` (any), the container integrating both. -/
def hbvRun (ord : List ℝ) (ins del : ℕ → ℝ) : ℕ → HBVSt
  | 0 => ⟨List.replicate ord.length 0, 0⟩
  | t + 1 => hbvFinalize ord (hbvRun ord ins del t) ((hbvRun ord ins del t).prev + ins t - del t) (del t)

theorem hbvRun_len (ord : List ℝ) (hn : 0 < ord.length) (ins del : ℕ → ℝ) (t : ℕ) :
    (hbvRun ord ins del t).sched.length = ord.length := by
  induction t with
  | zero => simp [hbvRun]
  | succ t ih => exact hbvFinalize_length _ _ _ _ ih hn

/-- **C30 (whole run, any deliveries).** After any number of steps with any inflows and any deliveries, the
schedule sums to inflows minus deliveries; future slots hold the ordinates' share of past inflows, and the
slot due now holds its share plus exactly the backlog (what should have been delivered and was not). -/
theorem c30_run (ord : List ℝ) (hn : 0 < ord.length) (ho : ord.sum = 1) (ins del : ℕ → ℝ) (t : ℕ) :
    hbvLogged (hbvRun ord ins del t) = ∑ u ∈ range t, ins u - ∑ u ∈ range t, del u ∧
    ∀ i, (hbvRun ord ins del t).sched.getD i 0 = (buffer ord ins t).getD (i + 1) 0 +
      (if i = 0 then ∑ u ∈ range t, uhOut ord ins u - ∑ u ∈ range t, del u else 0) := by
  have hprev : ∀ t, (hbvRun ord ins del t).prev = ∑ u ∈ range t, ins u - ∑ u ∈ range t, del u := by
    intro t
    induction t with
    | zero => simp [hbvRun]
    | succ t ih =>
      rw [Finset.sum_range_succ, Finset.sum_range_succ]
      show (hbvRun ord ins del t).prev + ins t - del t = _
      rw [ih]; ring
  have hsum : ∀ t, (hbvRun ord ins del t).sched.sum = (hbvRun ord ins del t).prev := by
    intro t
    induction t with
    | zero => simp [hbvRun]
    | succ t ih => exact (c30_conservation ord _ _ _ (hbvRun_len ord hn ins del t) hn ho ih).1
  refine ⟨(hsum t).trans (hprev t), ?_⟩
  induction t with
  | zero =>
    intro i
    simp only [hbvRun, buffer, Finset.sum_range_zero, sub_self, ite_self, add_zero,
      List.getD_eq_getElem?_getD, List.getElem?_replicate]
    split <;> split <;> rfl
  | succ t ih =>
    intro i
    have hl := hbvRun_len ord hn ins del t
    show (hbvFinalize ord _ _ _).sched.getD i 0 = _
    rw [hbvFinalize_getD ord _ _ _ hl hn]
    have hin : (hbvRun ord ins del t).prev + ins t - del t - (hbvRun ord ins del t).prev + del t = ins t := by ring
    rw [hin, ih (i + 1), ih 0]
    have hb : ∀ j, (buffer ord ins (t + 1)).getD j 0 = (buffer ord ins t).getD (j + 1) 0 + ord.getD j 0 * ins t :=
      fun j => advance_getD _ _ _ (buffer_length _ _ _) j
    rw [hb (i + 1), Finset.sum_range_succ, Finset.sum_range_succ]
    by_cases h0 : i = 0
    · subst h0
      have : uhOut ord ins t = (buffer ord ins t).getD (0 + 1) 0 + ord.getD 0 0 * ins t := hb 0
      simp only [this, if_true, Nat.add_eq_zero_iff, one_ne_zero, and_false, if_false]; ring
    · simp [h0]

/-- **C30 (delivery on schedule).** If each step delivers the rate the process asks for (daily step, no
limitation) and the inflows are non-negative, the deliveries are the inflows convolved with the triangular
weights: every inflow leaves completely within `⌈MAXBAS⌉` steps, and the schedule ends empty. -/
theorem c30_on_schedule (m : ℝ) (ins del : ℕ → ℝ) (hi : ∀ t, 0 ≤ ins t)
    (hdel : ∀ t, del t = hbvRate (hbvWeights m) (hbvRun (hbvWeights m) ins del t) (ins t)) :
    (∀ t, del t = ∑ k ∈ range (t + 1), (hbvWeights m).getD k 0 * ins (t - k)) ∧
    (∀ T t, (∀ s, T ≤ s → ins s = 0) → T + (hbvWeights m).length ≤ t →
      del t = 0 ∧ ∑ u ∈ range t, del u = ∑ u ∈ range T, ins u ∧ hbvLogged (hbvRun (hbvWeights m) ins del t) = 0) := by
  have P := (c26_partition 1 m).2.2.1
  set ord := hbvWeights m with hord
  have hn : 0 < ord.length := by
    rcases Nat.eq_zero_or_pos ord.length with h | h
    · have := P.2; rw [List.length_eq_zero_iff.1 h] at this; simp at this
    · exact h
  have hall : ∀ t, ∀ u < t, del u = uhOut ord ins u := by
    intro t
    induction t with
    | zero => intro u hu; omega
    | succ t ih =>
      intro u hu
      rcases Nat.lt_succ_iff_lt_or_eq.1 hu with h | rfl
      · exact ih u h
      · have hr := (c30_run ord hn P.2 ins del u).2 0
        have hs : ∑ v ∈ range u, uhOut ord ins v = ∑ v ∈ range u, del v :=
          Finset.sum_congr rfl fun v hv => (ih v (Finset.mem_range.1 hv)).symm
        rw [hs, sub_self] at hr
        simp only [if_true, add_zero] at hr
        rw [hdel u, hbvRate, hr, max_eq_right (buffer_nonneg ord ins P.1 hi _ _)]
        exact (advance_getD _ _ _ (buffer_length _ _ _) 0).symm
  have heq : ∀ u, del u = uhOut ord ins u := fun u => hall (u + 1) u (by omega)
  refine ⟨fun t => by rw [heq, c27_convolution], ?_⟩
  intro T t hstop ht
  have hc := c27_complete ord ins P.2 T hstop t ht
  have hsum : ∑ u ∈ range t, del u = ∑ u ∈ range T, ins u := by
    rw [← hc.2.2]; exact Finset.sum_congr rfl fun u _ => heq u
  refine ⟨by rw [heq]; exact hc.1, hsum, ?_⟩
  rw [(c30_run ord hn P.2 ins del t).1, hsum]
  have : ∑ s ∈ range t, ins s = ∑ s ∈ range T, ins s := by
    have : range T ⊆ range t := Finset.range_subset_range.2 (by omega)
    rw [← Finset.sum_subset this]
    intro s _ hs
    exact hstop s (by simpa using hs)
  rw [this, sub_self]

/-- The hypothesis of `c30_on_schedule` can be met for every inflow series: the delivered series defined by the
convolution satisfies it. -/
theorem c30_on_schedule_exists (m : ℝ) (ins : ℕ → ℝ) (hi : ∀ t, 0 ≤ ins t) :
    ∃ del : ℕ → ℝ, ∀ t, del t = hbvRate (hbvWeights m) (hbvRun (hbvWeights m) ins del t) (ins t) := by
  have P := (c26_partition 1 m).2.2.1
  have hn : 0 < (hbvWeights m).length := by
    rcases Nat.eq_zero_or_pos (hbvWeights m).length with h | h
    · have := P.2; rw [List.length_eq_zero_iff.1 h] at this; simp at this
    · exact h
  refine ⟨uhOut (hbvWeights m) ins, fun t => ?_⟩
  have hr := (c30_run (hbvWeights m) hn P.2 ins (uhOut (hbvWeights m) ins) t).2 0
  rw [sub_self] at hr
  simp only [if_true, add_zero] at hr
  rw [hbvRate, hr, max_eq_right (buffer_nonneg _ ins P.1 hi _ _)]
  exact advance_getD _ _ _ (buffer_length _ _ _) 0

/-- **C28 (exchange).**  The groundwater exchange is X2 times the power 7/2 of the relative filling of the routing store: it
has the sign of X2, vanishes with the store and is X2 at capacity. -/
theorem c28_exchange (p : GR4JPar) (r : ℝ) (hX : 0 < p.X3) (hr : 0 ≤ r) :
    gr4jExchange p r = p.X2 * (r / p.X3) ^ (7 / 2 : ℝ) := by
  have hq : 0 ≤ r / p.X3 := div_nonneg hr hX.le
  have h : (r / p.X3) ^ (7 / 2 : ℝ) = (r / p.X3) ^ (3 : ℕ) * Real.sqrt (r / p.X3) := by
    rw [Real.sqrt_eq_rpow, ← Real.rpow_natCast, ← Real.rpow_add_of_nonneg hq (by norm_num) (by norm_num)]
    norm_num
  unfold gr4jExchange
  rw [if_pos hX]
  dsimp only
  rw [h]
  ring

end HB
