import Verif.Props.Routing2
import Verif.Spec.Equations

/-!
# C66 (continued): the routing processes compute the documented convolutions and store recursions

The specification is `Spec/Equations.lean`: S-curves, convolution of the whole input series with their differences (no buffer, no
length), power-law release, exchange, and the recursion of the stores.
-/

namespace HB

open Finset (range)

/-! ## Curves -/

theorem sh1_doc {X4 : ℝ} (hX : 0 < X4) (t : ℝ) : sh1 t X4 = Doc.sCurve1 X4 t := by
  unfold sh1 Doc.sCurve1
  split
  · rename_i h
    rw [max_eq_left h, zero_div, min_eq_right zero_le_one, Real.zero_rpow (by norm_num)]
  · rename_i h
    have h := not_le.1 h
    rw [max_eq_right h.le]
    split
    · rename_i h'
      rw [min_eq_left ((one_le_div hX).2 h'), Real.one_rpow]
    · rename_i h'
      rw [min_eq_right ((div_le_one hX).2 (not_le.1 h').le)]

theorem sh2_doc {X4 : ℝ} (hX : 0 < X4) (t : ℝ) : sh2 t X4 = Doc.sCurve2 X4 t := by
  have z : (0 : ℝ) ^ (5 / 2 : ℝ) = 0 := Real.zero_rpow (by norm_num)
  unfold sh2 Doc.sCurve2
  split
  · rename_i h
    rw [if_pos (h.trans hX.le), max_eq_left h, zero_div, z, mul_zero]
  · rename_i h
    have h := not_le.1 h
    split
    · rename_i h'
      have h2 : 2 ≤ t / X4 := (le_div_iff₀ hX).2 h'
      rw [if_neg (by linarith), max_eq_left (by linarith), z, mul_zero, sub_zero]
    · rename_i h'
      have h' := not_le.1 h'
      have h2 : t / X4 < 2 := (div_lt_iff₀ hX).2 h'
      rw [max_eq_right h.le, max_eq_right (by linarith)]
      split
      · rename_i h3
        rw [if_pos h3.le]
      · rename_i h3
        by_cases h4 : t ≤ X4
        · have e : t = X4 := le_antisymm h4 (not_lt.1 h3)
          rw [if_pos h4, e, div_self hX.ne']
          norm_num
        · rw [if_neg h4]

theorem hbvCum_doc {m : ℝ} (hm : 0 < m) (t : ℝ) : hbvCum t m = Doc.triangle m t := by
  unfold hbvCum Doc.triangle
  split
  · rename_i h
    rw [if_pos (by linarith), max_eq_left h]; simp
  · rename_i h
    have h := not_le.1 h
    rw [max_eq_right h.le]
    split
    · rename_i h'
      have h2 : 1 ≤ t / m := (one_le_div hm).2 h'
      rw [if_neg (by linarith), max_eq_left (by linarith)]; simp
    · rename_i h'
      have h2 : t / m < 1 := (div_lt_one hm).2 (not_le.1 h')
      rw [max_eq_right (by linarith)]
      have e : t / m ≤ 1 / 2 ↔ t ≤ m / 2 := by
        rw [div_le_iff₀ hm]; constructor <;> intro h <;> linarith
      dsimp only
      by_cases h3 : t ≤ m / 2
      · rw [if_pos (e.2 h3), if_pos h3]; ring
      · rw [if_neg (fun h => h3 (e.1 h)), if_neg h3]; ring

/-- A unit hydrograph cut where its curve has reached one releases the documented convolution. -/
theorem uhOut_doc (S S' : ℝ → ℝ) (n : ℕ) (h : ∀ t, S t = S' t) (h1 : ∀ t : ℝ, (n : ℝ) ≤ t → S t = 1) (ins : ℕ → ℝ) (t : ℕ) :
    uhOut (ordinates S n) ins t = Doc.routed S' ins t := by
  rw [c27_convolution]
  refine Finset.sum_congr rfl fun k _ => ?_
  congr 1
  unfold Doc.ordinate
  rw [← h, ← h]
  by_cases hk : k < n
  · rw [List.getD_eq_getElem _ _ (by simpa [ordinates] using hk)]; simp [ordinates]
  · rw [List.getD_eq_default _ _ (by simpa [ordinates] using hk), h1 k (by exact_mod_cast not_lt.1 hk),
      h1 (k + 1) (by have : n ≤ k + 1 := by omega
                     exact_mod_cast this), sub_self]

theorem uh1_doc {X4 : ℝ} (hX : 0 < X4) (ins : ℕ → ℝ) (t : ℕ) : uhOut (uh1 X4) ins t = Doc.routed (Doc.sCurve1 X4) ins t := by
  have b : baseTime X4 = X4 := if_neg (not_le.2 hX)
  unfold uh1
  rw [b]
  refine uhOut_doc _ _ _ (sh1_doc hX) (fun s hs => ?_) ins t
  have := (Nat.le_ceil X4).trans hs
  simp only [sh1]
  rw [if_neg (by linarith), if_pos this]

theorem uh2_doc {X4 : ℝ} (hX : 0 < X4) (ins : ℕ → ℝ) (t : ℕ) : uhOut (uh2 X4) ins t = Doc.routed (Doc.sCurve2 X4) ins t := by
  have b : baseTime X4 = X4 := if_neg (not_le.2 hX)
  unfold uh2
  rw [b]
  refine uhOut_doc _ _ _ (sh2_doc hX) (fun s hs => ?_) ins t
  have := (Nat.le_ceil (2 * X4)).trans hs
  simp only [sh2]
  rw [if_neg (by linarith), if_pos this]

theorem release_doc {X3 : ℝ} (hX : 0 < X3) (r : ℝ) : routingRelease X3 r = Doc.release r X3 := by
  unfold Doc.release
  have := routingRelease_eq (r := r) hX
  linarith

/-! ## GR4J -/

/-- **C66 (GR4J routing).**  For every X2, every X3 > 0, X4 > 0, every input series and every step, the routing store and the
discharge are those of the documented equations. -/
theorem c66_routing_gr4j (X2 X3 X4 : ℝ) (h3 : 0 < X3) (h4 : 0 < X4) (PR : ℕ → ℝ) (t : ℕ) :
    let p : GR4JPar := ⟨X2, X3, uh1 X4, uh2 X4⟩
    (gr4jRun p PR t).1.r = Doc.storeGR4J X2 X3 X4 PR t ∧
    (gr4jRates p (gr4jRun p PR t).1 (PR t)).1 + (gr4jRates p (gr4jRun p PR t).1 (PR t)).2.1 = Doc.dischargeGR4J X2 X3 X4 PR t := by
  intro p
  have hstep : ∀ t, (gr4jRun p PR t).1.r = Doc.storeGR4J X2 X3 X4 PR t →
      (gr4jFinalize p (gr4jRun p PR t).1 (PR t)).1.r = Doc.storeGR4J X2 X3 X4 PR (t + 1) ∧
      (gr4jFinalize p (gr4jRun p PR t).1 (PR t)).2.1 + (gr4jFinalize p (gr4jRun p PR t).1 (PR t)).2.2 =
        Doc.dischargeGR4J X2 X3 X4 PR t := by
    intro t ht
    have hr : 0 ≤ (gr4jRun p PR t).1.r := by
      have := c28_run p PR h3 (c26_partition X4 1).1 (c26_partition X4 1).2.1 t
      exact this.2.1
    have hx := c28_exchange p (gr4jRun p PR t).1.r h3 hr
    have hb := gr4jRun_buffer p PR t
    have e1 : (advance p.ord1 (gr4jRun p PR t).1.st1 (9 / 10 * PR t)).getD 0 0 =
        Doc.routed (Doc.sCurve1 X4) (fun s => 0.9 * PR s) t := by
      rw [hb.1, ← uh1_doc h4]
      show (buffer (uh1 X4) _ (t + 1)).getD 0 0 = (buffer (uh1 X4) _ (t + 1)).getD 0 0
      norm_num
    have e2 : (advance p.ord2 (gr4jRun p PR t).1.st2 (1 / 10 * PR t)).getD 0 0 =
        Doc.routed (Doc.sCurve2 X4) (fun s => 0.1 * PR s) t := by
      rw [hb.2, ← uh2_doc h4]
      show (buffer (uh2 X4) _ (t + 1)).getD 0 0 = (buffer (uh2 X4) _ (t + 1)).getD 0 0
      norm_num
    have ex : gr4jExchange p (gr4jRun p PR t).1.r = Doc.exchangeGR4J X2 (Doc.storeGR4J X2 X3 X4 PR t) X3 := by
      rw [hx, ht]; rfl
    simp only [gr4jFinalize, e1, e2, ex, Doc.storeGR4J, Doc.dischargeGR4J]
    rw [ht, show p.X3 = X3 from rfl, release_doc h3]
    exact ⟨rfl, rfl⟩
  have hstore : ∀ t, (gr4jRun p PR t).1.r = Doc.storeGR4J X2 X3 X4 PR t := by
    intro t
    induction t with
    | zero => rfl
    | succ t ih => exact (hstep t ih).1
  refine ⟨hstore t, ?_⟩
  have hl := gr4jRun_len p PR t
  have hp := c28_prediction p (gr4jRun p PR t).1 (PR t) hl.1 hl.2
  rw [hp.1, hp.2]
  exact (hstep t (hstore t)).2

/-! ## GR6J -/

/-- A whole run of the GR6J routing with daily steps from empty stores (ProcessRoutingGR6J.cpp:155-218). -/
noncomputable def gr6jRun (p : GR6JPar) (ins : ℕ → ℝ) : ℕ → GR6JSt
  | 0 => ⟨0, 0, List.replicate p.ord1.length 0, List.replicate p.ord2.length 0⟩
  | t + 1 => (gr6jFinalize p (gr6jRun p ins t) (ins t)).1

theorem gr6jRun_buffer (p : GR6JPar) (ins : ℕ → ℝ) (t : ℕ) :
    (gr6jRun p ins t).st1 = buffer p.ord1 (fun s => 9 / 10 * ins s) t ∧
    (gr6jRun p ins t).st2 = buffer p.ord2 (fun s => 1 / 10 * ins s) t := by
  induction t with
  | zero => exact ⟨rfl, rfl⟩
  | succ t ih =>
    refine ⟨?_, ?_⟩
    · show advance p.ord1 _ _ = advance p.ord1 _ _; rw [ih.1]
    · show advance p.ord2 _ _ = advance p.ord2 _ _; rw [ih.2]

/-- The GR6J routing with the code's three-piece outflow of the exponential store (GR6JFormulas.h:23-39). -/
theorem c66_routing_gr6j_at (X2 X3 X4 X5 X6 : ℝ) (h3 : 0 < X3) (h4 : 0 < X4) (PR : ℕ → ℝ) (t : ℕ) :
    let p : GR6JPar := ⟨X2, X3, X5, X6, uh1 X4, uh2 X4⟩
    (gr6jRun p PR t).r = Doc.storeGR6J X2 X3 X4 X5 PR t ∧
    (gr6jRun p PR t).rexp = Doc.expStoreGR6J (fun R => expOutflow R X6) X2 X3 X4 X5 PR t ∧
    gr6jRate p (gr6jRun p PR t) (PR t) = Doc.dischargeGR6J (fun R => expOutflow R X6) X2 X3 X4 X5 PR t := by
  intro p
  have e1 : ∀ t, (advance p.ord1 (gr6jRun p PR t).st1 (9 / 10 * PR t)).getD 0 0 =
      Doc.routed (Doc.sCurve1 X4) (fun s => 0.9 * PR s) t := by
    intro t
    rw [(gr6jRun_buffer p PR t).1, ← uh1_doc h4]
    show (buffer (uh1 X4) _ (t + 1)).getD 0 0 = (buffer (uh1 X4) _ (t + 1)).getD 0 0
    norm_num
  have e2 : ∀ t, (advance p.ord2 (gr6jRun p PR t).st2 (1 / 10 * PR t)).getD 0 0 =
      Doc.routed (Doc.sCurve2 X4) (fun s => 0.1 * PR s) t := by
    intro t
    rw [(gr6jRun_buffer p PR t).2, ← uh2_doc h4]
    show (buffer (uh2 X4) _ (t + 1)).getD 0 0 = (buffer (uh2 X4) _ (t + 1)).getD 0 0
    norm_num
  have ex : ∀ r, gr6jExchange p r = Doc.exchangeGR6J X2 r X3 X5 := fun r => if_pos h3
  have n6 : (6 / 10 : ℝ) = 0.6 := by norm_num
  have n4 : (4 / 10 : ℝ) = 0.4 := by norm_num
  have hr : ∀ t, (gr6jRun p PR t).r = Doc.storeGR6J X2 X3 X4 X5 PR t := by
    intro t
    induction t with
    | zero => rfl
    | succ t ih =>
      show (gr6jFinalize p (gr6jRun p PR t) (PR t)).1.r = _
      simp only [gr6jFinalize, e1, ex, Doc.storeGR6J, ih, n6]
      rw [show p.X3 = X3 from rfl, release_doc h3]
  have he : ∀ t, (gr6jRun p PR t).rexp = Doc.expStoreGR6J (fun R => expOutflow R X6) X2 X3 X4 X5 PR t := by
    intro t
    induction t with
    | zero => rfl
    | succ t ih =>
      show (gr6jFinalize p (gr6jRun p PR t) (PR t)).1.rexp = _
      simp only [gr6jFinalize, e1, ex, hr, Doc.expStoreGR6J, ih, n4]
      rfl
  refine ⟨hr t, he t, ?_⟩
  have hl1 : (gr6jRun p PR t).st1.length = p.ord1.length := by rw [(gr6jRun_buffer p PR t).1, buffer_length]
  have hl2 : (gr6jRun p PR t).st2.length = p.ord2.length := by rw [(gr6jRun_buffer p PR t).2, buffer_length]
  simp only [gr6jRate, predict_eq _ _ _ hl1, predict_eq _ _ _ hl2, e1, e2, ex, hr, he, n6, n4, Doc.dischargeGR6J]
  rw [show p.X3 = X3 from rfl, release_doc h3]

/-- **C66 (GR6J routing).**  The two stores and the discharge are those of the documented equations, the exponential store being
emptied by the code's three-piece function, which is within `X6/10⁶` of the documented `X6 ln(1 + exp(R/X6))`. -/
theorem c66_routing_gr6j (X2 X3 X4 X5 X6 : ℝ) (h3 : 0 < X3) (h4 : 0 < X4) (h6 : 0 < X6) (PR : ℕ → ℝ) :
    ∃ q : ℝ → ℝ, (∀ R, |q R - X6 * Real.log (1 + Real.exp (R / X6))| ≤ X6 * (1 / 1000000)) ∧
      ∀ t, let p : GR6JPar := ⟨X2, X3, X5, X6, uh1 X4, uh2 X4⟩
        (gr6jRun p PR t).r = Doc.storeGR6J X2 X3 X4 X5 PR t ∧
        (gr6jRun p PR t).rexp = Doc.expStoreGR6J q X2 X3 X4 X5 PR t ∧
        gr6jRate p (gr6jRun p PR t) (PR t) = Doc.dischargeGR6J q X2 X3 X4 X5 PR t := by
  refine ⟨fun R => expOutflow R X6, fun R => c29_accuracy R X6 h6, fun t =>
    c66_routing_gr6j_at X2 X3 X4 X5 X6 h3 h4 PR t⟩

/-! ## HBV -/

/-- **C66 (HBV routing).**  With MAXBAS at least one day and daily steps without limitation, the deliveries are the convolution of
the inflows with the triangular weights. -/
theorem c66_routing_hbv (m : ℝ) (hm : 1 ≤ m) (ins del : ℕ → ℝ) (hi : ∀ t, 0 ≤ ins t)
    (hdel : ∀ t, del t = hbvRate (hbvWeights m) (hbvRun (hbvWeights m) ins del t) (ins t)) (t : ℕ) :
    del t = Doc.routed (Doc.triangle m) ins t := by
  have hc : clampMaxbas m = m := if_neg (not_lt.2 hm)
  rw [(c30_on_schedule m ins del hi hdel).1 t, ← c27_convolution]
  unfold hbvWeights
  rw [hc]
  refine uhOut_doc _ _ _ (hbvCum_doc (by linarith)) (fun s hs => ?_) ins t
  have := (Nat.le_ceil m).trans hs
  simp only [hbvCum]
  rw [if_neg (by linarith), if_pos this]

/-! ## Examples -/

/-- X4 = 1/2 and 10 mm: the first day 9 mm reach the routing store. -/
example : Doc.routed (Doc.sCurve1 (1 / 2)) (fun s => 0.9 * (if s = 0 then 10 else 0)) 0 = 9 := by
  have z : (0 : ℝ) ^ (5 / 2 : ℝ) = 0 := Real.zero_rpow (by norm_num)
  simp only [Doc.routed, Doc.ordinate, Doc.sCurve1]
  norm_num [z]

/-- MAXBAS = 2: half of an inflow leaves the same day, half the next. -/
example : Doc.ordinate (Doc.triangle 2) 0 = 1 / 2 ∧ Doc.ordinate (Doc.triangle 2) 1 = 1 / 2 ∧ Doc.ordinate (Doc.triangle 2) 2 = 0 := by
  refine ⟨?_, ?_, ?_⟩ <;> norm_num [Doc.ordinate, Doc.triangle]

end HB
