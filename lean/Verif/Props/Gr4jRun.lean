import Verif.Model.Gr4jLaws
import Verif.Props.Equations
import Verif.Props.Equations2
import Verif.Spec.Gr4jStart

/-!
# C70: GR4J and GR6J discharge what the published recursion says
-/

set_option linter.unusedSectionVars false

namespace HB

open Spec.Gr Wire

noncomputable section

/-! ## The two routings -/

/-- `ProcessRoutingGR4J` (ProcessRoutingGR4J.cpp:67-175). -/
def routerGR4J (p : GR4JPar) : Router GR4JSt where
  neg := false
  want r PR := (gr4jRates p r PR).1 + (gr4jRates p r PR).2.1
  exch r PR := (gr4jRates p r PR).2.2
  next r PR := (gr4jFinalize p r PR).1

/-- `ProcessRoutingGR6J` (ProcessRoutingGR6J.cpp:12-28, 91-218). -/
def routerGR6J (p : GR6JPar) : Router GR6JSt where
  neg := true
  want r PR := gr6jRate p r PR
  exch _ _ := 0
  next r PR := (gr6jFinalize p r PR).1

/-! ## From the model of a day to the specification -/

theorem keep_cut (x : ℝ) : keep x = cut x := by
  have e : (1 / 10 ^ 8 : ℝ) = prec := rfl
  unfold keep cut
  rw [e]
  by_cases h : prec < x
  · rw [if_pos h, if_neg (not_le.2 h)]
  · rw [if_neg h, if_pos (not_lt.1 h)]

theorem rainLeft_eq (P E : ℝ) : rainLeft P E = grPn P E := by simp only [rainLeft, grPn, grEi, keep_cut]

theorem demandLeft_eq (P E : ℝ) : demandLeft P E = grEn P E := rfl

/-- Rain and demand are not both left. -/
theorem rain_or_demand {P E : ℝ} (hP : 0 ≤ P) : grPn P E = 0 ∨ grEn P E ≤ 0 := by
  unfold grPn grEn grEi
  by_cases h : P ≤ prec
  · left
    have := cut_nonneg (min P E)
    exact cut_of_le (by linarith)
  · by_cases h2 : P ≤ E
    · left
      rw [min_eq_left h2, cut_of_gt (not_le.1 h), sub_self, cut_of_le prec_nonneg]
    · right
      rw [if_neg h, max_eq_left (by linarith [not_le.1 h2])]

theorem grPn_le13 {P E X1 : ℝ} (hP : 0 ≤ P) (hE : 0 ≤ E) (h : P ≤ 13 * X1) : grPn P E ≤ 13 * X1 :=
  le_trans (grPn_bounds hP hE).2 h

theorem grEn_bounds {P E : ℝ} (hP : 0 ≤ P) (hE : 0 ≤ E) : 0 ≤ grEn P E ∧ grEn P E ≤ E := by
  unfold grEn
  split
  · exact ⟨hE, le_refl E⟩
  · exact ⟨le_max_left _ _, max_le hE (by linarith)⟩

theorem infiltration_doc {X1 S Pn : ℝ} (hX : 0 < X1) (hS : 0 ≤ S) (hSX : S ≤ X1) (hP : 0 ≤ Pn) (h : Pn ≤ 13 * X1) :
    gr4jInfiltration S Pn X1 = Doc.infiltrationGR4J Pn S X1 := by
  rcases hP.eq_or_lt with h0 | h0
  · subst h0
    simp [gr4jInfiltration, Doc.infiltrationGR4J]
  · exact ((c66_gr4j S Pn X1 hX hS hSX h0).1 h).1

theorem evaporation_doc {X1 S En : ℝ} (hX : 0 < X1) (hS : 0 ≤ S) (hSX : S ≤ X1) (hE : 0 ≤ En) (h : En ≤ 13 * X1) :
    gr4jEvaporation S En X1 = Doc.etGR4J S En X1 := by
  rcases hE.eq_or_lt with h0 | h0
  · subst h0
    simp [gr4jEvaporation, Doc.etGR4J]
  · exact ((c66_gr4j S En X1 hX hS hSX h0).1 h).2

theorem percolation_doc {X1 : ℝ} (hX : 0 < X1) (S : ℝ) : gr4jPercolation S X1 = Doc.percolationGR4J S X1 := by
  simp only [gr4jPercolation, not_le.2 hX, if_false, Doc.percolationGR4J]
  congr 4
  field_simp
  ring

/-- The amounts asked for in the production store are the documented ones, when rain and demand are not both left. -/
theorem production_doc {X1 S Pn En : ℝ} (hX : 0 < X1) (hS : 0 ≤ S) (hSX : S ≤ X1) (hP : 0 ≤ Pn) (hP13 : Pn ≤ 13 * X1)
    (hE : 0 ≤ En) (hE13 : En ≤ 13 * X1) (hor : Pn = 0 ∨ En = 0) :
    grRaw X1 S Pn En = effective X1 S Pn En ∧ grAsk X1 S Pn En = Doc.etGR4J S En X1 := by
  have hi := infiltration_doc hX hS hSX hP hP13
  have he : gr4jEvaporation (S + gr4jInfiltration S Pn X1) En X1 = Doc.etGR4J S En X1 := by
    rcases hor with h | h
    · subst h
      have : gr4jInfiltration S 0 X1 = 0 := by simp [gr4jInfiltration]
      rw [this, add_zero, evaporation_doc hX hS hSX hE hE13]
    · subst h
      simp [gr4jEvaporation, Doc.etGR4J]
  refine ⟨?_, he⟩
  unfold grRaw effective percolated Doc.productionPR
  dsimp only
  rw [he, hi, percolation_doc hX]

theorem level_succ (X1 S0 : ℝ) (P E : ℕ → ℝ) (t : ℕ) : level X1 S0 P E (t + 1) =
    keep (level X1 S0 P E t + rainLeft (P t) (E t) - given X1 (level X1 S0 P E t) (rainLeft (P t) (E t)) (demandLeft (P t) (E t)) -
      taken X1 (level X1 S0 P E t) (rainLeft (P t) (E t)) (demandLeft (P t) (E t))) := rfl

theorem held_succ (PR asked exchange : ℕ → ℝ) (t : ℕ) : held PR asked exchange (t + 1) =
    keep (held PR asked exchange t + PR t - keep (min (asked t) (held PR asked exchange t + PR t)) +
      if held PR asked exchange t + PR t ≤ 1 / 10 ^ 8 then 0 else exchange t) := rfl

variable {R : Type}

section
variable {rt : Router R} {X1 S0 : ℝ} {P E : ℕ → ℝ} {r0 : R}

theorem dayRun_level (h : Fair X1 S0 P E) (t : ℕ) :
    (dayRun rt X1 P E ⟨S0, 0, r0⟩ t).S = level X1 S0 P E t ∧ 0 ≤ level X1 S0 P E t ∧ level X1 S0 P E t ≤ X1 := by
  induction t with
  | zero => exact ⟨rfl, h.start⟩
  | succ t ih =>
    obtain ⟨e, l1, l2⟩ := ih
    have hX : 0 < X1 := by linarith [h.cap]
    obtain ⟨p1, p2⟩ := grPn_bounds (h.rain t).1 (h.demand t).1
    obtain ⟨n1, n2⟩ := grEn_bounds (h.rain t).1 (h.demand t).1
    have hor : grPn (P t) (E t) = 0 ∨ grEn (P t) (E t) = 0 := (rain_or_demand (h.rain t).1).imp_right fun h => le_antisymm h n1
    obtain ⟨d1, d2⟩ := production_doc hX l1 l2 p1 (le_trans p2 (h.rain t).2) n1 (le_trans n2 (h.demand t).2) hor
    have hs : grS X1 (level X1 S0 P E t) (grPn (P t) (E t)) (grEn (P t) (E t)) = level X1 S0 P E (t + 1) := by
      rw [level_succ]
      simp only [grS, grPR, grEs, given, taken, keep_cut, rainLeft_eq, demandLeft_eq, d1, d2]
      rfl
    have hb := grS_bounds (En := grEn (P t) (E t)) h.cap l1 l2 p1
    rw [hs] at hb
    refine ⟨?_, hb⟩
    change grS X1 (dayRun rt X1 P E ⟨S0, 0, r0⟩ t).S _ _ = _
    rw [e, hs]

theorem dayRun_PR (h : Fair X1 S0 P E) (t : ℕ) : dayPR X1 (P t) (E t) (dayRun rt X1 P E ⟨S0, 0, r0⟩ t) = runPR X1 S0 P E t := by
  obtain ⟨e, l1, l2⟩ := dayRun_level (rt := rt) (r0 := r0) h t
  have hX : 0 < X1 := by linarith [h.cap]
  obtain ⟨p1, p2⟩ := grPn_bounds (h.rain t).1 (h.demand t).1
  obtain ⟨n1, n2⟩ := grEn_bounds (h.rain t).1 (h.demand t).1
  have hor : grPn (P t) (E t) = 0 ∨ grEn (P t) (E t) = 0 := (rain_or_demand (h.rain t).1).imp_right fun h => le_antisymm h n1
  obtain ⟨d1, d2⟩ := production_doc hX l1 l2 p1 (le_trans p2 (h.rain t).2) n1 (le_trans n2 (h.demand t).2) hor
  unfold dayPR runPR
  rw [e]
  simp only [grPR, given, keep_cut, rainLeft_eq, demandLeft_eq, d1]

theorem runPR_bounds (h : Fair X1 S0 P E) (t : ℕ) : 0 ≤ runPR X1 S0 P E t ∧ runPR X1 S0 P E t ≤ X1 + P t := by
  rw [← dayRun_PR (rt := ⟨false, fun _ _ => 0, fun _ _ => 0, fun r _ => r⟩) (r0 := ()) h t]
  obtain ⟨e, l1, l2⟩ := dayRun_level (rt := ⟨false, fun _ _ => 0, fun _ _ => 0, fun r _ => r⟩) (r0 := ()) h t
  obtain ⟨p1, p2⟩ := grPn_bounds (h.rain t).1 (h.demand t).1
  have := grPR_bounds (En := grEn (P t) (E t)) h.cap l1 l2 p1
  unfold dayPR
  rw [e]
  exact ⟨this.1, by linarith [this.2]⟩

/-- The state of the routing, for a routing that goes through these states. -/
theorem dayRun_state (h : Fair X1 S0 P E) (run : ℕ → R) (h0 : run 0 = r0)
    (hn : ∀ t, rt.next (run t) (runPR X1 S0 P E t) = run (t + 1)) (t : ℕ) : (dayRun rt X1 P E ⟨S0, 0, r0⟩ t).r = run t := by
  induction t with
  | zero => exact h0.symm
  | succ t ih =>
    change rt.next (dayRun rt X1 P E ⟨S0, 0, r0⟩ t).r _ = _
    rw [dayRun_PR h, ih, hn]

/-- The routing container follows the specification, for a routing that asks for and exchanges the documented amounts. -/
theorem dayRun_held (hneg : rt.neg = false) (h : Fair X1 S0 P E) {asked exchange : ℕ → ℝ} (run : ℕ → R) (h0 : run 0 = r0)
    (hn : ∀ t, rt.next (run t) (runPR X1 S0 P E t) = run (t + 1)) (hw : ∀ t, rt.want (run t) (runPR X1 S0 P E t) = asked t)
    (hx : ∀ t, rt.exch (run t) (runPR X1 S0 P E t) = exchange t) (t : ℕ) :
    (dayRun rt X1 P E ⟨S0, 0, r0⟩ t).V = held (runPR X1 S0 P E) asked exchange t := by
  induction t with
  | zero => rfl
  | succ t ih =>
    have e1 := dayRun_state (rt := rt) (r0 := r0) h run h0 hn t
    change grV rt (dayRun rt X1 P E ⟨S0, 0, r0⟩ t).V (dayRun rt X1 P E ⟨S0, 0, r0⟩ t).r _ = _
    rw [dayRun_PR h, e1, ih, held_succ]
    unfold grV grQ
    rw [hneg, if_neg Bool.false_ne_true, if_neg Bool.false_ne_true, hw, hx]
    simp only [keep_cut]
    rfl

theorem dayRun_Q (hneg : rt.neg = false) (h : Fair X1 S0 P E) {asked exchange : ℕ → ℝ} (run : ℕ → R) (h0 : run 0 = r0)
    (hn : ∀ t, rt.next (run t) (runPR X1 S0 P E t) = run (t + 1)) (hw : ∀ t, rt.want (run t) (runPR X1 S0 P E t) = asked t)
    (hx : ∀ t, rt.exch (run t) (runPR X1 S0 P E t) = exchange t) (t : ℕ) :
    dayQ rt X1 (P t) (E t) (dayRun rt X1 P E ⟨S0, 0, r0⟩ t) = released (runPR X1 S0 P E) asked exchange t := by
  unfold dayQ grQ released
  rw [dayRun_PR h, dayRun_state h run h0 hn, dayRun_held hneg h run h0 hn hw hx t, hneg, if_neg Bool.false_ne_true, hw, keep_cut]

/-- A routing whose container may be negative gives all it asks for. -/
theorem dayRun_Q_neg (hneg : rt.neg = true) (h : Fair X1 S0 P E) {asked : ℕ → ℝ} (run : ℕ → R) (h0 : run 0 = r0)
    (hn : ∀ t, rt.next (run t) (runPR X1 S0 P E t) = run (t + 1)) (hw : ∀ t, rt.want (run t) (runPR X1 S0 P E t) = asked t) (t : ℕ) :
    dayQ rt X1 (P t) (E t) (dayRun rt X1 P E ⟨S0, 0, r0⟩ t) = keep (asked t) := by
  unfold dayQ grQ
  rw [dayRun_PR h, dayRun_state h run h0 hn, hneg, if_pos rfl, hw, keep_cut]

theorem dayRun_ok (h : Fair X1 S0 P E) {asked : ℕ → ℝ} (run : ℕ → R) (h0 : run 0 = r0)
    (hn : ∀ t, rt.next (run t) (runPR X1 S0 P E t) = run (t + 1)) (hw : ∀ t, rt.want (run t) (runPR X1 S0 P E t) = asked t)
    {t : ℕ} (hs : X1 + P t ≤ 10000) (ha : 0 ≤ asked t ∧ asked t ≤ 10000) :
    DayOK rt X1 (P t) (E t) (dayRun rt X1 P E ⟨S0, 0, r0⟩ t) := by
  obtain ⟨e, l1, l2⟩ := dayRun_level (rt := rt) (r0 := r0) h t
  refine ⟨h.cap, by rw [e]; exact ⟨l1, l2⟩, fun hneg => ?_, (h.rain t).1, (h.demand t).1, hs, ?_⟩
  · cases t with
    | zero => exact le_refl 0
    | succ t =>
      change 0 ≤ grV rt _ _ _
      rw [grV, hneg, if_neg Bool.false_ne_true]
      exact cut_nonneg _
  · rw [dayRun_PR h, dayRun_state h run h0 hn, hw]
    exact ha

end

/-! ## What the routings ask for -/

/-- A unit hydrograph gives at most the largest input, and nothing negative. -/
theorem uhOut_bounds {ord : List ℝ} (h : Spec.Partition ord) {ins : ℕ → ℝ} {M : ℝ} (hi : ∀ t, 0 ≤ ins t ∧ ins t ≤ M) (t : ℕ) :
    0 ≤ uhOut ord ins t ∧ uhOut ord ins t ≤ M := by
  have hM : 0 ≤ M := le_trans (hi 0).1 (hi 0).2
  have hw : ∀ j, 0 ≤ ord.getD j 0 := by
    intro j
    by_cases hj : j < ord.length
    · rw [List.getD_eq_getElem _ _ hj]; exact h.1 _ (List.getElem_mem hj)
    · rw [List.getD_eq_default _ _ (by omega)]
  have hsum : ∑ k ∈ Finset.range (t + 1), ord.getD k 0 ≤ 1 := by
    rw [← h.2, getD_sum]
    rcases _root_.le_total (t + 1) ord.length with hl | hl
    · exact Finset.sum_le_sum_of_subset_of_nonneg (Finset.range_mono hl) fun i _ _ => hw i
    · rw [Finset.sum_subset (Finset.range_mono hl)]
      intro i _ hi
      rw [List.getD_eq_default _ _ (by simpa using hi)]
  rw [c27_convolution]
  refine ⟨Finset.sum_nonneg fun k _ => mul_nonneg (hw k) (hi _).1, ?_⟩
  calc ∑ k ∈ Finset.range (t + 1), ord.getD k 0 * ins (t - k) ≤ ∑ k ∈ Finset.range (t + 1), ord.getD k 0 * M :=
        Finset.sum_le_sum fun k _ => mul_le_mul_of_nonneg_left (hi _).2 (hw k)
    _ = (∑ k ∈ Finset.range (t + 1), ord.getD k 0) * M := (Finset.sum_mul _ _ _).symm
    _ ≤ 1 * M := mul_le_mul_of_nonneg_right hsum hM
    _ = M := one_mul M

theorem release_bounds {X3 r : ℝ} (hX : 0 < X3) (hr : 0 ≤ r) : 0 ≤ Doc.release r X3 ∧ Doc.release r X3 ≤ r := by
  rw [← release_doc hX]
  obtain ⟨a, b, -⟩ := routingRelease_bounds hX hr
  exact ⟨a, by linarith⟩

theorem storeGR4J_bounds {X2 X3 X4 : ℝ} (h3 : 0 < X3) (h4 : 0 < X4) (PR : ℕ → ℝ) (t : ℕ) :
    0 ≤ Doc.storeGR4J X2 X3 X4 PR t ∧ Doc.storeGR4J X2 X3 X4 PR t ≤ X3 := by
  rw [← (c66_routing_gr4j X2 X3 X4 h3 h4 PR t).1]
  have := c28_run ⟨X2, X3, uh1 X4, uh2 X4⟩ PR h3 (c26_partition X4 1).1 (c26_partition X4 1).2.1 t
  exact ⟨this.2.1, this.2.2.1⟩

theorem routed_bounds {X4 : ℝ} (h4 : 0 < X4) {PR : ℕ → ℝ} {M : ℝ} (hi : ∀ t, 0 ≤ PR t ∧ PR t ≤ M) (t : ℕ) :
    (0 ≤ Doc.routed (Doc.sCurve1 X4) (fun s => 0.9 * PR s) t ∧ Doc.routed (Doc.sCurve1 X4) (fun s => 0.9 * PR s) t ≤ 0.9 * M) ∧
    0 ≤ Doc.routed (Doc.sCurve2 X4) (fun s => 0.1 * PR s) t ∧ Doc.routed (Doc.sCurve2 X4) (fun s => 0.1 * PR s) t ≤ 0.1 * M := by
  rw [← uh1_doc h4, ← uh2_doc h4]
  refine ⟨uhOut_bounds (c26_partition X4 1).1 (fun t => ?_) t, uhOut_bounds (c26_partition X4 1).2.1 (fun t => ?_) t⟩
  · have := hi t
    constructor <;> linarith
  · have := hi t
    constructor <;> linarith

theorem exchangeGR4J_abs {X2 X3 r : ℝ} (h3 : 0 < X3) (h0 : 0 ≤ r) (h1 : r ≤ X3) : |Doc.exchangeGR4J X2 r X3| ≤ |X2| := by
  have a : 0 ≤ r / X3 := div_nonneg h0 h3.le
  have b : r / X3 ≤ 1 := (div_le_one h3).2 h1
  have c := Real.rpow_nonneg a (7 / 2)
  have d := Real.rpow_le_one a b (by norm_num : (0 : ℝ) ≤ 7 / 2)
  unfold Doc.exchangeGR4J
  rw [abs_mul, abs_of_nonneg c]
  exact mul_le_of_le_one_right (abs_nonneg _) d

theorem dischargeGR4J_bounds {X2 X3 X4 : ℝ} (h3 : 0 < X3) (h4 : 0 < X4) {PR : ℕ → ℝ} {M : ℝ} (hi : ∀ t, 0 ≤ PR t ∧ PR t ≤ M) (t : ℕ) :
    0 ≤ Doc.dischargeGR4J X2 X3 X4 PR t ∧ Doc.dischargeGR4J X2 X3 X4 PR t ≤ M + X3 + 2 * |X2| := by
  obtain ⟨⟨a1, a2⟩, b1, b2⟩ := routed_bounds h4 hi t
  obtain ⟨s1, s2⟩ := storeGR4J_bounds (X2 := X2) h3 h4 PR t
  obtain ⟨f1, f2⟩ := abs_le.1 (exchangeGR4J_abs (X2 := X2) h3 s1 s2)
  unfold Doc.dischargeGR4J
  dsimp only
  set R := Doc.storeGR4J X2 X3 X4 PR t
  set F := Doc.exchangeGR4J X2 R X3
  set Q9 := Doc.routed (Doc.sCurve1 X4) (fun s => 0.9 * PR s) t
  set Q1 := Doc.routed (Doc.sCurve2 X4) (fun s => 0.1 * PR s) t
  have hx := abs_nonneg X2
  obtain ⟨r1, r2⟩ := release_bounds h3 (le_max_left 0 (R + Q9 + F))
  have m1 : max 0 (R + Q9 + F) ≤ X3 + 0.9 * M + |X2| := max_le (by linarith) (by linarith)
  have m2 : max 0 (Q1 + F) ≤ 0.1 * M + |X2| := max_le (by linarith) (by linarith)
  exact ⟨add_nonneg r1 (le_max_left _ _), by linarith⟩

theorem exchangedGR4J_eq {X2 X3 X4 : ℝ} (h3 : 0 < X3) (h4 : 0 < X4) (PR : ℕ → ℝ) (t : ℕ) :
    (gr4jRates ⟨X2, X3, uh1 X4, uh2 X4⟩ (gr4jRun ⟨X2, X3, uh1 X4, uh2 X4⟩ PR t).1 (PR t)).2.2 = exchangedGR4J X2 X3 X4 PR t := by
  set p : GR4JPar := ⟨X2, X3, uh1 X4, uh2 X4⟩ with hp
  have hb := gr4jRun_buffer p PR t
  have hl := gr4jRun_len p PR t
  have hr := (c66_routing_gr4j X2 X3 X4 h3 h4 PR t).1
  have e1 : predictOut p.ord1 (gr4jRun p PR t).1.st1 (9 / 10 * PR t) = Doc.routed (Doc.sCurve1 X4) (fun s => 0.9 * PR s) t := by
    rw [predict_eq _ _ _ hl.1, hb.1, ← uh1_doc h4]
    show (buffer (uh1 X4) _ (t + 1)).getD 0 0 = (buffer (uh1 X4) _ (t + 1)).getD 0 0
    norm_num
  have e2 : predictOut p.ord2 (gr4jRun p PR t).1.st2 (1 / 10 * PR t) = Doc.routed (Doc.sCurve2 X4) (fun s => 0.1 * PR s) t := by
    rw [predict_eq _ _ _ hl.2, hb.2, ← uh2_doc h4]
    show (buffer (uh2 X4) _ (t + 1)).getD 0 0 = (buffer (uh2 X4) _ (t + 1)).getD 0 0
    norm_num
  have e3 : gr4jExchange p (gr4jRun p PR t).1.r = Doc.exchangeGR4J X2 (Doc.storeGR4J X2 X3 X4 PR t) X3 := by
    rw [c28_exchange p _ h3 (by rw [hr]; exact (storeGR4J_bounds h3 h4 PR t).1), hr]
    rfl
  unfold gr4jRates exchangedGR4J
  dsimp only
  rw [e1, e2, e3, hr]

theorem expOutflow_le {R X6 : ℝ} (h6 : 0 < X6) : expOutflow R X6 ≤ max 0 R + X6 := by
  have h := (abs_le.1 (c29_accuracy R X6 h6)).2
  have : Spec.softplus R X6 ≤ max 0 R + X6 * Real.log 2 := by
    unfold Spec.softplus
    have h1 : 1 + Real.exp (R / X6) ≤ 2 * Real.exp (max 0 R / X6) := by
      have a : Real.exp (R / X6) ≤ Real.exp (max 0 R / X6) := Real.exp_le_exp.2 (by gcongr; exact le_max_right _ _)
      have b : 1 ≤ Real.exp (max 0 R / X6) := Real.one_le_exp (div_nonneg (le_max_left _ _) h6.le)
      linarith
    have h2 : Real.log (1 + Real.exp (R / X6)) ≤ Real.log 2 + max 0 R / X6 := by
      have h3 : Real.log (2 * Real.exp (max 0 R / X6)) = Real.log 2 + max 0 R / X6 := by
        rw [Real.log_mul (by norm_num) (Real.exp_pos _).ne', Real.log_exp]
      rw [← h3]
      exact Real.log_le_log (by positivity) h1
    calc X6 * Real.log (1 + Real.exp (R / X6)) ≤ X6 * (Real.log 2 + max 0 R / X6) := mul_le_mul_of_nonneg_left h2 h6.le
      _ = max 0 R + X6 * Real.log 2 := by field_simp; ring
  have h2 := Real.log_two_lt_d9
  nlinarith

theorem dischargeGR6J_bounds {X2 X3 X4 X5 X6 : ℝ} (h3 : 0 < X3) (h4 : 0 < X4) (h6 : 0 < X6) {PR : ℕ → ℝ} {M : ℝ}
    (hi : ∀ t, 0 ≤ PR t ∧ PR t ≤ M) (t : ℕ) :
    0 ≤ Doc.dischargeGR6J (fun R => expOutflow R X6) X2 X3 X4 X5 PR t ∧
    Doc.dischargeGR6J (fun R => expOutflow R X6) X2 X3 X4 X5 PR t ≤ M + X3 + X6 + 3 * |X2| * (1 + |X5|) := by
  obtain ⟨⟨a1, a2⟩, b1, b2⟩ := routed_bounds h4 hi t
  have hs : 0 ≤ Doc.storeGR6J X2 X3 X4 X5 PR t ∧ Doc.storeGR6J X2 X3 X4 X5 PR t ≤ X3 := by
    cases t with
    | zero => exact ⟨le_refl 0, h3.le⟩
    | succ t =>
      unfold Doc.storeGR6J
      dsimp only
      rw [← release_doc h3]
      exact (routingRelease_bounds h3 (le_max_left 0 _)).2
  have he : Doc.expStoreGR6J (fun R => expOutflow R X6) X2 X3 X4 X5 PR t ≤ 0 := by
    cases t with
    | zero => exact le_refl 0
    | succ t =>
      unfold Doc.expStoreGR6J
      dsimp only
      exact (c29_bounds _ X6).2
  have hF : |Doc.exchangeGR6J X2 (Doc.storeGR6J X2 X3 X4 X5 PR t) X3 X5| ≤ |X2| * (1 + |X5|) := by
    unfold Doc.exchangeGR6J
    rw [abs_mul]
    apply mul_le_mul_of_nonneg_left _ (abs_nonneg _)
    have a : 0 ≤ Doc.storeGR6J X2 X3 X4 X5 PR t / X3 := div_nonneg hs.1 h3.le
    have b : Doc.storeGR6J X2 X3 X4 X5 PR t / X3 ≤ 1 := (div_le_one h3).2 hs.2
    have := abs_sub (Doc.storeGR6J X2 X3 X4 X5 PR t / X3) X5
    rw [abs_of_nonneg a] at this
    linarith
  obtain ⟨f1, f2⟩ := abs_le.1 hF
  unfold Doc.dischargeGR6J
  dsimp only
  refine ⟨le_max_left _ _, ?_⟩
  set R := Doc.storeGR6J X2 X3 X4 X5 PR t
  set Re := Doc.expStoreGR6J (fun R => expOutflow R X6) X2 X3 X4 X5 PR t
  set F := Doc.exchangeGR6J X2 R X3 X5
  set Q9 := Doc.routed (Doc.sCurve1 X4) (fun s => 0.9 * PR s) t
  set Q1 := Doc.routed (Doc.sCurve2 X4) (fun s => 0.1 * PR s) t
  have hx : 0 ≤ |X2| * (1 + |X5|) := mul_nonneg (abs_nonneg _) (by linarith [abs_nonneg X5])
  obtain ⟨r1, r2⟩ := release_bounds h3 (le_max_left 0 (R + 0.6 * Q9 + F))
  have m1 : max 0 (R + 0.6 * Q9 + F) ≤ X3 + 0.54 * M + |X2| * (1 + |X5|) := max_le (by linarith) (by linarith)
  have m2 : max 0 (Q1 + F) ≤ 0.1 * M + |X2| * (1 + |X5|) := max_le (by linarith) (by linarith)
  have m3 := expOutflow_le (R := Re + 0.4 * Q9 + F) h6
  have m4 : max 0 (Re + 0.4 * Q9 + F) ≤ 0.36 * M + |X2| * (1 + |X5|) := max_le (by linarith) (by linarith)
  exact max_le (by linarith) (by linarith)

/-! ## The runs -/

theorem gr4j_days {X1 X2 X3 X4 S0 : ℝ} {P E : ℕ → ℝ} (h : FairGR4J X1 X2 X3 X4 S0 P E) (t : ℕ) :
    let p : GR4JPar := ⟨X2, X3, uh1 X4, uh2 X4⟩
    let a : GrSt GR4JSt := ⟨S0, 0, (gr4jRun p (fun _ => 0) 0).1⟩
    DayOK (routerGR4J p) X1 (P t) (E t) (dayRun (routerGR4J p) X1 P E a t) ∧
    dayQ (routerGR4J p) X1 (P t) (E t) (dayRun (routerGR4J p) X1 P E a t) = runGR4J X1 X2 X3 X4 S0 P E t := by
  intro p a
  set PR := runPR X1 S0 P E with hPR
  have hf := h.toFair
  have h1 : ∀ t, (routerGR4J p).want (gr4jRun p PR t).1 (PR t) = Doc.dischargeGR4J X2 X3 X4 PR t := fun t =>
    (c66_routing_gr4j X2 X3 X4 h.routing h.base PR t).2
  have h2 : ∀ t, (routerGR4J p).exch (gr4jRun p PR t).1 (PR t) = exchangedGR4J X2 X3 X4 PR t := fun t =>
    exchangedGR4J_eq h.routing h.base PR t
  have hb : ∀ t, 0 ≤ PR t ∧ PR t ≤ 10000 - X3 - 2 * |X2| := fun t => by
    have := runPR_bounds hf t
    exact ⟨this.1, by linarith [this.2, h.sizes t]⟩
  have hd := dischargeGR4J_bounds (X2 := X2) h.routing h.base hb t
  refine ⟨dayRun_ok hf (fun t => (gr4jRun p PR t).1) rfl (fun t => rfl) h1 ?_ ⟨hd.1, by linarith⟩,
    dayRun_Q rfl hf (fun t => (gr4jRun p PR t).1) rfl (fun t => rfl) h1 h2 t⟩
  linarith [h.sizes t, h.routing, abs_nonneg X2]

theorem gr6j_days {X1 X2 X3 X4 X5 X6 S0 : ℝ} {P E : ℕ → ℝ} (h : FairGR6J X1 X2 X3 X4 X5 X6 S0 P E) (t : ℕ) :
    let p : GR6JPar := ⟨X2, X3, X5, X6, uh1 X4, uh2 X4⟩
    let a : GrSt GR6JSt := ⟨S0, 0, gr6jRun p (fun _ => 0) 0⟩
    DayOK (routerGR6J p) X1 (P t) (E t) (dayRun (routerGR6J p) X1 P E a t) ∧
    dayQ (routerGR6J p) X1 (P t) (E t) (dayRun (routerGR6J p) X1 P E a t) =
      runGR6J (fun R => expOutflow R X6) X1 X2 X3 X4 X5 S0 P E t := by
  intro p a
  set PR := runPR X1 S0 P E with hPR
  have hf := h.toFair
  have h1 : ∀ t, (routerGR6J p).want (gr6jRun p PR t) (PR t) = Doc.dischargeGR6J (fun R => expOutflow R X6) X2 X3 X4 X5 PR t := fun t =>
    (c66_routing_gr6j_at X2 X3 X4 X5 X6 h.routing h.base PR t).2.2
  have hx : 0 ≤ |X2| * (1 + |X5|) := mul_nonneg (abs_nonneg _) (by linarith [abs_nonneg X5])
  have hb : ∀ t, 0 ≤ PR t ∧ PR t ≤ 10000 - X3 - X6 - 3 * |X2| * (1 + |X5|) := fun t => by
    have := runPR_bounds hf t
    exact ⟨this.1, by linarith [this.2, h.sizes t]⟩
  have hd := dischargeGR6J_bounds (X2 := X2) (X5 := X5) h.routing h.base h.exp hb t
  refine ⟨dayRun_ok hf (fun t => gr6jRun p PR t) rfl (fun t => rfl) h1 ?_ ⟨hd.1, by linarith⟩,
    dayRun_Q_neg rfl hf (fun t => gr6jRun p PR t) rfl (fun t => rfl) h1 t⟩
  linarith [h.sizes t, h.routing, h.exp]

/-- A share of the area below one scales the flux, a share of one leaves it. -/
theorem scale_share {net : HB.Net ℝ} {f : ℕ} {q : ℝ} (hi : (net.flux f).inst = false) (hf : (net.flux f).frac = q) (hq : q ≤ 1) (x : ℝ) :
    (net.flux f).scale x = q * x := by
  unfold FluxSpec.scale
  rw [hi, hf]
  simp only [Bool.false_eq_true, if_false]
  split
  · ring
  · rw [le_antisymm hq (not_lt.1 ‹_›), one_mul]

theorem area_share {inp : Input ℝ} (ha : ∀ un ∈ inp.units, 0 ≤ un.area) {un : UnitIn ℝ} (hu : un ∈ inp.units) : un.area / Spec.basinArea inp ≤ 1 := by
  have h : un.area ≤ Spec.basinArea inp :=
    List.single_le_sum (by
      intro x hx
      obtain ⟨v, hv, rfl⟩ := List.mem_map.1 hx
      exact ha v hv) _ (List.mem_map_of_mem hu)
  exact div_le_one_of_le₀ h (le_trans (ha un hu) h)

/-- From the day-by-day run to the run of the built model. -/
theorem gr_runs {six : Bool} {name type : String} {inp : Input ℝ} {m : Wire.Model ℝ} (h : IsGr six name type inp m) (hn : GrName name)
    {ext : ℕ → ℕ → ℝ} (hext : ∀ u < inp.units.length, ext u 0 = 1) (ha : ∀ un ∈ inp.units, 0 ≤ un.area) {rt : Router R} {r0 : R}
    {weather : ℕ → ℕ → Weather} {E : ℕ → ℕ → ℝ} {X1 S0 : ℝ} {Q : ℕ → ℕ → ℝ}
    (hq : ∀ u < inp.units.length, ∀ t,
      DayOK rt X1 ((weather u t).P * (weather u t).rcf) (E u t) (dayRun rt X1 (fun t => (weather u t).P * (weather u t).rcf) (E u) ⟨S0, 0, r0⟩ t) ∧
      dayQ rt X1 ((weather u t).P * (weather u t).rcf) (E u t) (dayRun rt X1 (fun t => (weather u t).P * (weather u t).rcf) (E u) ⟨S0, 0, r0⟩ t) = Q u t)
    (sch : Scheme ℝ (GrHid R)) (n : ℕ) {s : Sys ℝ (GrHid R)} (hs : Spec.Gr.Fresh rt.neg inp X1 S0 r0 s) :
    ∃ recs s', runSteps (Asm.asm inp m ext) (grLaws inp m ext (grKind six) rt weather E) sch 1 grTick n s = .ok (recs, s') ∧
      recs.map (outletDischarge (Asm.asm inp m ext)) = (List.range n).map (Spec.Gr.overBasin inp Q) := by
  have hstr : ∀ (u : ℕ) (un : UnitIn ℝ), inp.units[u]? = some un → un.str = grStruct six name type := fun u un hu =>
    h.units un (List.mem_of_getElem? hu)
  have hin : ∀ u < inp.units.length, InState rt.neg (grIds u) u X1 (⟨S0, 0, r0⟩ : GrSt R) s := by
    intro u hu
    have hu' := List.getElem?_eq_getElem hu
    have hst := hstr u _ hu'
    refine ⟨⟨0, ?_⟩, ⟨S0, ?_⟩, ⟨0, ?_⟩, hs.demand u, hs.routing u⟩
    · refine (hs.water u _ 0 _ hu' (by rw [hst]; rfl)).trans ?_
      rw [if_neg hn.store]
      have : decide (name = "uh_input") = false := decide_eq_false hn.uh
      simp only [this, Bool.false_and]
      rfl
    · refine (hs.water u _ 1 _ hu' (by rw [hst]; rfl)).trans ?_
      rw [if_pos rfl]
      rfl
    · refine (hs.water u _ 2 _ hu' (by rw [hst]; rfl)).trans ?_
      rw [if_neg (show ¬ ("uh_input" = "production_store") by decide)]
      rfl
  obtain ⟨recs, s', hr, -, -, hd⟩ := days_run (X1 := X1) (h.net hext rt weather E) sch (fun _ => ⟨S0, 0, r0⟩) n
    (fun u hu t _ => (hq u hu t).1) n 0 (by omega) s hs.time hin
  refine ⟨recs, s', hr, hd.trans ?_⟩
  apply List.map_congr_left
  intro t _
  unfold Spec.Gr.overBasin
  rw [zero_add, List.range_eq_range', ← List.zipIdx_map_snd 0 inp.units, List.map_map]
  congr 1
  apply List.map_congr_left
  intro uu huu
  have hu := List.mem_zipIdx_iff_getElem?.1 huu
  have hlt : uu.2 < inp.units.length := (List.getElem?_eq_some_iff.1 hu).1
  obtain ⟨i, f⟩ := h.share (ext := ext) hu
  simp only [Function.comp]
  rw [scale_share i f (area_share ha (List.mem_of_getElem? hu)), (hq uu.2 hlt t).2]

/-- **C70 (GR4J).**  The discrete GR4J without snow and with one land cover, as it is built from the model description, for any number
of units, with any solver: the run goes through, and the discharge of each day is the mean over the area of the published recursion,
amounts up to 1e-8 mm dropped and the discharge limited to the water held. -/
theorem c70_gr4j {o : GrOpts} (hd : o.discrete = true) (hm : o.melt = none) (h6 : o.six = false) {c : PyCover} (hk : c.kind ≠ "glacier")
    (hc : Spec.GoodCovers [c]) (ho : Spec.GoodGr o) {inp : Input ℝ} (hf : Spec.FromModel (gr o [c]) inp) (ha : ∀ un ∈ inp.units, 0 ≤ un.area)
    {X1 X2 X3 X4 S0 : ℝ} {weather : ℕ → ℕ → Weather} {E : ℕ → ℕ → ℝ}
    (hw : ∀ u < inp.units.length, Spec.Gr.FairGR4J X1 X2 X3 X4 S0 (fun t => (weather u t).P * (weather u t).rcf) (E u)) :
    ∃ m, build inp = .ok m ∧ ∀ (ext : ℕ → ℕ → ℝ), (∀ u < inp.units.length, ext u 0 = 1) →
      ∀ (sch : Scheme ℝ (GrHid GR4JSt)) (n : ℕ) (s : Sys ℝ (GrHid GR4JSt)), Spec.Gr.Fresh false inp X1 S0 (emptyGR4J X4) s →
      ∃ recs s', runSteps (Asm.asm inp m ext) (grLaws inp m ext "routing:gr4j" (routerGR4J ⟨X2, X3, uh1 X4, uh2 X4⟩) weather E) sch 1 grTick n s = .ok (recs, s') ∧
        recs.map (outletDischarge (Asm.asm inp m ext)) = (List.range n).map (Spec.Gr.overBasin inp fun u t =>
          Spec.Gr.runGR4J X1 X2 X3 X4 S0 (fun t => (weather u t).P * (weather u t).rcf) (E u) t) := by
  obtain ⟨m, h⟩ := isGr_of hd hm hk hc ho hf
  refine ⟨m, h.built, fun ext hext sch n s hs => ?_⟩
  rw [h6] at h
  exact gr_runs h (grName hc) hext ha (fun u hu t => gr4j_days (hw u hu) t) sch n hs

/-- **C70 (GR6J).**  Same for GR6J, with an outflow of the exponential store within X6/10⁶ of the published one. -/
theorem c70_gr6j {o : GrOpts} (hd : o.discrete = true) (hm : o.melt = none) (h6 : o.six = true) {c : PyCover} (hk : c.kind ≠ "glacier")
    (hc : Spec.GoodCovers [c]) (ho : Spec.GoodGr o) {inp : Input ℝ} (hf : Spec.FromModel (gr o [c]) inp) (ha : ∀ un ∈ inp.units, 0 ≤ un.area)
    {X1 X2 X3 X4 X5 X6 S0 : ℝ} {weather : ℕ → ℕ → Weather} {E : ℕ → ℕ → ℝ}
    (hw : ∀ u < inp.units.length, Spec.Gr.FairGR6J X1 X2 X3 X4 X5 X6 S0 (fun t => (weather u t).P * (weather u t).rcf) (E u)) :
    ∃ (m : Wire.Model ℝ) (q : ℝ → ℝ), build inp = .ok m ∧
      (0 < X6 → ∀ R, |q R - X6 * Real.log (1 + Real.exp (R / X6))| ≤ X6 * (1 / 1000000)) ∧
      ∀ (ext : ℕ → ℕ → ℝ), (∀ u < inp.units.length, ext u 0 = 1) →
      ∀ (sch : Scheme ℝ (GrHid GR6JSt)) (n : ℕ) (s : Sys ℝ (GrHid GR6JSt)), Spec.Gr.Fresh true inp X1 S0 (emptyGR6J X4) s →
      ∃ recs s', runSteps (Asm.asm inp m ext) (grLaws inp m ext "routing:gr6j" (routerGR6J ⟨X2, X3, X5, X6, uh1 X4, uh2 X4⟩) weather E) sch 1 grTick n s = .ok (recs, s') ∧
        recs.map (outletDischarge (Asm.asm inp m ext)) = (List.range n).map (Spec.Gr.overBasin inp fun u t =>
          Spec.Gr.runGR6J q X1 X2 X3 X4 X5 S0 (fun t => (weather u t).P * (weather u t).rcf) (E u) t) := by
  obtain ⟨m, h⟩ := isGr_of hd hm hk hc ho hf
  refine ⟨m, fun R => expOutflow R X6, h.built, fun h R => c29_accuracy R X6 h, fun ext hext sch n s hs => ?_⟩
  rw [h6] at h
  exact gr_runs h (grName hc) hext ha (fun u hu t => gr6j_days (hw u hu) t) sch n hs

end

end HB
