import Verif.Props.Gr4jRun

/-!
# C70: when the run is the published model exactly, and when it is not
-/

set_option linter.unusedSectionVars false

namespace HB

open Spec.Gr Wire

noncomputable section

theorem keep_seen {x : ℝ} (h : Seen x) : keep x = x := by
  unfold keep
  split
  · rcases h with h | h
    · exact h.symm
    · linarith
  · rfl

section
variable {X1 X2 X3 X4 S0 : ℝ} {P E : ℕ → ℝ}

theorem rain_book {p e : ℝ} (hp : 0 ≤ p) (he : 0 ≤ e) (h1 : Seen p) (h2 : Seen e) (h3 : Seen (netRain p e)) :
    rainLeft p e = netRain p e ∧ demandLeft p e = netDemand p e := by
  have hmin : Seen (min p e) := by
    rcases min_choice p e with h | h <;> rw [h] <;> assumption
  constructor
  · unfold rainLeft
    rw [keep_seen hmin]
    have : p - min p e = netRain p e := by
      unfold netRain
      rcases _root_.le_total p e with h | h
      · rw [min_eq_left h, max_eq_left (by linarith), sub_self]
      · rw [min_eq_right h, max_eq_right (by linarith)]
    rw [this, keep_seen h3]
  · unfold demandLeft netDemand
    split
    · rcases h1 with h | h
      · rw [h, sub_zero, max_eq_right he]
      · linarith
    · rfl

theorem level_book (h : Fair X1 S0 P E) (hc : Clear X1 X2 X3 X4 S0 P E) (t : ℕ) :
    level X1 S0 P E t = bookLevel X1 S0 P E t := by
  induction t with
  | zero => rfl
  | succ t ih =>
    obtain ⟨r1, r2⟩ := rain_book (h.rain t).1 (h.demand t).1 (hc.rain t) (hc.demand t) (hc.netRain t)
    rw [level_succ, r1, r2, ih]
    have hg : given X1 (bookLevel X1 S0 P E t) (netRain (P t) (E t)) (netDemand (P t) (E t)) = bookPR X1 S0 P E t := keep_seen (hc.given t)
    have hn : bookLevel X1 S0 P E t + netRain (P t) (E t) - bookPR X1 S0 P E t =
        bookLevel X1 S0 P E (t + 1) + Doc.etGR4J (bookLevel X1 S0 P E t) (netDemand (P t) (E t)) X1 := by
      change _ = (bookLevel X1 S0 P E t + Doc.infiltrationGR4J _ _ X1 - Doc.etGR4J _ _ X1 - percolated X1 _ _ _) + _
      unfold bookPR effective Doc.productionPR
      ring
    have hs : ∀ x : ℝ, Seen x → 0 ≤ x := fun x hx => by
      rcases hx with h | h
      · exact h.ge
      · exact (lt_trans (by norm_num) h).le
    have ht : taken X1 (bookLevel X1 S0 P E t) (netRain (P t) (E t)) (netDemand (P t) (E t)) =
        Doc.etGR4J (bookLevel X1 S0 P E t) (netDemand (P t) (E t)) X1 := by
      unfold taken
      rw [hg, hn]
      split
      · rename_i hle
        have a := hs _ (hc.level (t + 1))
        rcases hc.taken t with h0 | h0
        · exact h0.symm
        · linarith
      · exact keep_seen (hc.taken t)
    rw [hg, ht, hn, add_sub_cancel_right, keep_seen (hc.level (t + 1))]

theorem runPR_book (h : Fair X1 S0 P E) (hc : Clear X1 X2 X3 X4 S0 P E) : runPR X1 S0 P E = bookPR X1 S0 P E := by
  funext t
  obtain ⟨r1, r2⟩ := rain_book (h.rain t).1 (h.demand t).1 (hc.rain t) (hc.demand t) (hc.netRain t)
  unfold runPR
  rw [level_book h hc, r1, r2]
  exact keep_seen (hc.given t)

/-- The water in the routing of the published model. -/
theorem bookHeld_run (h3 : 0 < X3) (h4 : 0 < X4) (PR : ℕ → ℝ) (t : ℕ) :
    bookHeld X2 X3 X4 PR t = (gr4jRun ⟨X2, X3, uh1 X4, uh2 X4⟩ PR t).2 := by
  induction t with
  | zero => rfl
  | succ t ih =>
    change bookHeld X2 X3 X4 PR t + PR t + exchangedGR4J X2 X3 X4 PR t - Doc.dischargeGR4J X2 X3 X4 PR t = _
    rw [ih, ← exchangedGR4J_eq h3 h4, ← (c66_routing_gr4j X2 X3 X4 h3 h4 PR t).2]
    rfl

theorem bookHeld_ge (h3 : 0 < X3) (h4 : 0 < X4) {PR : ℕ → ℝ} (hi : ∀ t, 0 ≤ PR t) (t : ℕ) :
    Doc.storeGR4J X2 X3 X4 PR t ≤ bookHeld X2 X3 X4 PR t := by
  rw [bookHeld_run h3 h4]
  have hr := c28_run ⟨X2, X3, uh1 X4, uh2 X4⟩ PR h3 (c26_partition X4 1).1 (c26_partition X4 1).2.1 t
  rw [hr.1, ← (c66_routing_gr4j X2 X3 X4 h3 h4 PR t).1]
  unfold Spec.inTransit
  have hb := gr4jRun_buffer ⟨X2, X3, uh1 X4, uh2 X4⟩ PR t
  have a := drop_one_sum_nonneg (gr4jRun ⟨X2, X3, uh1 X4, uh2 X4⟩ PR t).1.st1 (by
    intro i
    rw [hb.1]
    exact buffer_nonneg _ _ (c26_partition X4 1).1.1 (fun u => by have := hi u; positivity) _ _)
  have b := drop_one_sum_nonneg (gr4jRun ⟨X2, X3, uh1 X4, uh2 X4⟩ PR t).1.st2 (by
    intro i
    rw [hb.2]
    exact buffer_nonneg _ _ (c26_partition X4 1).2.1.1 (fun u => by have := hi u; positivity) _ _)
  linarith

/-- What stays in the routing store is at least 80 % of any level below both the one before the release and the capacity. -/
theorem kept_share {y r : ℝ} (h3 : 0 < X3) (h0 : 0 ≤ r) (h1 : r ≤ X3) (h2 : r ≤ y) : 8 / 10 * r ≤ y - Doc.release y X3 := by
  have hy : 0 ≤ y := le_trans h0 h2
  rw [← release_doc h3, routingRelease_eq h3]
  set z := 1 + (y / X3) ^ 4 with hz
  have hz1 : 0 < z := by
    have : 0 ≤ (y / X3) ^ 4 := by positivity
    linarith
  set w := z ^ (-(1 / 4) : ℝ) with hw
  have hw0 : 0 ≤ w := Real.rpow_nonneg hz1.le _
  have hw4 : w ^ 4 * z = 1 := by
    rw [hw, ← Real.rpow_natCast, ← Real.rpow_mul hz1.le]
    norm_num
    rw [Real.rpow_neg hz1.le, Real.rpow_one, inv_mul_cancel₀ hz1.ne']
  have key : (8 / 10 * r) ^ 4 ≤ (y * w) ^ 4 := by
    have a : r ^ 4 ≤ y ^ 4 := by gcongr
    have b : r ^ 4 * (y / X3) ^ 4 ≤ y ^ 4 := by
      have : r * (y / X3) ≤ y := by
        rw [mul_div_assoc', div_le_iff₀ h3, mul_comm r y]
        gcongr
      calc r ^ 4 * (y / X3) ^ 4 = (r * (y / X3)) ^ 4 := by ring
        _ ≤ y ^ 4 := by gcongr
    have c : r ^ 4 * z ≤ 2 * y ^ 4 := by rw [hz]; linarith
    have d : r ^ 4 ≤ 2 * (y * w) ^ 4 := by
      calc r ^ 4 = r ^ 4 * z * w ^ 4 := by rw [mul_assoc, mul_comm z, hw4, mul_one]
        _ ≤ 2 * y ^ 4 * w ^ 4 := by gcongr
        _ = 2 * (y * w) ^ 4 := by ring
    have e : (8 / 10 * r) ^ 4 = 4096 / 10000 * r ^ 4 := by ring
    have f : 0 ≤ (y * w) ^ 4 := by positivity
    rw [e]
    linarith
  exact le_of_pow_le_pow_left₀ (by norm_num) (mul_nonneg hy hw0) key

/-- **The discharge of the published GR4J never exceeds the water held before the exchange**, unless the exchange coefficient is large
compared with the routing store. -/
theorem discharge_held (h3 : 0 < X3) (h4 : 0 < X4) (h2 : X2 ≤ 4 / 10 * X3) {PR : ℕ → ℝ} (hi : ∀ t, 0 ≤ PR t) (t : ℕ) :
    Doc.dischargeGR4J X2 X3 X4 PR t ≤ bookHeld X2 X3 X4 PR t + PR t := by
  have hn := bookHeld_ge (X2 := X2) h3 h4 hi (t + 1)
  have he : bookHeld X2 X3 X4 PR (t + 1) =
    bookHeld X2 X3 X4 PR t + PR t + exchangedGR4J X2 X3 X4 PR t - Doc.dischargeGR4J X2 X3 X4 PR t := rfl
  suffices hx : exchangedGR4J X2 X3 X4 PR t ≤ Doc.storeGR4J X2 X3 X4 PR (t + 1) by linarith
  obtain ⟨s1, s2⟩ := storeGR4J_bounds (X2 := X2) h3 h4 PR t
  have hq9 : 0 ≤ Doc.routed (Doc.sCurve1 X4) (fun s => 0.9 * PR s) t := by
    rw [← uh1_doc h4]
    exact buffer_nonneg _ _ (c26_partition X4 1).1.1 (fun u => by have := hi u; positivity) _ _
  have hq1 : 0 ≤ Doc.routed (Doc.sCurve2 X4) (fun s => 0.1 * PR s) t := by
    rw [← uh2_doc h4]
    exact buffer_nonneg _ _ (c26_partition X4 1).2.1.1 (fun u => by have := hi u; positivity) _ _
  have hs' := (storeGR4J_bounds (X2 := X2) h3 h4 PR (t + 1)).1
  revert hs'
  change 0 ≤ max 0 (Doc.storeGR4J X2 X3 X4 PR t + Doc.routed (Doc.sCurve1 X4) (fun s => 0.9 * PR s) t +
      Doc.exchangeGR4J X2 (Doc.storeGR4J X2 X3 X4 PR t) X3) - Doc.release _ X3 → exchangedGR4J X2 X3 X4 PR t ≤
    max 0 (Doc.storeGR4J X2 X3 X4 PR t + Doc.routed (Doc.sCurve1 X4) (fun s => 0.9 * PR s) t +
      Doc.exchangeGR4J X2 (Doc.storeGR4J X2 X3 X4 PR t) X3) - Doc.release _ X3
  unfold exchangedGR4J
  dsimp only
  set R := Doc.storeGR4J X2 X3 X4 PR t
  set Q9 := Doc.routed (Doc.sCurve1 X4) (fun s => 0.9 * PR s) t
  set Q1 := Doc.routed (Doc.sCurve2 X4) (fun s => 0.1 * PR s) t
  have hF : Doc.exchangeGR4J X2 R X3 ≤ 4 / 10 * R := by
    unfold Doc.exchangeGR4J
    have a : 0 ≤ R / X3 := div_nonneg s1 h3.le
    have b : R / X3 ≤ 1 := (div_le_one h3).2 s2
    have c : (R / X3) ^ (7 / 2 : ℝ) ≤ R / X3 := by
      rcases a.eq_or_lt with h0 | h0
      · rw [← h0, Real.zero_rpow (by norm_num)]
      · calc (R / X3) ^ (7 / 2 : ℝ) ≤ (R / X3) ^ (1 : ℝ) := Real.rpow_le_rpow_of_exponent_ge h0 b (by norm_num)
          _ = R / X3 := Real.rpow_one _
    calc X2 * (R / X3) ^ (7 / 2 : ℝ) ≤ 4 / 10 * X3 * (R / X3) ^ (7 / 2 : ℝ) := mul_le_mul_of_nonneg_right h2 (Real.rpow_nonneg a _)
      _ ≤ 4 / 10 * X3 * (R / X3) := mul_le_mul_of_nonneg_left c (by linarith)
      _ = 4 / 10 * R := by field_simp
  set F := Doc.exchangeGR4J X2 R X3
  intro hs'
  rcases _root_.le_total 0 F with h | h
  · rw [max_eq_right (by linarith), max_eq_right (by linarith)]
    have := kept_share (y := R + Q9 + F) h3 s1 s2 (by linarith)
    linarith
  · have a : max 0 (R + Q9 + F) ≤ R + Q9 := max_le (by linarith) (by linarith)
    have b : max 0 (Q1 + F) ≤ Q1 := max_le (by linarith) (by linarith)
    linarith

theorem run_book (h : FairGR4J X1 X2 X3 X4 S0 P E) (h2 : X2 ≤ 4 / 10 * X3) (hc : Clear X1 X2 X3 X4 S0 P E) (t : ℕ) :
    runGR4J X1 X2 X3 X4 S0 P E t = bookGR4J X1 X2 X3 X4 S0 P E t := by
  have hpr := runPR_book h.toFair hc
  have hi : ∀ t, 0 ≤ bookPR X1 S0 P E t := fun t => by rw [← hpr]; exact (runPR_bounds h.toFair t).1
  have hcap := discharge_held h.routing h.base h2 hi
  have hheld : ∀ t, held (bookPR X1 S0 P E) (Doc.dischargeGR4J X2 X3 X4 (bookPR X1 S0 P E)) (exchangedGR4J X2 X3 X4 (bookPR X1 S0 P E)) t =
      bookHeld X2 X3 X4 (bookPR X1 S0 P E) t := by
    intro t
    induction t with
    | zero => rfl
    | succ t ih =>
      rw [held_succ, ih, min_eq_left (hcap t),
        keep_seen (show Seen (Doc.dischargeGR4J X2 X3 X4 (bookPR X1 S0 P E) t) from hc.discharge t)]
      have hx : (if bookHeld X2 X3 X4 (bookPR X1 S0 P E) t + bookPR X1 S0 P E t ≤ 1 / 10 ^ 8 then 0
          else exchangedGR4J X2 X3 X4 (bookPR X1 S0 P E) t) = exchangedGR4J X2 X3 X4 (bookPR X1 S0 P E) t := by
        split
        · rename_i hle
          have g1 := bookHeld_ge (X2 := X2) h.routing h.base hi t
          obtain ⟨s1, -⟩ := storeGR4J_bounds (X2 := X2) h.routing h.base (bookPR X1 S0 P E) t
          have hz : Doc.storeGR4J X2 X3 X4 (bookPR X1 S0 P E) t = 0 := by
            rcases hc.held t with h0 | h0
            · linarith
            · linarith [hi t]
          have hF : Doc.exchangeGR4J X2 0 X3 = 0 := by
            unfold Doc.exchangeGR4J
            rw [zero_div, Real.zero_rpow (by norm_num), mul_zero]
          have hq9 : 0 ≤ Doc.routed (Doc.sCurve1 X4) (fun s => 0.9 * bookPR X1 S0 P E s) t := by
            rw [← uh1_doc h.base]
            exact buffer_nonneg _ _ (c26_partition X4 1).1.1 (fun u => by have := hi u; positivity) _ _
          have hq1 : 0 ≤ Doc.routed (Doc.sCurve2 X4) (fun s => 0.1 * bookPR X1 S0 P E s) t := by
            rw [← uh2_doc h.base]
            exact buffer_nonneg _ _ (c26_partition X4 1).2.1.1 (fun u => by have := hi u; positivity) _ _
          unfold exchangedGR4J
          dsimp only
          rw [hz, hF, zero_add, add_zero, add_zero, max_eq_right hq9, max_eq_right hq1]
          ring
        · rfl
      rw [hx]
      have : bookHeld X2 X3 X4 (bookPR X1 S0 P E) t + bookPR X1 S0 P E t - Doc.dischargeGR4J X2 X3 X4 (bookPR X1 S0 P E) t +
          exchangedGR4J X2 X3 X4 (bookPR X1 S0 P E) t = bookHeld X2 X3 X4 (bookPR X1 S0 P E) (t + 1) := by
        change _ = _ + _ + _ - _
        ring
      rw [this, keep_seen (hc.held (t + 1))]
  unfold runGR4J released
  dsimp only
  rw [hpr, hheld, min_eq_left (hcap t)]
  exact keep_seen (hc.discharge t)

end

/-- **C70 (the published model).**  With an exchange coefficient of at most 0.4 times the capacity of the routing store, and no amount
of the published model strictly between 0 and 1e-8 mm, the discharge of each day is exactly the published one. -/
theorem c70_gr4j_published {o : GrOpts} (hd : o.discrete = true) (hm : o.melt = none) (h6 : o.six = false) {c : PyCover} (hk : c.kind ≠ "glacier")
    (hc : Spec.GoodCovers [c]) (ho : Spec.GoodGr o) {inp : Input ℝ} (hf : Spec.FromModel (gr o [c]) inp) (ha : ∀ un ∈ inp.units, 0 ≤ un.area)
    {X1 X2 X3 X4 S0 : ℝ} {weather : ℕ → ℕ → Weather} {E : ℕ → ℕ → ℝ} (h2 : X2 ≤ 4 / 10 * X3)
    (hw : ∀ u < inp.units.length, Spec.Gr.FairGR4J X1 X2 X3 X4 S0 (fun t => (weather u t).P * (weather u t).rcf) (E u))
    (hs : ∀ u < inp.units.length, Spec.Gr.Clear X1 X2 X3 X4 S0 (fun t => (weather u t).P * (weather u t).rcf) (E u)) :
    ∃ m, build inp = .ok m ∧ ∀ (ext : ℕ → ℕ → ℝ), (∀ u < inp.units.length, ext u 0 = 1) →
      ∀ (sch : Scheme ℝ (GrHid GR4JSt)) (n : ℕ) (s : Sys ℝ (GrHid GR4JSt)), Spec.Gr.Fresh false inp X1 S0 (emptyGR4J X4) s →
      ∃ recs s', runSteps (Asm.asm inp m ext) (grLaws inp m ext "routing:gr4j" (routerGR4J ⟨X2, X3, uh1 X4, uh2 X4⟩) weather E) sch 1 grTick n s = .ok (recs, s') ∧
        recs.map (outletDischarge (Asm.asm inp m ext)) = (List.range n).map (Spec.Gr.overBasin inp fun u t =>
          Spec.Gr.bookGR4J X1 X2 X3 X4 S0 (fun t => (weather u t).P * (weather u t).rcf) (E u) t) := by
  obtain ⟨m, hb, h⟩ := c70_gr4j hd hm h6 hk hc ho hf ha hw
  refine ⟨m, hb, fun ext hext sch n s hfresh => ?_⟩
  obtain ⟨recs, s', hr, hq⟩ := h ext hext sch n s hfresh
  refine ⟨recs, s', hr, hq.trans ?_⟩
  apply List.map_congr_left
  intro t _
  unfold Spec.Gr.overBasin
  congr 1
  apply List.map_congr_left
  intro uu huu
  have hlt : uu.2 < inp.units.length := (List.getElem?_eq_some_iff.1 (List.mem_zipIdx_iff_getElem?.1 huu)).1
  dsimp only
  rw [run_book (hw uu.2 hlt) h2 (hs uu.2 hlt)]

/-! ## A large exchange is held back -/

/-- Rain on the first day only. -/
def oneDay (t : ℕ) : ℝ := if t = 0 then 13 else 0

theorem oneDay_fair : FairGR4J 1 40 1 (1 / 2) 0 oneDay (fun _ => 0) := by
  have h : ∀ t, 0 ≤ oneDay t ∧ oneDay t ≤ 13 := by
    intro t
    unfold oneDay
    split <;> norm_num
  refine ⟨⟨le_refl _, by norm_num, fun t => ⟨(h t).1, by linarith [(h t).2]⟩, fun t => by norm_num⟩, one_pos, by norm_num, fun t => ?_⟩
  rw [abs_of_pos (by norm_num)]
  linarith [(h t).2]

/-- **Finding.**  The water the groundwater exchange puts in the routing container (ProcessRoutingGR4J.cpp:112-127) is not counted by
the constraint on the discharge of the same day (WaterContainer.cpp:121-126): with a large positive exchange coefficient the discharge
is held back, here to less than 2 mm instead of more than 16 mm. -/
theorem c70_exchange_held_back :
    runGR4J 1 40 1 (1 / 2) 0 oneDay (fun _ => 0) 1 ≤ 2 ∧ 16 < bookGR4J 1 40 1 (1 / 2) 0 oneDay (fun _ => 0) 1 := by
  have hf := oneDay_fair
  have h4 : (0 : ℝ) < 1 / 2 := by norm_num
  set PR := runPR 1 0 oneDay (fun _ => 0) with hPR
  have hb := runPR_bounds hf.toFair
  rw [← hPR] at hb
  have hr : rainLeft (oneDay 0) 0 = 13 ∧ demandLeft (oneDay 0) 0 = 0 := by
    unfold rainLeft demandLeft oneDay keep
    norm_num
  have hn : netRain (oneDay 0) 0 = 13 ∧ netDemand (oneDay 0) 0 = 0 := by
    unfold netRain netDemand oneDay
    norm_num
  have heff : 12 ≤ effective 1 0 13 0 := by
    unfold effective percolated Doc.productionPR
    rw [← percolation_doc one_pos, ← infiltration_doc one_pos (le_refl 0) zero_le_one (by norm_num) (by norm_num)]
    obtain ⟨i1, -, i3⟩ := infiltration_bounds (P := 13) (S := 0) (X := 1) one_pos (le_refl 0) zero_le_one
    have he : Doc.etGR4J 0 0 1 = 0 := by simp [Doc.etGR4J]
    rw [he]
    have := (percolation_bounds (X := 1) (S := 0 + gr4jInfiltration 0 13 1 - 0) one_pos (by linarith)).1
    linarith
  have hpr0 : PR 0 = effective 1 0 13 0 := by
    change given 1 0 (rainLeft (oneDay 0) 0) (demandLeft (oneDay 0) 0) = _
    rw [hr.1, hr.2]
    exact keep_seen (.inr (by norm_num at heff ⊢; linarith))
  have hbook0 : bookPR 1 0 oneDay (fun _ => 0) 0 = effective 1 0 13 0 := by
    change effective 1 0 (netRain (oneDay 0) 0) (netDemand (oneDay 0) 0) = _
    rw [hn.1, hn.2]
  have hexch0 : ∀ X2 : ℝ, Doc.exchangeGR4J X2 0 1 = 0 := by
    intro X2
    unfold Doc.exchangeGR4J
    rw [zero_div, Real.zero_rpow (by norm_num), mul_zero]
  have ho1 : Doc.ordinate (Doc.sCurve1 (1 / 2)) 0 = 1 := by
    unfold Doc.ordinate Doc.sCurve1
    norm_num
  have ho2 : Doc.ordinate (Doc.sCurve2 (1 / 2)) 0 = 1 := by
    unfold Doc.ordinate Doc.sCurve2
    norm_num
  have hro1 : ∀ g : ℕ → ℝ, Doc.routed (Doc.sCurve1 (1 / 2)) g 0 = g 0 := by
    intro g
    unfold Doc.routed
    rw [zero_add, Finset.sum_range_one, ho1, one_mul]
  have hro2 : ∀ g : ℕ → ℝ, Doc.routed (Doc.sCurve2 (1 / 2)) g 0 = g 0 := by
    intro g
    unfold Doc.routed
    rw [zero_add, Finset.sum_range_one, ho2, one_mul]
  constructor
  · have hx : exchangedGR4J 40 1 (1 / 2) PR 0 = 0 := by
      unfold exchangedGR4J
      dsimp only
      rw [hro1, hro2]
      change max 0 (0 + 0.9 * PR 0 + Doc.exchangeGR4J 40 0 1) - (0 + 0.9 * PR 0) + (max 0 (0.1 * PR 0 + Doc.exchangeGR4J 40 0 1) - 0.1 * PR 0) = 0
      rw [hexch0, max_eq_right (by linarith [(hb 0).1]), max_eq_right (by linarith [(hb 0).1])]
      ring
    have hask : Doc.dischargeGR4J 40 1 (1 / 2) PR 0 = Doc.release (0.9 * PR 0) 1 + 0.1 * PR 0 := by
      unfold Doc.dischargeGR4J
      dsimp only
      rw [hro1, hro2]
      change Doc.release (max 0 (0 + 0.9 * PR 0 + Doc.exchangeGR4J 40 0 1)) 1 + max 0 (0.1 * PR 0 + Doc.exchangeGR4J 40 0 1) = _
      rw [hexch0, max_eq_right (by linarith [(hb 0).1]), max_eq_right (by linarith [(hb 0).1])]
      ring_nf
    have hrel := routingRelease_bounds (X3 := 1) (r := 0.9 * PR 0) one_pos (by linarith [(hb 0).1])
    rw [release_doc one_pos] at hrel
    have hheld : held PR (Doc.dischargeGR4J 40 1 (1 / 2) PR) (exchangedGR4J 40 1 (1 / 2) PR) 1 ≤ 1 := by
      rw [held_succ]
      change keep (0 + PR 0 - keep (min (Doc.dischargeGR4J 40 1 (1 / 2) PR 0) (0 + PR 0)) +
        if 0 + PR 0 ≤ 1 / 10 ^ 8 then 0 else exchangedGR4J 40 1 (1 / 2) PR 0) ≤ 1
      rw [hx, ite_self, add_zero, zero_add, min_eq_left (by rw [hask]; linarith), keep_seen (x := Doc.dischargeGR4J 40 1 (1 / 2) PR 0)
        (.inr (by rw [hask]; rw [hpr0] at hrel ⊢; norm_num at hrel ⊢; linarith)), keep_cut]
      refine le_trans (cut_le ?_) ?_
      · rw [hask]; linarith
      · rw [hask]; linarith
    unfold runGR4J released
    dsimp only
    rw [← hPR, keep_cut]
    have h1 := (hb 1).2
    have h0 := (hb 1).1
    have e : oneDay 1 = 0 := rfl
    rw [e] at h1
    have hh : 0 ≤ held PR (Doc.dischargeGR4J 40 1 (1 / 2) PR) (exchangedGR4J 40 1 (1 / 2) PR) 1 := by
      rw [held_succ, keep_cut]
      exact cut_nonneg _
    have ha := (dischargeGR4J_bounds (X2 := 40) (M := 14) one_pos h4 (fun t => ⟨(hb t).1, by
      have := (hb t).2
      have h2 : oneDay t ≤ 13 := by unfold oneDay; split <;> norm_num
      linarith⟩) 1).1
    refine le_trans (cut_le (le_min ha (by linarith))) (le_trans (min_le_right _ _) (by linarith))
  · set B := bookPR 1 0 oneDay (fun _ => 0) with hB
    have hR : 8 / 10 ≤ Doc.storeGR4J 40 1 (1 / 2) B 1 := by
      change 8 / 10 ≤ max 0 (0 + Doc.routed (Doc.sCurve1 (1 / 2)) (fun s => 0.9 * B s) 0 + Doc.exchangeGR4J 40 0 1) -
        Doc.release (max 0 (0 + Doc.routed (Doc.sCurve1 (1 / 2)) (fun s => 0.9 * B s) 0 + Doc.exchangeGR4J 40 0 1)) 1
      rw [hro1, hexch0]
      have := kept_share (X3 := 1) (y := max 0 (0 + 0.9 * B 0 + 0)) (r := 1) one_pos zero_le_one (le_refl 1)
        (le_trans (by rw [hbook0]; norm_num; linarith) (le_max_right _ _))
      linarith
    unfold bookGR4J Doc.dischargeGR4J
    dsimp only
    rw [← hB]
    set R := Doc.storeGR4J 40 1 (1 / 2) B 1 with hRd
    have hF : 40 * (4096 / 10000) ≤ Doc.exchangeGR4J 40 R 1 := by
      unfold Doc.exchangeGR4J
      have a : ((8 / 10 : ℝ)) ^ (4 : ℝ) ≤ (R / 1) ^ (7 / 2 : ℝ) := by
        calc ((8 / 10 : ℝ)) ^ (4 : ℝ) ≤ (8 / 10 : ℝ) ^ (7 / 2 : ℝ) :=
              Real.rpow_le_rpow_of_exponent_ge (by norm_num) (by norm_num) (by norm_num)
          _ ≤ (R / 1) ^ (7 / 2 : ℝ) := Real.rpow_le_rpow (by norm_num) (by rw [div_one]; exact hR) (by norm_num)
      have b : ((8 / 10 : ℝ)) ^ (4 : ℝ) = 4096 / 10000 := by
        rw [show (4 : ℝ) = ((4 : ℕ) : ℝ) by norm_num, Real.rpow_natCast]
        norm_num
      rw [b] at a
      linarith
    have hq1 : 0 ≤ Doc.routed (Doc.sCurve2 (1 / 2)) (fun s => 0.1 * B s) 1 := by
      have hB1 : 0 ≤ B 1 := by
        have hlev : 0 ≤ bookLevel 1 0 oneDay (fun _ => 0) 1 ∧ bookLevel 1 0 oneDay (fun _ => 0) 1 ≤ 1 := by
          change 0 ≤ 0 + Doc.infiltrationGR4J (netRain (oneDay 0) 0) 0 1 - Doc.etGR4J 0 (netDemand (oneDay 0) 0) 1 - percolated 1 0 (netRain (oneDay 0) 0) (netDemand (oneDay 0) 0) ∧
            0 + Doc.infiltrationGR4J (netRain (oneDay 0) 0) 0 1 - Doc.etGR4J 0 (netDemand (oneDay 0) 0) 1 - percolated 1 0 (netRain (oneDay 0) 0) (netDemand (oneDay 0) 0) ≤ 1
          rw [hn.1, hn.2]
          unfold percolated
          rw [← percolation_doc one_pos, ← infiltration_doc one_pos (le_refl 0) zero_le_one (by norm_num) (by norm_num)]
          obtain ⟨i1, -, i3⟩ := infiltration_bounds (P := 13) (S := 0) (X := 1) one_pos (le_refl 0) zero_le_one
          have he : Doc.etGR4J 0 0 1 = 0 := by simp [Doc.etGR4J]
          rw [he]
          have := percolation_bounds (X := 1) (S := 0 + gr4jInfiltration 0 13 1 - 0) one_pos (by linarith)
          constructor <;> linarith [this.1, this.2]
        change 0 ≤ effective 1 (bookLevel 1 0 oneDay (fun _ => 0) 1) (netRain (oneDay 1) 0) (netDemand (oneDay 1) 0)
        have e1 : netRain (oneDay 1) 0 = 0 := by simp [netRain, oneDay]
        have e2 : netDemand (oneDay 1) 0 = 0 := by simp [netDemand, oneDay]
        rw [e1, e2]
        unfold effective percolated Doc.productionPR
        have he : ∀ S : ℝ, Doc.etGR4J S 0 1 = 0 := by intro S; simp [Doc.etGR4J]
        have hi : ∀ S : ℝ, Doc.infiltrationGR4J 0 S 1 = 0 := by intro S; simp [Doc.infiltrationGR4J]
        rw [he, hi, ← percolation_doc one_pos]
        have := (percolation_bounds (X := 1) (S := bookLevel 1 0 oneDay (fun _ => 0) 1 + 0 - 0) one_pos (by linarith [hlev.1])).1
        linarith
      have hB0 : 0 ≤ B 0 := by rw [hbook0]; linarith
      have hmono : ∀ k : ℕ, 0 ≤ Doc.ordinate (Doc.sCurve2 (1 / 2)) k := by
        intro k
        unfold Doc.ordinate
        rw [← sh2_doc h4, ← sh2_doc h4]
        linarith [sh2_mono h4 (show (k : ℝ) ≤ k + 1 by linarith)]
      unfold Doc.routed
      refine Finset.sum_nonneg fun k _ => mul_nonneg (hmono k) ?_
      have : 1 - k = 0 ∨ 1 - k = 1 := by omega
      rcases this with e | e <;> rw [e] <;> linarith
    have hrel := (release_bounds (X3 := 1) one_pos (le_max_left 0 (R + Doc.routed (Doc.sCurve1 (1 / 2)) (fun s => 0.9 * B s) 1 + Doc.exchangeGR4J 40 R 1))).1
    have hm := le_max_right 0 (Doc.routed (Doc.sCurve2 (1 / 2)) (fun s => 0.1 * B s) 1 + Doc.exchangeGR4J 40 R 1)
    linarith

end

end HB
