import Verif.Props.Gr4jNear
import Verif.Props.PredefinedExamples

/-!
# C70: a basin of two units under steady rain meets the hypotheses
-/

set_option linter.unusedSectionVars false

namespace HB.Gr4jDemo

open HB.Wire HB.Spec.Gr HB.PreDemo

noncomputable section

/-- Default options: discrete GR4J without snow. -/
def opts : GrOpts := {}

/-- The land cover. -/
def land : PyCover := ⟨"open", "open"⟩

theorem land_good : Spec.GoodCovers [land] := good_of (by decide +kernel)

theorem opts_good : Spec.GoodGr opts := by
  refine ⟨?_, ?_, ?_, by decide⟩ <;> (intro p hp; cases hp)

/-- Two units, of 2 and 3 km². -/
def basin : Input ℝ :=
  ⟨((gr opts [land]).head?.map strOf).getD {}, [(0, 2), (0, 3)].map fun u => ⟨((gr opts [land])[u.1]?.map strOf).getD {}, u.2, []⟩⟩

theorem basin_from : Spec.FromModel (gr opts [land]) basin := by
  have hok : ∀ v ∈ gr opts [land], (match generateOne v with | .ok _ => true | .error _ => false) = true := by decide +kernel
  obtain ⟨v, hv⟩ : ∃ v, gr opts [land] = [v] := ⟨_, rfl⟩
  obtain ⟨a, ha, hs⟩ := generate_of (hok v (by rw [hv]; exact List.mem_singleton_self v))
  refine ⟨⟨v, a, by rw [hv]; rfl, ha, ?_⟩, ?_⟩
  · unfold basin
    rw [hv]
    exact hs
  · intro un hun
    refine ⟨v, by rw [hv]; exact List.mem_singleton_self v, a, ha, ?_⟩
    unfold basin at hun
    rw [hv] at hun
    simp only [List.map_cons, List.map_nil, List.mem_cons, List.not_mem_nil, or_false] at hun
    rcases hun with rfl | rfl <;> exact hs

theorem basin_areas : ∀ un ∈ basin.units, 0 ≤ un.area := by
  intro un hun
  simp only [basin, List.map_cons, List.map_nil, List.mem_cons, List.not_mem_nil, or_false] at hun
  rcases hun with rfl | rfl <;> norm_num

/-- Steady rain, in both units. -/
def steady (_ _ : ℕ) : Weather := ⟨13, 10, 10, 10, 0, 0, 0, 2, 1, 1⟩

/-- No evapotranspiration. -/
def calm (_ _ : ℕ) : ℝ := 0

theorem steady_rain (u : ℕ) : (fun t => (steady u t).P * (steady u t).rcf) = fun _ => 13 := by
  funext t
  simp [steady]

theorem steady_fair : FairGR4J 1 0 1 (1 / 2) (1 / 2) (fun _ => 13) (fun _ => 0) :=
  ⟨⟨le_refl _, by norm_num, fun t => by norm_num, fun t => by norm_num⟩, one_pos, by norm_num, fun t => by norm_num⟩

theorem ordinate_half : Doc.ordinate (Doc.sCurve1 (1 / 2)) 0 = 1 ∧ Doc.ordinate (Doc.sCurve2 (1 / 2)) 0 = 1 := by
  constructor
  · unfold Doc.ordinate Doc.sCurve1
    norm_num
  · unfold Doc.ordinate Doc.sCurve2
    norm_num

theorem calm_et (S : ℝ) : Doc.etGR4J S 0 1 = 0 := by simp [Doc.etGR4J]

theorem steady_net : netRain 13 0 = 13 ∧ netDemand 13 0 = 0 := by
  unfold netRain netDemand
  norm_num

theorem perc_kept {S : ℝ} (h0 : 0 ≤ S) (h1 : S ≤ 1) : 8 / 10 * S ≤ S - Doc.percolationGR4J S 1 := by
  have := kept_share (X3 := 9 / 4) (y := S) (r := S) (by norm_num) h0 (by linarith) (le_refl S)
  have e : Doc.percolationGR4J S 1 = Doc.release S (9 / 4) := by
    unfold Doc.percolationGR4J Doc.release
    congr 4
    field_simp
  rw [e]
  exact this

theorem tanh_half : (1 / 2 : ℝ) ≤ Real.tanh 13 := by
  rw [Real.tanh_eq_sinh_div_cosh, le_div_iff₀ (Real.cosh_pos 13), Real.sinh_eq, Real.cosh_eq]
  have h1 : Real.exp (-13) ≤ 1 := Real.exp_le_one_iff.2 (by norm_num)
  have h2 : (14 : ℝ) ≤ Real.exp 13 := by
    have := Real.add_one_le_exp (13 : ℝ)
    linarith
  linarith

theorem steady_step {S : ℝ} (h0 : 0 ≤ S) (h1 : S ≤ 1) :
    (4 / 10 ≤ S + Doc.infiltrationGR4J 13 S 1 - Doc.etGR4J S 0 1 - percolated 1 S 13 0 ∧
      S + Doc.infiltrationGR4J 13 S 1 - Doc.etGR4J S 0 1 - percolated 1 S 13 0 ≤ 1) ∧ 12 ≤ effective 1 S 13 0 := by
  have hi := infiltration_doc (X1 := 1) (S := S) (Pn := 13) one_pos h0 h1 (by norm_num) (by norm_num)
  obtain ⟨i1, -, i3⟩ := infiltration_bounds (P := 13) (S := S) (X := 1) one_pos h0 h1
  rw [hi] at i1 i3
  have hlow : 1 / 2 ≤ S + Doc.infiltrationGR4J 13 S 1 := by
    have ht := tanh_half
    have hd : 0 < 1 + S * Real.tanh 13 := by
      have := mul_nonneg h0 (by linarith : 0 ≤ Real.tanh 13)
      linarith
    have e : S + Doc.infiltrationGR4J 13 S 1 = (S + Real.tanh 13) / (1 + S * Real.tanh 13) := by
      unfold Doc.infiltrationGR4J
      rw [eq_div_iff hd.ne']
      simp only [div_one]
      field_simp
      ring
    rw [e, le_div_iff₀ hd]
    nlinarith [Real.tanh_lt_one 13]
  unfold effective percolated Doc.productionPR
  rw [calm_et, sub_zero]
  have hp := perc_kept (S := S + Doc.infiltrationGR4J 13 S 1) (by linarith) i3
  obtain ⟨p1, -⟩ := percolation_bounds (X := 1) (S := S + Doc.infiltrationGR4J 13 S 1) one_pos (by linarith)
  rw [percolation_doc one_pos] at p1
  refine ⟨⟨?_, ?_⟩, ?_⟩ <;> linarith

theorem steady_levels (t : ℕ) : 4 / 10 ≤ bookLevel 1 (1 / 2) (fun _ => 13) (fun _ => 0) t ∧ bookLevel 1 (1 / 2) (fun _ => 13) (fun _ => 0) t ≤ 1 := by
  induction t with
  | zero => constructor <;> (change _ ≤ _; norm_num [bookLevel])
  | succ t ih =>
    have := (steady_step (by linarith [ih.1]) ih.2).1
    unfold bookLevel
    dsimp only
    rw [steady_net.1, steady_net.2]
    exact this

theorem steady_PR (t : ℕ) : 12 ≤ bookPR 1 (1 / 2) (fun _ => 13) (fun _ => 0) t := by
  unfold bookPR
  rw [steady_net.1, steady_net.2]
  exact (steady_step (by linarith [(steady_levels t).1]) (steady_levels t).2).2

theorem routed_ge {S : ℝ → ℝ} (hS : ∀ k : ℕ, 0 ≤ Doc.ordinate S k) (h0 : Doc.ordinate S 0 = 1) {g : ℕ → ℝ} (hg : ∀ t, 0 ≤ g t) (t : ℕ) :
    g t ≤ Doc.routed S g t := by
  unfold Doc.routed
  have := Finset.single_le_sum (f := fun k => Doc.ordinate S k * g (t - k)) (s := Finset.range (t + 1))
    (fun k _ => mul_nonneg (hS k) (hg _)) (Finset.mem_range.2 (Nat.succ_pos t))
  simpa [h0] using this

/-- Under steady rain no amount is small. -/
theorem steady_clear : Clear 1 0 1 (1 / 2) (1 / 2) (fun _ => 13) (fun _ => 0) := by
  have h4 : (0 : ℝ) < 1 / 2 := by norm_num
  have big : ∀ {x c : ℝ}, c ≤ x → 1 / 10 ^ 8 < c → Seen x := fun h1 h2 => .inr (lt_of_lt_of_le h2 h1)
  have m1 : ∀ k : ℕ, 0 ≤ Doc.ordinate (Doc.sCurve1 (1 / 2)) k := by
    intro k
    unfold Doc.ordinate
    rw [← sh1_doc h4, ← sh1_doc h4]
    linarith [sh1_mono h4 (show (k : ℝ) ≤ k + 1 by linarith)]
  have m2 : ∀ k : ℕ, 0 ≤ Doc.ordinate (Doc.sCurve2 (1 / 2)) k := by
    intro k
    unfold Doc.ordinate
    rw [← sh2_doc h4, ← sh2_doc h4]
    linarith [sh2_mono h4 (show (k : ℝ) ≤ k + 1 by linarith)]
  set PR := bookPR 1 (1 / 2) (fun _ => 13) (fun _ => 0) with hPR
  have hp : ∀ t, 12 ≤ PR t := steady_PR
  have hp0 : ∀ t, 0 ≤ PR t := fun t => by linarith [hp t]
  have q1 := routed_ge m1 ordinate_half.1 (g := fun s => 0.9 * PR s) (fun t => by linarith [hp t])
  have q2 := routed_ge m2 ordinate_half.2 (g := fun s => 0.1 * PR s) (fun t => by linarith [hp t])
  have hF : ∀ R : ℝ, Doc.exchangeGR4J 0 R 1 = 0 := by
    intro R
    unfold Doc.exchangeGR4J
    rw [zero_mul]
  refine ⟨fun _ => big (c := 13) (le_refl _) (by norm_num), fun _ => .inl rfl, fun _ => ?_, fun t => big (steady_levels t).1 (by norm_num), fun t => ?_,
    fun t => big (steady_PR t) (by norm_num), fun t => ?_, fun t => ?_⟩
  · rw [steady_net.1]
    exact big (c := 13) (le_refl _) (by norm_num)
  · left
    rw [steady_net.2, calm_et]
  · cases t with
    | zero => exact .inl rfl
    | succ t =>
      refine big (c := 8 / 10) (le_trans ?_ (bookHeld_ge one_pos h4 hp0 (t + 1))) (by norm_num)
      obtain ⟨s1, -⟩ := storeGR4J_bounds (X2 := 0) (X3 := 1) (X4 := 1 / 2) one_pos h4 PR t
      have := kept_share (X3 := 1) (y := max 0 (Doc.storeGR4J 0 1 (1 / 2) PR t + Doc.routed (Doc.sCurve1 (1 / 2)) (fun s => 0.9 * PR s) t +
        Doc.exchangeGR4J 0 (Doc.storeGR4J 0 1 (1 / 2) PR t) 1)) (r := 1) one_pos zero_le_one (le_refl 1)
        (le_trans (by rw [hF]; linarith [q1 t, hp t]) (le_max_right _ _))
      unfold Doc.storeGR4J
      dsimp only
      linarith
  · unfold bookGR4J Doc.dischargeGR4J
    dsimp only
    rw [← hPR]
    refine big (c := 1) ?_ (by norm_num)
    have a := (release_bounds (X3 := 1) one_pos (le_max_left 0 (Doc.storeGR4J 0 1 (1 / 2) PR t + Doc.routed (Doc.sCurve1 (1 / 2)) (fun s => 0.9 * PR s) t +
        Doc.exchangeGR4J 0 (Doc.storeGR4J 0 1 (1 / 2) PR t) 1))).1
    have b := le_max_right 0 (Doc.routed (Doc.sCurve2 (1 / 2)) (fun s => 0.1 * PR s) t + Doc.exchangeGR4J 0 (Doc.storeGR4J 0 1 (1 / 2) PR t) 1)
    rw [hF] at a b ⊢
    linarith [q2 t, hp t]

open Classical in
/-- The initial state, for a capacity of the production store and a time base. -/
def start (X1 X4 : ℝ) : Sys ℝ (GrHid GR4JSt) where
  ph := { cont := fun k => if ∃ u, k = Asm.contId (.unitBrick u 1) .water then ⟨1 / 2, 0, 0, 1 / 2, some X1, false, false⟩ else ⟨0, 0, 0, 0, none, false, false⟩
          amt := fun _ => 0, snap := fun _ => 0, exch := fun _ => 0 }
  rate := fun _ => none
  hid := ⟨0, fun _ => none, fun _ => emptyGR4J X4⟩

theorem start_fresh (X1 X4 : ℝ) : Fresh false basin X1 (1 / 2) (emptyGR4J X4) (start X1 X4) := by
  refine ⟨rfl, fun _ => rfl, fun _ => rfl, ?_⟩
  obtain ⟨m, hm⟩ := isGr_of (o := opts) rfl rfl (c := land) (by decide) land_good opts_good basin_from
  intro u un i b hu hb
  rw [hm.units un (List.mem_of_getElem? hu)] at hb
  have hi : ∀ j : ℕ, (∃ v, Asm.contId (.unitBrick u j) .water = Asm.contId (.unitBrick v 1) .water) ↔ j = 1 := by
    intro j
    constructor
    · rintro ⟨v, e⟩
      have := (Asm.contId_inj (c := .unitBrick u j) (c' := .unitBrick v 1) trivial trivial e).1
      simp only [Comp.unitBrick.injEq] at this
      exact this.2
    · rintro rfl
      exact ⟨u, rfl⟩
  have hlt : i < 3 := (List.getElem?_eq_some_iff.1 hb).1
  unfold start
  dsimp only
  rcases (by omega : i = 0 ∨ i = 1 ∨ i = 2) with rfl | rfl | rfl
  · simp only [grStruct, List.getElem?_cons_zero, Option.some.injEq] at hb
    subst hb
    rw [if_neg (fun h => absurd ((hi 0).1 h) (by decide)), if_neg (show ¬ (land.name = "production_store") by decide), Bool.and_false]
  · simp only [grStruct, List.getElem?_cons_zero, List.getElem?_cons_succ, Option.some.injEq] at hb
    subst hb
    rw [if_pos ((hi 1).2 rfl), if_pos rfl]
  · simp only [grStruct, List.getElem?_cons_zero, List.getElem?_cons_succ, Option.some.injEq] at hb
    subst hb
    rw [if_neg (fun h => absurd ((hi 2).1 h) (by decide)), if_neg (show ¬ ("uh_input" = "production_store") by decide), Bool.and_false]

/-- The basin under steady rain discharges what the published GR4J gives, for as long as one likes. -/
theorem steady_run (sch : Scheme ℝ (GrHid GR4JSt)) (n : ℕ) : ∃ m, build basin = .ok m ∧ ∃ recs s',
    runSteps (Asm.asm basin m fun _ _ => 1) (grLaws basin m (fun _ _ => 1) "routing:gr4j" (routerGR4J ⟨0, 1, uh1 (1 / 2), uh2 (1 / 2)⟩) steady calm)
      sch 1 grTick n (start 1 (1 / 2)) = .ok (recs, s') ∧
    recs.map (outletDischarge (Asm.asm basin m fun _ _ => 1)) = (List.range n).map (overBasin basin fun _ t =>
      bookGR4J 1 0 1 (1 / 2) (1 / 2) (fun _ => 13) (fun _ => 0) t) := by
  obtain ⟨m, hb, h⟩ := c70_gr4j_published (o := opts) rfl rfl rfl (c := land) (by decide) land_good opts_good basin_from basin_areas
    (X1 := 1) (X2 := 0) (X3 := 1) (X4 := 1 / 2) (S0 := 1 / 2) (weather := steady) (E := calm) (by norm_num)
    (fun u _ => by rw [steady_rain]; exact steady_fair) (fun u _ => by rw [steady_rain]; exact steady_clear)
  obtain ⟨recs, s', hr, hq⟩ := h (fun _ _ => 1) (fun _ _ => rfl) sch n _ (start_fresh _ _)
  refine ⟨m, hb, recs, s', hr, ?_⟩
  rw [hq]
  simp only [steady_rain]
  rfl

/-- The mean over the two units is the discharge of one, as they have the same weather. -/
theorem steady_mean (t : ℕ) : overBasin basin (fun _ t => bookGR4J 1 0 1 (1 / 2) (1 / 2) (fun _ => 13) (fun _ => 0) t) t =
    bookGR4J 1 0 1 (1 / 2) (1 / 2) (fun _ => 13) (fun _ => 0) t := by
  unfold overBasin Spec.basinArea basin
  simp only [List.map_cons, List.map_nil, List.zipIdx_cons, List.zipIdx_nil, List.sum_cons, List.sum_nil]
  ring

/-! ## Showers and dry spells, water lost to the groundwater -/

/-- 12 mm every third day. -/
def showers (_ t : ℕ) : Weather := { steady 0 0 with P := if t % 3 = 0 then 12 else 0 }

theorem showers_rain (u : ℕ) : (fun t => (showers u t).P * (showers u t).rcf) = fun t => if t % 3 = 0 then 12 else 0 := by
  funext t
  simp [showers, steady]

theorem showers_fair : FairGR4J 350 (-1) 90 (17 / 10) (1 / 2) (fun t => if t % 3 = 0 then 12 else 0) (fun _ => 2) := by
  have h : ∀ t : ℕ, (0 : ℝ) ≤ (if t % 3 = 0 then 12 else 0) ∧ (if t % 3 = 0 then (12 : ℝ) else 0) ≤ 12 := by
    intro t
    split <;> norm_num
  refine ⟨⟨by norm_num, by norm_num, fun t => ⟨(h t).1, by linarith [(h t).2]⟩, fun t => by norm_num⟩, by norm_num, by norm_num, fun t => ?_⟩
  rw [abs_neg, abs_one]
  linarith [(h t).2]

/-- A century of showers: the discharge stays within 0.009 mm of the published GR4J. -/
theorem showers_century (sch : Scheme ℝ (GrHid GR4JSt)) :
    ∃ m, build basin = .ok m ∧ ∃ recs s',
    runSteps (Asm.asm basin m fun _ _ => 1) (grLaws basin m (fun _ _ => 1) "routing:gr4j" (routerGR4J ⟨-1, 90, uh1 (17 / 10), uh2 (17 / 10)⟩) showers fun _ _ => 2)
      sch 1 grTick 36525 (start 350 (17 / 10)) = .ok (recs, s') ∧ recs.length = 36525 ∧
    ∀ (t : ℕ) (Q : ℝ), (recs.map (outletDischarge (Asm.asm basin m fun _ _ => 1)))[t]? = some Q →
      |Q - overBasin basin (fun _ t => bookGR4J 350 (-1) 90 (17 / 10) (1 / 2) (fun t => if t % 3 = 0 then 12 else 0) (fun _ => 2) t) t| ≤ 9 / 1000 := by
  obtain ⟨m, hb, h⟩ := c70_gr4j_close (o := opts) rfl rfl rfl (c := land) (by decide) land_good opts_good basin_from basin_areas
    (X1 := 350) (X2 := -1) (X3 := 90) (X4 := 17 / 10) (S0 := 1 / 2) (weather := showers) (E := fun _ _ => 2) (by norm_num) (by norm_num)
    (fun u _ => by rw [showers_rain]; exact showers_fair)
  obtain ⟨recs, s', hr, hl, hq⟩ := h (fun _ _ => 1) (fun _ _ => rfl) sch 36525 _ (start_fresh _ _)
  refine ⟨m, hb, recs, s', hr, hl, fun t Q hQ => ?_⟩
  have ht : t < 36525 := by
    have := (List.getElem?_eq_some_iff.1 hQ).1
    rwa [List.length_map, hl] at this
  have h1 := hq t Q hQ
  simp only [showers_rain] at h1
  refine le_trans h1 ?_
  rw [max_eq_left (by norm_num), zero_div, mul_zero, add_zero, one_pow, mul_one]
  have : (t : ℝ) + 1 ≤ 36525 := by exact_mod_cast ht
  rw [div_le_iff₀ (by norm_num)]
  linarith

end

end HB.Gr4jDemo
