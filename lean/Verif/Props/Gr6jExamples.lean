import Verif.Props.Gr6jNear
import Verif.Props.Gr4jExamples

/-!
# C70: a basin of two units with GR6J
-/

set_option linter.unusedSectionVars false

namespace HB.Gr6jDemo

open HB.Wire HB.Spec.Gr HB.PreDemo HB.Gr4jDemo

noncomputable section

/-- Default options of GR6J: discrete, without snow. -/
def opts6 : GrOpts := { six := true }

theorem opts6_good : Spec.GoodGr opts6 := by
  refine ⟨?_, ?_, ?_, by decide⟩ <;> (intro p hp; cases hp)

/-- Two units, of 2 and 3 km². -/
def basin6 : Input ℝ :=
  ⟨((gr opts6 [land]).head?.map strOf).getD {}, [(0, 2), (0, 3)].map fun u => ⟨((gr opts6 [land])[u.1]?.map strOf).getD {}, u.2, []⟩⟩

theorem basin6_from : Spec.FromModel (gr opts6 [land]) basin6 := by
  have hok : ∀ v ∈ gr opts6 [land], (match generateOne v with | .ok _ => true | .error _ => false) = true := by decide +kernel
  obtain ⟨v, hv⟩ : ∃ v, gr opts6 [land] = [v] := ⟨_, rfl⟩
  obtain ⟨a, ha, hs⟩ := generate_of (hok v (by rw [hv]; exact List.mem_singleton_self v))
  refine ⟨⟨v, a, by rw [hv]; rfl, ha, ?_⟩, ?_⟩
  · unfold basin6
    rw [hv]
    exact hs
  · intro un hun
    refine ⟨v, by rw [hv]; exact List.mem_singleton_self v, a, ha, ?_⟩
    unfold basin6 at hun
    rw [hv] at hun
    simp only [List.map_cons, List.map_nil, List.mem_cons, List.not_mem_nil, or_false] at hun
    rcases hun with rfl | rfl <;> exact hs

theorem basin6_areas : ∀ un ∈ basin6.units, 0 ≤ un.area := by
  intro un hun
  simp only [basin6, List.map_cons, List.map_nil, List.mem_cons, List.not_mem_nil, or_false] at hun
  rcases hun with rfl | rfl <;> norm_num

open Classical in
/-- The initial state: the containers of the routing may be negative. -/
def start6 (X1 X4 : ℝ) : Sys ℝ (GrHid GR6JSt) where
  ph := { cont := fun k => if ∃ u, k = Asm.contId (.unitBrick u 1) .water then ⟨1 / 2, 0, 0, 1 / 2, some X1, false, false⟩
            else ⟨0, 0, 0, 0, none, false, if ∃ u, k = Asm.contId (.unitBrick u 2) .water then true else false⟩
          amt := fun _ => 0, snap := fun _ => 0, exch := fun _ => 0 }
  rate := fun _ => none
  hid := ⟨0, fun _ => none, fun _ => emptyGR6J X4⟩

theorem start6_fresh (X1 X4 : ℝ) : Fresh true basin6 X1 (1 / 2) (emptyGR6J X4) (start6 X1 X4) := by
  refine ⟨rfl, fun _ => rfl, fun _ => rfl, ?_⟩
  obtain ⟨m, hm⟩ := isGr_of (o := opts6) rfl rfl (c := land) (by decide) land_good opts6_good basin6_from
  intro u un i b hu hb
  rw [hm.units un (List.mem_of_getElem? hu)] at hb
  have hi : ∀ j k : ℕ, (∃ v, Asm.contId (.unitBrick u j) .water = Asm.contId (.unitBrick v k) .water) ↔ j = k := by
    intro j k
    constructor
    · rintro ⟨v, e⟩
      have := (Asm.contId_inj (c := .unitBrick u j) (c' := .unitBrick v k) trivial trivial e).1
      simp only [Comp.unitBrick.injEq] at this
      exact this.2
    · rintro rfl
      exact ⟨u, rfl⟩
  have hlt : i < 3 := (List.getElem?_eq_some_iff.1 hb).1
  unfold start6
  dsimp only
  rcases (by omega : i = 0 ∨ i = 1 ∨ i = 2) with rfl | rfl | rfl
  · simp only [grStruct, List.getElem?_cons_zero, Option.some.injEq] at hb
    subst hb
    rw [if_neg (fun h => absurd ((hi 0 1).1 h) (by decide)), if_neg (show ¬ (land.name = "production_store") by decide), Bool.and_true]
    rw [if_neg (fun h => absurd ((hi 0 2).1 h) (by decide))]
    rfl
  · simp only [grStruct, List.getElem?_cons_zero, List.getElem?_cons_succ, Option.some.injEq] at hb
    subst hb
    rw [if_pos ((hi 1 1).2 rfl), if_pos rfl]
  · simp only [grStruct, List.getElem?_cons_zero, List.getElem?_cons_succ, Option.some.injEq] at hb
    subst hb
    rw [if_neg (fun h => absurd ((hi 2 1).1 h) (by decide)), if_neg (show ¬ ("uh_input" = "production_store") by decide), Bool.and_true]
    rw [if_pos ((hi 2 2).2 rfl)]
    rfl

theorem showers_fair6 : FairGR6J 350 0 90 (17 / 10) 0 5 (1 / 2) (fun t => if t % 3 = 0 then 12 else 0) (fun _ => 2) := by
  have h : ∀ t : ℕ, (0 : ℝ) ≤ (if t % 3 = 0 then 12 else 0) ∧ (if t % 3 = 0 then (12 : ℝ) else 0) ≤ 12 := by
    intro t
    split <;> norm_num
  refine ⟨⟨by norm_num, by norm_num, fun t => ⟨(h t).1, by linarith [(h t).2]⟩, fun t => by norm_num⟩, by norm_num, by norm_num, by norm_num, fun t => ?_⟩
  simp only [abs_zero]
  linarith [(h t).2]

/-- Ten years of showers with GR6J: the discharge stays within 0.02 mm of the published GR6J. -/
theorem showers_decade (sch : Scheme ℝ (GrHid GR6JSt)) :
    ∃ m, build basin6 = .ok m ∧ ∃ recs s',
    runSteps (Asm.asm basin6 m fun _ _ => 1) (grLaws basin6 m (fun _ _ => 1) "routing:gr6j" (routerGR6J ⟨0, 90, 0, 5, uh1 (17 / 10), uh2 (17 / 10)⟩) showers fun _ _ => 2)
      sch 1 grTick 3652 (start6 350 (17 / 10)) = .ok (recs, s') ∧ recs.length = 3652 ∧
    ∀ (t : ℕ) (Q : ℝ), (recs.map (outletDischarge (Asm.asm basin6 m fun _ _ => 1)))[t]? = some Q →
      |Q - overBasin basin6 (fun _ t => bookGR6J (fun R => 5 * Real.log (1 + Real.exp (R / 5))) 350 0 90 (17 / 10) 0 (1 / 2)
        (fun t => if t % 3 = 0 then 12 else 0) (fun _ => 2) t) t| ≤ 2 / 100 := by
  obtain ⟨m, hb, h⟩ := c70_gr6j_close (o := opts6) rfl rfl rfl (c := land) (by decide) land_good opts6_good basin6_from basin6_areas
    (fun h => by cases h)
    (X1 := 350) (X2 := 0) (X3 := 90) (X4 := 17 / 10) (X5 := 0) (X6 := 5) (S0 := 1 / 2) (weather := showers) (E := fun _ _ => 2) (by norm_num)
    (fun u _ => by rw [showers_rain]; exact showers_fair6)
  obtain ⟨recs, s', hr, hl, hq⟩ := h (fun _ _ => 1) (fun _ _ => rfl) sch 3652 _ (start6_fresh _ _)
  refine ⟨m, hb, recs, s', hr, hl, fun t Q hQ => ?_⟩
  have ht : t < 3652 := by
    have := (List.getElem?_eq_some_iff.1 hQ).1
    rwa [List.length_map, hl] at this
  have h1 := hq t Q hQ
  simp only [showers_rain] at h1
  refine le_trans h1 ?_
  rw [max_self, zero_div, add_zero, one_pow, abs_zero, zero_div, zero_mul, add_zero]
  have : (t : ℝ) + 1 ≤ 3652 := by exact_mod_cast ht
  rw [mul_one, mul_one, ← le_sub_iff_add_le, div_le_iff₀ (by norm_num)]
  linarith

end

end HB.Gr6jDemo
