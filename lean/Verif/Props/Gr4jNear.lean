import Verif.Props.Gr4jSmooth

/-!
# C70: how far the run can be from the published model

No assumption on the size of the amounts: the cuts of 1e-8 mm and the constraint on the discharge add up to at most a multiple of
1e-8 mm a day.
-/

set_option linter.unusedSectionVars false

namespace HB

open Spec.Gr Wire

noncomputable section

/-! ## Cuts -/

/-- The threshold. -/
def eps : ℝ := 1 / 10 ^ 8

theorem eps_pos : 0 < eps := by unfold eps; norm_num

theorem keep_def (x : ℝ) : keep x = if x ≤ eps then 0 else x := rfl

theorem keep_near {x : ℝ} (h : 0 ≤ x) : 0 ≤ x - keep x ∧ x - keep x ≤ eps ∧ 0 ≤ keep x := by
  have := eps_pos
  rw [keep_def]
  split
  · exact ⟨by linarith, by linarith, le_refl 0⟩
  · exact ⟨by linarith, by linarith, h⟩

theorem keep_nonneg (x : ℝ) : 0 ≤ keep x := by
  have := eps_pos
  rw [keep_def]
  split
  · exact le_refl 0
  · linarith

theorem rainLeft_near {P E : ℝ} (hP : 0 ≤ P) (hE : 0 ≤ E) : |rainLeft P E - netRain P E| ≤ eps := by
  have he := eps_pos
  unfold rainLeft netRain
  rw [keep_def (min P E)]
  split
  · rename_i h
    rw [sub_zero]
    obtain ⟨a, b, c⟩ := keep_near hP
    rcases _root_.le_total P E with h1 | h1
    · rw [max_eq_left (by linarith), sub_zero, abs_of_nonneg c]
      rw [min_eq_left h1] at h
      linarith
    · rw [max_eq_right (by linarith)]
      rw [min_eq_right h1] at h
      rw [abs_le]
      constructor
      · rw [keep_def] at a b ⊢
        split at * <;> linarith
      · linarith
  · rename_i h
    have e : P - min P E = max 0 (P - E) := by
      rcases _root_.le_total P E with h1 | h1
      · rw [min_eq_left h1, max_eq_left (by linarith), sub_self]
      · rw [min_eq_right h1, max_eq_right (by linarith)]
    rw [e, abs_sub_comm]
    obtain ⟨a, b, -⟩ := keep_near (le_max_left 0 (P - E))
    rw [abs_of_nonneg a]
    exact b

theorem demandLeft_near {P E : ℝ} (hP : 0 ≤ P) (hE : 0 ≤ E) : |demandLeft P E - netDemand P E| ≤ eps := by
  have he := eps_pos
  unfold demandLeft netDemand
  have e : (1 / 10 ^ 8 : ℝ) = eps := rfl
  rw [e]
  split
  · rename_i h
    rcases _root_.le_total P E with h1 | h1
    · rw [max_eq_right (by linarith), abs_of_nonneg (by linarith)]; linarith
    · rw [max_eq_left (by linarith), sub_zero, abs_of_nonneg hE]; linarith
  · rw [sub_self, abs_zero]; exact he.le

/-! ## A day of the production store -/

/-- Level after the day. -/
def dayLevel (X1 S Pn En : ℝ) : ℝ := S + Doc.infiltrationGR4J Pn S X1 - Doc.etGR4J S En X1 - percolated X1 S Pn En

section
variable {X1 S S' Pn Pn' En En' : ℝ}

theorem day_split (X1 S Pn En : ℝ) : dayLevel X1 S Pn En + effective X1 S Pn En = S + Pn - Doc.etGR4J S En X1 := by
  unfold dayLevel effective Doc.productionPR
  ring

theorem fill {X1 S : ℝ} (hX : 0 < X1) (hS : 0 ≤ S) (hSX : S ≤ X1) : 0 ≤ S / X1 ∧ S / X1 ≤ 1 :=
  ⟨div_nonneg hS hX.le, (div_le_one hX).2 hSX⟩

theorem force {X1 p : ℝ} (hX : 0 < X1) (h : 0 ≤ p) : 0 ≤ Real.tanh (p / X1) ∧ Real.tanh (p / X1) ≤ 1 := tanh_unit (div_nonneg h hX.le)

theorem force_lip {X1 p p' : ℝ} (hX : 0 < X1) (h0 : 0 ≤ p) (h : p ≤ p') :
    0 ≤ X1 * (Real.tanh (p' / X1) - Real.tanh (p / X1)) ∧ X1 * (Real.tanh (p' / X1) - Real.tanh (p / X1)) ≤ p' - p := by
  have h' : p / X1 ≤ p' / X1 := by gcongr
  have a := tanh_mono h'
  have b := tanh_lip (div_nonneg h0 hX.le) h'
  refine ⟨mul_nonneg hX.le (by linarith), ?_⟩
  calc X1 * (Real.tanh (p' / X1) - Real.tanh (p / X1)) ≤ X1 * (p' / X1 - p / X1) := mul_le_mul_of_nonneg_left b hX.le
    _ = p' - p := by field_simp

/-- Level before percolation. -/
def wet (X1 S Pn En : ℝ) : ℝ := S + Doc.infiltrationGR4J Pn S X1 - Doc.etGR4J S En X1

theorem wet_nonneg (hX : 0 < X1) (hS : 0 ≤ S) (hSX : S ≤ X1) (hP : 0 ≤ Pn) (hE : 0 ≤ En) : 0 ≤ wet X1 S Pn En := by
  obtain ⟨s0, s1⟩ := fill hX hS hSX
  obtain ⟨t0, t1⟩ := force hX hE
  obtain ⟨v0, v1⟩ := force hX hP
  have a := mul_nonneg hX.le (shareIn_nonneg s0 s1 v0)
  have b := mul_le_mul_of_nonneg_left (shareOut_le s0 s1 t0 t1) hX.le
  have c : X1 * (S / X1) = S := by field_simp
  unfold wet
  rw [infil_share hX, et_share hX]
  linarith

theorem et_bounds (hX : 0 < X1) (hS : 0 ≤ S) (hSX : S ≤ X1) (hE : 0 ≤ En) : 0 ≤ Doc.etGR4J S En X1 ∧ Doc.etGR4J S En X1 ≤ S := by
  obtain ⟨s0, s1⟩ := fill hX hS hSX
  obtain ⟨t0, t1⟩ := force hX hE
  have b := mul_le_mul_of_nonneg_left (shareOut_le s0 s1 t0 t1) hX.le
  have c : X1 * (S / X1) = S := by field_simp
  rw [et_share hX]
  exact ⟨mul_nonneg hX.le (shareOut_nonneg s0 s1 t0), by linarith⟩

theorem infil_bounds (hX : 0 < X1) (hS : 0 ≤ S) (hSX : S ≤ X1) (hP : 0 ≤ Pn) :
    0 ≤ Doc.infiltrationGR4J Pn S X1 ∧ Doc.infiltrationGR4J Pn S X1 ≤ Pn ∧ S + Doc.infiltrationGR4J Pn S X1 ≤ X1 := by
  obtain ⟨s0, s1⟩ := fill hX hS hSX
  obtain ⟨v0, v1⟩ := force hX hP
  have c : X1 * (S / X1) = S := by field_simp
  have a := mul_nonneg hX.le (shareIn_nonneg s0 s1 v0)
  have z : shareIn (S / X1) 0 = 0 := by simp [shareIn]
  have b := mul_le_mul_of_nonneg_left (shareIn_force_lip s0 s1 (le_refl 0) v0) hX.le
  rw [z, sub_zero, sub_zero] at b
  have d := (force_lip hX (le_refl 0) hP).2
  rw [zero_div, Real.tanh_zero, sub_zero, sub_zero] at d
  have e := mul_le_mul_of_nonneg_left (shareIn_level_mono s0 s1 v0 v1) hX.le
  have z1 : shareIn 1 (Real.tanh (Pn / X1)) = 0 := by simp [shareIn]
  rw [z1, add_zero, mul_add, c] at e
  rw [infil_share hX]
  exact ⟨a, by linarith, by linarith⟩

theorem level_kept (X1 S Pn En : ℝ) : dayLevel X1 S Pn En = wet X1 S Pn En - Doc.release (wet X1 S Pn En) (9 / 4 * X1) := by
  unfold dayLevel percolated
  rw [percolation_release]
  rfl

theorem effective_parts (X1 S Pn En : ℝ) :
    effective X1 S Pn En = Pn - Doc.infiltrationGR4J Pn S X1 + Doc.release (wet X1 S Pn En) (9 / 4 * X1) := by
  unfold effective percolated Doc.productionPR
  rw [percolation_release]
  rfl

theorem day_bounds (hX : 0 < X1) (hS : 0 ≤ S) (hSX : S ≤ X1) (hP : 0 ≤ Pn) (hE : 0 ≤ En) :
    0 ≤ dayLevel X1 S Pn En ∧ dayLevel X1 S Pn En ≤ X1 ∧ 0 ≤ effective X1 S Pn En := by
  have hw := wet_nonneg hX hS hSX hP hE
  have hr := release_bounds (X3 := 9 / 4 * X1) (by linarith) hw
  obtain ⟨i0, i1, i2⟩ := infil_bounds hX hS hSX hP
  obtain ⟨e0, e1⟩ := et_bounds hX hS hSX hE
  rw [level_kept, effective_parts]
  refine ⟨by linarith, ?_, by linarith⟩
  have : wet X1 S Pn En ≤ X1 := by unfold wet; linarith
  linarith

/-- Another level. -/
theorem day_level_lip (hX : 0 < X1) (hS : 0 ≤ S) (hSX : S ≤ X1) (hS' : 0 ≤ S') (hSX' : S' ≤ X1) (hP : 0 ≤ Pn) (hE : 0 ≤ En) (hor : Pn = 0 ∨ En = 0) :
    |dayLevel X1 S Pn En - dayLevel X1 S' Pn En| + |effective X1 S Pn En - effective X1 S' Pn En| ≤ |S - S'| := by
  have key : ∀ S S' : ℝ, 0 ≤ S → S' ≤ X1 → S ≤ S' → dayLevel X1 S Pn En ≤ dayLevel X1 S' Pn En ∧
      effective X1 S Pn En ≤ effective X1 S' Pn En ∧ Doc.etGR4J S En X1 ≤ Doc.etGR4J S' En X1 := by
    intro S S' hS hS' h
    obtain ⟨s0, s1⟩ := fill hX hS (le_trans h hS')
    obtain ⟨u0, u1⟩ := fill hX (le_trans hS h) hS'
    obtain ⟨t0, t1⟩ := force hX hE
    obtain ⟨v0, v1⟩ := force hX hP
    have hsu : S / X1 ≤ S' / X1 := by gcongr
    have c : X1 * (S / X1) = S := by field_simp
    have c' : X1 * (S' / X1) = S' := by field_simp
    have hw := wet_nonneg hX hS (le_trans h hS') hP hE
    have i := mul_le_mul_of_nonneg_left (shareIn_anti s0 hsu u1 v0) hX.le
    have il := mul_le_mul_of_nonneg_left (shareIn_level_mono s0 hsu v0 v1) hX.le
    have o := mul_le_mul_of_nonneg_left (shareOut_mono s0 hsu u1 t0) hX.le
    have ol := mul_le_mul_of_nonneg_left (shareOut_level_mono s0 hsu u1 t0 t1) hX.le
    rw [← infil_share hX, ← infil_share hX] at i
    rw [mul_add, mul_add, ← infil_share hX, ← infil_share hX, c, c'] at il
    rw [← et_share hX, ← et_share hX] at o
    rw [mul_sub, mul_sub, ← et_share hX, ← et_share hX, c, c'] at ol
    have hww : wet X1 S Pn En ≤ wet X1 S' Pn En := by
      unfold wet
      rcases hor with h0 | h0
      · subst h0
        have z : ∀ S : ℝ, Doc.infiltrationGR4J 0 S X1 = 0 := fun S => by simp [Doc.infiltrationGR4J]
        rw [z, z]
        linarith
      · subst h0
        have z : ∀ S : ℝ, Doc.etGR4J S 0 X1 = 0 := fun S => by simp [Doc.etGR4J]
        rw [z, z]
        linarith
    have hX' : 0 < 9 / 4 * X1 := by linarith
    rw [level_kept, level_kept, effective_parts, effective_parts]
    have := release_mono hX' hw hww
    exact ⟨release_kept_mono hX' hw hww, by linarith, o⟩
  rcases _root_.le_total S S' with h | h
  · obtain ⟨a, b, c⟩ := key S S' hS hSX' h
    have e := day_split X1 S Pn En
    have e' := day_split X1 S' Pn En
    rw [abs_of_nonpos (by linarith), abs_of_nonpos (by linarith), abs_of_nonpos (by linarith)]
    linarith
  · obtain ⟨a, b, c⟩ := key S' S hS' hSX h
    have e := day_split X1 S Pn En
    have e' := day_split X1 S' Pn En
    rw [abs_of_nonneg (by linarith), abs_of_nonneg (by linarith), abs_of_nonneg (by linarith)]
    linarith

/-- Another rain. -/
theorem day_rain_lip (hX : 0 < X1) (hS : 0 ≤ S) (hSX : S ≤ X1) (hP : 0 ≤ Pn) (hP' : 0 ≤ Pn') (hE : 0 ≤ En) :
    |dayLevel X1 S Pn En - dayLevel X1 S Pn' En| + |effective X1 S Pn En - effective X1 S Pn' En| ≤ |Pn - Pn'| := by
  have key : ∀ p p' : ℝ, 0 ≤ p → p ≤ p' → dayLevel X1 S p En ≤ dayLevel X1 S p' En ∧ effective X1 S p En ≤ effective X1 S p' En := by
    intro p p' hp h
    obtain ⟨s0, s1⟩ := fill hX hS hSX
    obtain ⟨v0, v1⟩ := force hX hp
    have hv := tanh_mono (show p / X1 ≤ p' / X1 by gcongr)
    have a := mul_le_mul_of_nonneg_left (shareIn_force_mono s0 s1 v0 hv) hX.le
    have b := mul_le_mul_of_nonneg_left (shareIn_force_lip s0 s1 v0 hv) hX.le
    have c := (force_lip hX hp h).2
    rw [← infil_share hX, ← infil_share hX] at a
    rw [mul_sub, ← infil_share hX, ← infil_share hX] at b
    have hw := wet_nonneg hX hS hSX hp hE
    have hww : wet X1 S p En ≤ wet X1 S p' En := by unfold wet; linarith
    have hX' : 0 < 9 / 4 * X1 := by linarith
    rw [level_kept, level_kept, effective_parts, effective_parts]
    have := release_mono hX' hw hww
    exact ⟨release_kept_mono hX' hw hww, by linarith⟩
  have e := day_split X1 S Pn En
  have e' := day_split X1 S Pn' En
  rcases _root_.le_total Pn Pn' with h | h
  · obtain ⟨a, b⟩ := key Pn Pn' hP h
    rw [abs_of_nonpos (by linarith), abs_of_nonpos (by linarith), abs_of_nonpos (by linarith)]
    linarith
  · obtain ⟨a, b⟩ := key Pn' Pn hP' h
    rw [abs_of_nonneg (by linarith), abs_of_nonneg (by linarith), abs_of_nonneg (by linarith)]
    linarith

/-- Another demand. -/
theorem day_demand_lip (hX : 0 < X1) (hS : 0 ≤ S) (hSX : S ≤ X1) (hP : 0 ≤ Pn) (hE : 0 ≤ En) (hE' : 0 ≤ En') :
    |dayLevel X1 S Pn En - dayLevel X1 S Pn En'| + |effective X1 S Pn En - effective X1 S Pn En'| ≤ |En - En'| := by
  have key : ∀ p p' : ℝ, 0 ≤ p → p ≤ p' → dayLevel X1 S Pn p' ≤ dayLevel X1 S Pn p ∧ effective X1 S Pn p' ≤ effective X1 S Pn p ∧
      Doc.etGR4J S p' X1 - Doc.etGR4J S p X1 ≤ p' - p := by
    intro p p' hp h
    obtain ⟨s0, s1⟩ := fill hX hS hSX
    obtain ⟨v0, v1⟩ := force hX hp
    have hv := tanh_mono (show p / X1 ≤ p' / X1 by gcongr)
    have a := mul_le_mul_of_nonneg_left (shareOut_force_mono s0 s1 v0 hv) hX.le
    have b := mul_le_mul_of_nonneg_left (shareOut_force_lip s0 s1 v0 hv) hX.le
    have c := (force_lip hX hp h).2
    rw [← et_share hX, ← et_share hX] at a
    rw [mul_sub, ← et_share hX, ← et_share hX] at b
    have hw := wet_nonneg hX hS hSX hP (le_trans hp h)
    have hww : wet X1 S Pn p' ≤ wet X1 S Pn p := by unfold wet; linarith
    have hX' : 0 < 9 / 4 * X1 := by linarith
    rw [level_kept, level_kept, effective_parts, effective_parts]
    have := release_mono hX' hw hww
    exact ⟨release_kept_mono hX' hw hww, by linarith, by linarith⟩
  have e := day_split X1 S Pn En
  have e' := day_split X1 S Pn En'
  rcases _root_.le_total En En' with h | h
  · obtain ⟨a, b, c⟩ := key En En' hE h
    rw [abs_of_nonneg (by linarith), abs_of_nonneg (by linarith), abs_of_nonpos (by linarith)]
    linarith
  · obtain ⟨a, b, c⟩ := key En' En hE' h
    rw [abs_of_nonpos (by linarith), abs_of_nonpos (by linarith), abs_of_nonneg (by linarith)]
    linarith

/-- The cuts of a day. -/
theorem cuts_near (hX : 0 < X1) (hS : 0 ≤ S) (hSX : S ≤ X1) (hP : 0 ≤ Pn) (hE : 0 ≤ En) :
    |keep (S + Pn - given X1 S Pn En - taken X1 S Pn En) - dayLevel X1 S Pn En| ≤ 2 * eps ∧ |given X1 S Pn En - effective X1 S Pn En| ≤ eps := by
  have he := eps_pos
  obtain ⟨d0, d1, d2⟩ := day_bounds hX hS hSX hP hE
  obtain ⟨g1, g2, g0⟩ := keep_near d2
  have hg : given X1 S Pn En = keep (effective X1 S Pn En) := rfl
  have hsum := day_split X1 S Pn En
  obtain ⟨t0, t1⟩ := et_bounds hX hS hSX hE
  have ht : 0 ≤ Doc.etGR4J S En X1 - taken X1 S Pn En ∧ Doc.etGR4J S En X1 - taken X1 S Pn En ≤ eps := by
    unfold taken
    have e : (1 / 10 ^ 8 : ℝ) = eps := rfl
    rw [e]
    split
    · rw [hg] at *
      constructor <;> linarith
    · obtain ⟨a, b, -⟩ := keep_near t0
      exact ⟨a, b⟩
  constructor
  · rw [hg, keep_def (S + Pn - _ - _)]
    split
    · rw [abs_le]; constructor <;> linarith
    · rw [abs_le]; constructor <;> linarith
  · rw [hg, abs_sub_comm, abs_of_nonneg g1]
    exact g2

end

section
variable {X1 X2 X3 X4 S0 : ℝ} {P E : ℕ → ℝ}

theorem bookLevel_succ (X1 S0 : ℝ) (P E : ℕ → ℝ) (t : ℕ) :
    bookLevel X1 S0 P E (t + 1) = dayLevel X1 (bookLevel X1 S0 P E t) (netRain (P t) (E t)) (netDemand (P t) (E t)) := rfl

theorem bookLevel_bounds (h : Fair X1 S0 P E) (t : ℕ) : 0 ≤ bookLevel X1 S0 P E t ∧ bookLevel X1 S0 P E t ≤ X1 := by
  induction t with
  | zero => exact h.start
  | succ t ih =>
    rw [bookLevel_succ]
    have := day_bounds (X1 := X1) (by linarith [h.cap]) ih.1 ih.2 (le_max_left 0 (P t - E t)) (le_max_left 0 (E t - P t))
    exact ⟨this.1, this.2.1⟩

theorem bookPR_nonneg (h : Fair X1 S0 P E) (t : ℕ) : 0 ≤ bookPR X1 S0 P E t := by
  obtain ⟨a, b⟩ := bookLevel_bounds h t
  exact (day_bounds (X1 := X1) (by linarith [h.cap]) a b (le_max_left 0 (P t - E t)) (le_max_left 0 (E t - P t))).2.2

theorem level_bounds (h : Fair X1 S0 P E) (t : ℕ) : 0 ≤ level X1 S0 P E t ∧ level X1 S0 P E t ≤ X1 :=
  (dayRun_level (rt := ⟨false, fun _ _ => 0, fun _ _ => 0, fun r _ => r⟩) (r0 := ()) h t).2

/-- A day of the production store, published and run. -/
theorem day_near (h : Fair X1 S0 P E) (t : ℕ) :
    |level X1 S0 P E (t + 1) - bookLevel X1 S0 P E (t + 1)| + |runPR X1 S0 P E t - bookPR X1 S0 P E t| ≤
      |level X1 S0 P E t - bookLevel X1 S0 P E t| + 5 * eps := by
  have hX : 0 < X1 := by linarith [h.cap]
  obtain ⟨l0, l1⟩ := level_bounds h t
  obtain ⟨b0, b1⟩ := bookLevel_bounds h t
  rw [level_succ, bookLevel_succ]
  unfold runPR bookPR
  set L := level X1 S0 P E t
  set B := bookLevel X1 S0 P E t
  obtain ⟨p1, p2⟩ := grPn_bounds (h.rain t).1 (h.demand t).1
  obtain ⟨n1, n2⟩ := grEn_bounds (h.rain t).1 (h.demand t).1
  have hor : grPn (P t) (E t) = 0 ∨ grEn (P t) (E t) = 0 := (rain_or_demand (h.rain t).1).imp_right fun h => le_antisymm h n1
  have hrn := rainLeft_near (h.rain t).1 (h.demand t).1
  have hdn := demandLeft_near (h.rain t).1 (h.demand t).1
  rw [← rainLeft_eq] at p1 hor
  rw [← demandLeft_eq] at n1 hor
  have m1 : 0 ≤ netRain (P t) (E t) := le_max_left _ _
  have m2 : 0 ≤ netDemand (P t) (E t) := le_max_left _ _
  set p := rainLeft (P t) (E t)
  set e := demandLeft (P t) (E t)
  set p' := netRain (P t) (E t)
  set e' := netDemand (P t) (E t)
  obtain ⟨c1, c2⟩ := cuts_near hX l0 l1 p1 n1
  have s1 := day_level_lip hX l0 l1 b0 b1 p1 n1 hor
  have s2 := day_rain_lip (Pn := p) (Pn' := p') hX b0 b1 p1 m1 n1
  have s3 := day_demand_lip (En := e) (En' := e') hX b0 b1 m1 n1 m2
  set k := keep (L + p - given X1 L p e - taken X1 L p e)
  have t1 : |k - dayLevel X1 B p' e'| ≤ |k - dayLevel X1 L p e| + |dayLevel X1 L p e - dayLevel X1 B p e| +
      |dayLevel X1 B p e - dayLevel X1 B p' e| + |dayLevel X1 B p' e - dayLevel X1 B p' e'| := by
    have a := abs_sub_le k (dayLevel X1 L p e) (dayLevel X1 B p' e')
    have b := abs_sub_le (dayLevel X1 L p e) (dayLevel X1 B p e) (dayLevel X1 B p' e')
    have c := abs_sub_le (dayLevel X1 B p e) (dayLevel X1 B p' e) (dayLevel X1 B p' e')
    linarith
  have t2 : |given X1 L p e - effective X1 B p' e'| ≤ |given X1 L p e - effective X1 L p e| + |effective X1 L p e - effective X1 B p e| +
      |effective X1 B p e - effective X1 B p' e| + |effective X1 B p' e - effective X1 B p' e'| := by
    have a := abs_sub_le (given X1 L p e) (effective X1 L p e) (effective X1 B p' e')
    have b := abs_sub_le (effective X1 L p e) (effective X1 B p e) (effective X1 B p' e')
    have c := abs_sub_le (effective X1 B p e) (effective X1 B p' e) (effective X1 B p' e')
    linarith
  linarith

/-- **Production.**  The level, and the water sent to the routing in total, are within 5·10⁻⁸ mm a day of the published ones. -/
theorem production_near (h : Fair X1 S0 P E) (t : ℕ) :
    |level X1 S0 P E t - bookLevel X1 S0 P E t| + ∑ s ∈ Finset.range t, |runPR X1 S0 P E s - bookPR X1 S0 P E s| ≤ 5 * eps * t := by
  induction t with
  | zero =>
    change |S0 - S0| + _ ≤ _
    simp
  | succ t ih =>
    have := day_near h t
    rw [Finset.sum_range_succ]
    push_cast
    linarith

/-! ## The routing -/

/-- Two inputs of the routing, and their difference in total up to a day. -/
theorem store_near (h3 : 0 < X3) (h4 : 0 < X4) (lo : -(4 / 7 * X3) ≤ X2) (hi : X2 ≤ 4 / 10 * X3) (f g : ℕ → ℝ) (t : ℕ) :
    |Doc.storeGR4J X2 X3 X4 f t - Doc.storeGR4J X2 X3 X4 g t| ≤
      growth X2 X3 ^ t * ∑ s ∈ Finset.range t, |uhOut (uh1 X4) (fun s => 0.9 * f s) s - uhOut (uh1 X4) (fun s => 0.9 * g s) s| := by
  have hG := growth_one (X2 := X2) h3
  induction t with
  | zero =>
    change |(0 : ℝ) - 0| ≤ _
    simp
  | succ t ih =>
    obtain ⟨a0, a1⟩ := storeGR4J_bounds (X2 := X2) h3 h4 f t
    obtain ⟨b0, b1⟩ := storeGR4J_bounds (X2 := X2) h3 h4 g t
    change |(max 0 (Doc.storeGR4J X2 X3 X4 f t + Doc.routed (Doc.sCurve1 X4) (fun s => 0.9 * f s) t + Doc.exchangeGR4J X2 (Doc.storeGR4J X2 X3 X4 f t) X3) - Doc.release _ X3) -
      (max 0 (Doc.storeGR4J X2 X3 X4 g t + Doc.routed (Doc.sCurve1 X4) (fun s => 0.9 * g s) t + Doc.exchangeGR4J X2 (Doc.storeGR4J X2 X3 X4 g t) X3) - Doc.release _ X3)| ≤ _
    rw [← uh1_doc h4, ← uh1_doc h4, Finset.sum_range_succ]
    obtain ⟨x1, x2⟩ := exchange_lip h3 lo hi b0 b1 a0 a1
    set R := Doc.storeGR4J X2 X3 X4 f t
    set R' := Doc.storeGR4J X2 X3 X4 g t
    set q := uhOut (uh1 X4) (fun s => 0.9 * f s) t
    set q' := uhOut (uh1 X4) (fun s => 0.9 * g s) t
    set F := Doc.exchangeGR4J X2 R X3
    set F' := Doc.exchangeGR4J X2 R' X3
    set W := ∑ s ∈ Finset.range t, |uhOut (uh1 X4) (fun s => 0.9 * f s) s - uhOut (uh1 X4) (fun s => 0.9 * g s) s|
    have sp := release_split h3 (le_max_left 0 (R + q + F)) (le_max_left 0 (R' + q' + F'))
    have ab := abs_nonneg (Doc.release (max 0 (R + q + F)) X3 - Doc.release (max 0 (R' + q' + F')) X3)
    have mx : |max 0 (R + q + F) - max 0 (R' + q' + F')| ≤ |(R + q + F) - (R' + q' + F')| := by
      refine le_trans (abs_max_sub_max_le_max _ _ _ _) ?_
      rw [sub_self, abs_zero]
      exact max_le (abs_nonneg _) (le_refl _)
    have tr : |(R + q + F) - (R' + q' + F')| ≤ growth X2 X3 * |R - R'| + |q - q'| := by
      have e : (R + q + F) - (R' + q' + F') = ((R + F) - (R' + F')) + (q - q') := by ring
      rw [e]
      linarith [abs_add_le ((R + F) - (R' + F')) (q - q')]
    have st : growth X2 X3 * |R - R'| ≤ growth X2 X3 * (growth X2 X3 ^ t * W) := mul_le_mul_of_nonneg_left ih (by linarith)
    have gq : |q - q'| ≤ growth X2 X3 ^ (t + 1) * |q - q'| := le_mul_of_one_le_left (abs_nonneg _) (one_le_pow₀ hG)
    have e2 : growth X2 X3 ^ (t + 1) * (W + |q - q'|) = growth X2 X3 * (growth X2 X3 ^ t * W) + growth X2 X3 ^ (t + 1) * |q - q'| := by ring
    rw [e2]
    linarith

theorem discharge_near (h3 : 0 < X3) (h4 : 0 < X4) (lo : -(4 / 7 * X3) ≤ X2) (hi : X2 ≤ 4 / 10 * X3) (f g : ℕ → ℝ) (t : ℕ) :
    |Doc.dischargeGR4J X2 X3 X4 f t - Doc.dischargeGR4J X2 X3 X4 g t| ≤
      44 / 10 * growth X2 X3 ^ t * ∑ s ∈ Finset.range (t + 1), |f s - g s| := by
  have hG := growth_one (X2 := X2) h3
  have hGt := one_le_pow₀ (n := t) hG
  have hG2 := growth_le h3 hi
  have hs := store_near h3 h4 lo hi f g t
  obtain ⟨a0, a1⟩ := storeGR4J_bounds (X2 := X2) h3 h4 f t
  obtain ⟨b0, b1⟩ := storeGR4J_bounds (X2 := X2) h3 h4 g t
  have u1 := uhOut_lip (c26_partition X4 1).1 (fun s => 0.9 * f s) (fun s => 0.9 * g s) (t + 1)
  have u2 := uhOut_lip (c26_partition X4 1).2.1 (fun s => 0.1 * f s) (fun s => 0.1 * g s) (t + 1)
  have sc : ∀ c : ℝ, 0 ≤ c → ∑ s ∈ Finset.range (t + 1), |c * f s - c * g s| = c * ∑ s ∈ Finset.range (t + 1), |f s - g s| := by
    intro c hc
    rw [Finset.mul_sum]
    refine Finset.sum_congr rfl fun s _ => ?_
    rw [← mul_sub, abs_mul, abs_of_nonneg hc]
  rw [sc _ (by norm_num)] at u1 u2
  have l2 : |uhOut (uh2 X4) (fun s => 0.1 * f s) t - uhOut (uh2 X4) (fun s => 0.1 * g s) t| ≤
      ∑ s ∈ Finset.range (t + 1), |uhOut (uh2 X4) (fun s => 0.1 * f s) s - uhOut (uh2 X4) (fun s => 0.1 * g s) s| := by
    rw [Finset.sum_range_succ]
    have : 0 ≤ ∑ s ∈ Finset.range t, |uhOut (uh2 X4) (fun s => 0.1 * f s) s - uhOut (uh2 X4) (fun s => 0.1 * g s) s| :=
      Finset.sum_nonneg fun _ _ => abs_nonneg _
    linarith
  unfold Doc.dischargeGR4J
  dsimp only
  rw [← uh1_doc h4, ← uh1_doc h4, ← uh2_doc h4, ← uh2_doc h4]
  rw [Finset.sum_range_succ] at u1
  obtain ⟨x1, x2⟩ := exchange_lip h3 lo hi b0 b1 a0 a1
  set R := Doc.storeGR4J X2 X3 X4 f t
  set R' := Doc.storeGR4J X2 X3 X4 g t
  set q := uhOut (uh1 X4) (fun s => 0.9 * f s) t
  set q' := uhOut (uh1 X4) (fun s => 0.9 * g s) t
  set d := uhOut (uh2 X4) (fun s => 0.1 * f s) t
  set d' := uhOut (uh2 X4) (fun s => 0.1 * g s) t
  set F := Doc.exchangeGR4J X2 R X3
  set F' := Doc.exchangeGR4J X2 R' X3
  set W := ∑ s ∈ Finset.range t, |uhOut (uh1 X4) (fun s => 0.9 * f s) s - uhOut (uh1 X4) (fun s => 0.9 * g s) s|
  set D := ∑ s ∈ Finset.range (t + 1), |f s - g s|
  have sp := release_split h3 (le_max_left 0 (R + q + F)) (le_max_left 0 (R' + q' + F'))
  have ab := abs_nonneg ((max 0 (R + q + F) - Doc.release (max 0 (R + q + F)) X3) - (max 0 (R' + q' + F') - Doc.release (max 0 (R' + q' + F')) X3))
  have mx : |max 0 (R + q + F) - max 0 (R' + q' + F')| ≤ |(R + q + F) - (R' + q' + F')| := by
    refine le_trans (abs_max_sub_max_le_max _ _ _ _) ?_
    rw [sub_self, abs_zero]
    exact max_le (abs_nonneg _) (le_refl _)
  have mx2 : |max 0 (d + F) - max 0 (d' + F')| ≤ |(d + F) - (d' + F')| := by
    refine le_trans (abs_max_sub_max_le_max _ _ _ _) ?_
    rw [sub_self, abs_zero]
    exact max_le (abs_nonneg _) (le_refl _)
  have tr : |(R + q + F) - (R' + q' + F')| ≤ growth X2 X3 * |R - R'| + |q - q'| := by
    have e : (R + q + F) - (R' + q' + F') = ((R + F) - (R' + F')) + (q - q') := by ring
    rw [e]
    linarith [abs_add_le ((R + F) - (R' + F')) (q - q')]
  have tr2 : |(d + F) - (d' + F')| ≤ |d - d'| + |F - F'| := by
    have e : (d + F) - (d' + F') = (d - d') + (F - F') := by ring
    rw [e]
    exact abs_add_le _ _
  have tot : |Doc.release (max 0 (R + q + F)) X3 + max 0 (d + F) - (Doc.release (max 0 (R' + q' + F')) X3 + max 0 (d' + F'))| ≤
      |Doc.release (max 0 (R + q + F)) X3 - Doc.release (max 0 (R' + q' + F')) X3| + |max 0 (d + F) - max 0 (d' + F')| := by
    have e : Doc.release (max 0 (R + q + F)) X3 + max 0 (d + F) - (Doc.release (max 0 (R' + q' + F')) X3 + max 0 (d' + F')) =
      (Doc.release (max 0 (R + q + F)) X3 - Doc.release (max 0 (R' + q' + F')) X3) + (max 0 (d + F) - max 0 (d' + F')) := by ring
    rw [e]
    exact abs_add_le _ _
  have hW : 0 ≤ W := Finset.sum_nonneg fun _ _ => abs_nonneg _
  have hD : 0 ≤ D := Finset.sum_nonneg fun _ _ => abs_nonneg _
  have hrr := abs_nonneg (R - R')
  have g1 : growth X2 X3 * |R - R'| ≤ 24 / 10 * |R - R'| := mul_le_mul_of_nonneg_right hG2 hrr
  have hqq := abs_nonneg (q - q')
  have g3 : 1 * |q - q'| ≤ growth X2 X3 ^ t * |q - q'| := mul_le_mul_of_nonneg_right hGt hqq
  have g5 : 1 * D ≤ growth X2 X3 ^ t * D := mul_le_mul_of_nonneg_right hGt hD
  have g6 : growth X2 X3 ^ t * (W + |q - q'|) ≤ growth X2 X3 ^ t * (0.9 * D) := mul_le_mul_of_nonneg_left u1 (by linarith)
  have g7 : growth X2 X3 ^ t * (W + |q - q'|) = growth X2 X3 ^ t * W + growth X2 X3 ^ t * |q - q'| := by ring
  have g8 : 44 / 10 * growth X2 X3 ^ t * D = 44 / 10 * (growth X2 X3 ^ t * D) := by ring
  have g9 : growth X2 X3 ^ t * (0.9 * D) = 0.9 * (growth X2 X3 ^ t * D) := by ring
  rw [g8]
  rw [g7, g9] at g6
  have n1 : 0 ≤ growth X2 X3 ^ t * W := mul_nonneg (by linarith) hW
  linarith

/-! ## The container of the routing -/

theorem exchanged_le (h3 : 0 < X3) (h4 : 0 < X4) {PR : ℕ → ℝ} (hp : ∀ t, 0 ≤ PR t) (t : ℕ) :
    exchangedGR4J X2 X3 X4 PR t ≤ (growth X2 X3 - 1) * Doc.storeGR4J X2 X3 X4 PR t := by
  obtain ⟨s1, s2⟩ := storeGR4J_bounds (X2 := X2) h3 h4 PR t
  have hq9 : 0 ≤ Doc.routed (Doc.sCurve1 X4) (fun s => 0.9 * PR s) t := by
    rw [← uh1_doc h4]
    exact buffer_nonneg _ _ (c26_partition X4 1).1.1 (fun u => by have := hp u; positivity) _ _
  have hq1 : 0 ≤ Doc.routed (Doc.sCurve2 X4) (fun s => 0.1 * PR s) t := by
    rw [← uh2_doc h4]
    exact buffer_nonneg _ _ (c26_partition X4 1).2.1.1 (fun u => by have := hp u; positivity) _ _
  unfold exchangedGR4J growth
  dsimp only
  set R := Doc.storeGR4J X2 X3 X4 PR t
  set Q9 := Doc.routed (Doc.sCurve1 X4) (fun s => 0.9 * PR s) t
  set Q1 := Doc.routed (Doc.sCurve2 X4) (fun s => 0.1 * PR s) t
  have a : 0 ≤ R / X3 := div_nonneg s1 h3.le
  have b : R / X3 ≤ 1 := (div_le_one h3).2 s2
  have c0 : 0 ≤ (R / X3) ^ (7 / 2 : ℝ) := Real.rpow_nonneg a _
  have c : (R / X3) ^ (7 / 2 : ℝ) ≤ R / X3 := by
    rcases a.eq_or_lt with h0 | h0
    · rw [← h0, Real.zero_rpow (by norm_num)]
    · calc (R / X3) ^ (7 / 2 : ℝ) ≤ (R / X3) ^ (1 : ℝ) := Real.rpow_le_rpow_of_exponent_ge h0 b (by norm_num)
        _ = R / X3 := Real.rpow_one _
  have hF : Doc.exchangeGR4J X2 R X3 ≤ max 0 X2 / X3 * R := by
    unfold Doc.exchangeGR4J
    calc X2 * (R / X3) ^ (7 / 2 : ℝ) ≤ max 0 X2 * (R / X3) ^ (7 / 2 : ℝ) := mul_le_mul_of_nonneg_right (le_max_right _ _) c0
      _ ≤ max 0 X2 * (R / X3) := mul_le_mul_of_nonneg_left c (le_max_left _ _)
      _ = max 0 X2 / X3 * R := by ring
  have hm : 0 ≤ max 0 X2 / X3 * R := mul_nonneg (div_nonneg (le_max_left _ _) h3.le) s1
  have m1 : max 0 (R + Q9 + Doc.exchangeGR4J X2 R X3) ≤ R + Q9 + max 0 X2 / X3 * R := max_le (by linarith) (by linarith)
  have m2 : max 0 (Q1 + Doc.exchangeGR4J X2 R X3) ≤ Q1 + max 0 X2 / X3 * R := max_le (by linarith) (by linarith)
  have e : (1 + 7 / 2 * (max 0 X2 / X3) - 1) * R = 7 / 2 * (max 0 X2 / X3 * R) := by ring
  rw [e]
  linarith

/-- The container of the routing holds the water of the published routing. -/
theorem held_near (h3 : 0 < X3) (h4 : 0 < X4) (hi : X2 ≤ 4 / 10 * X3) {PR : ℕ → ℝ} (hp : ∀ t, 0 ≤ PR t) (t : ℕ) :
    |held PR (Doc.dischargeGR4J X2 X3 X4 PR) (exchangedGR4J X2 X3 X4 PR) t - bookHeld X2 X3 X4 PR t| ≤ t * eps * growth X2 X3 ^ t := by
  have hG := growth_one (X2 := X2) h3
  have he := eps_pos
  induction t with
  | zero =>
    change |(0 : ℝ) - 0| ≤ _
    simp
  | succ t ih =>
    have hb : bookHeld X2 X3 X4 PR (t + 1) =
      bookHeld X2 X3 X4 PR t + PR t + exchangedGR4J X2 X3 X4 PR t - Doc.dischargeGR4J X2 X3 X4 PR t := rfl
    have hcap := discharge_held h3 h4 hi hp t
    have hge := bookHeld_ge (X2 := X2) h3 h4 hp t
    have hge' := bookHeld_ge (X2 := X2) h3 h4 hp (t + 1)
    have hs' := (storeGR4J_bounds (X2 := X2) h3 h4 PR (t + 1)).1
    obtain ⟨hs0, -⟩ := storeGR4J_bounds (X2 := X2) h3 h4 PR t
    have hx := exchanged_le (X2 := X2) h3 h4 hp t
    have hV : 0 ≤ held PR (Doc.dischargeGR4J X2 X3 X4 PR) (exchangedGR4J X2 X3 X4 PR) t := by
      cases t with
      | zero => exact le_refl 0
      | succ t => rw [held_succ]; exact keep_nonneg _
    have hd0 : 0 ≤ Doc.dischargeGR4J X2 X3 X4 PR t := by
      have hq1 := (release_bounds h3 (le_max_left 0 (Doc.storeGR4J X2 X3 X4 PR t + Doc.routed (Doc.sCurve1 X4) (fun s => 0.9 * PR s) t +
        Doc.exchangeGR4J X2 (Doc.storeGR4J X2 X3 X4 PR t) X3))).1
      exact add_nonneg hq1 (le_max_left _ _)
    have hpt := hp t
    rw [held_succ]
    set V := held PR (Doc.dischargeGR4J X2 X3 X4 PR) (exchangedGR4J X2 X3 X4 PR) t
    set B := bookHeld X2 X3 X4 PR t
    set B' := bookHeld X2 X3 X4 PR (t + 1)
    set x := exchangedGR4J X2 X3 X4 PR t
    set q := Doc.dischargeGR4J X2 X3 X4 PR t
    set R := Doc.storeGR4J X2 X3 X4 PR t
    set δ := |V - B| with hδ
    obtain ⟨d1, d2⟩ := abs_le.1 (le_refl |V - B|)
    rw [← hδ] at d1 d2
    have hδ0 : 0 ≤ δ := abs_nonneg _
    have step : ∀ y : ℝ, |y - B'| ≤ growth X2 X3 * (δ + eps) → |y - B'| ≤ ((t + 1 : ℕ) : ℝ) * eps * growth X2 X3 ^ (t + 1) := by
      intro y hy
      refine le_trans hy ?_
      have a : eps ≤ eps * growth X2 X3 ^ t := le_mul_of_one_le_right he.le (one_le_pow₀ hG)
      calc growth X2 X3 * (δ + eps) ≤ growth X2 X3 * (t * eps * growth X2 X3 ^ t + eps * growth X2 X3 ^ t) :=
            mul_le_mul_of_nonneg_left (by linarith) (by linarith)
        _ = ((t + 1 : ℕ) : ℝ) * eps * growth X2 X3 ^ (t + 1) := by push_cast; ring
    have big : δ + eps ≤ growth X2 X3 * (δ + eps) := le_mul_of_one_le_left (by linarith) hG
    apply step
    have e8 : (1 / 10 ^ 8 : ℝ) = eps := rfl
    rw [e8]
    by_cases hW : V + PR t ≤ eps
    · rw [if_pos hW, add_zero]
      have hk : keep (V + PR t - keep (min q (V + PR t))) = 0 := by
        rw [keep_def, if_pos (by linarith [keep_nonneg (min q (V + PR t))])]
      rw [hk, zero_sub, abs_neg, abs_of_nonneg (by linarith)]
      have h1 : R ≤ δ + eps := by linarith
      have h2 : (growth X2 X3 - 1) * R ≤ (growth X2 X3 - 1) * (δ + eps) := mul_le_mul_of_nonneg_left h1 (by linarith)
      have h3 : growth X2 X3 * (δ + eps) = (δ + eps) + (growth X2 X3 - 1) * (δ + eps) := by ring
      rw [h3]
      linarith
    · rw [if_neg hW]
      refine le_trans ?_ big
      obtain ⟨k1, k2, k3⟩ := keep_near (x := min q (V + PR t)) (le_min hd0 (by linarith))
      have hm1 : -δ ≤ (V + PR t - min q (V + PR t)) - (B + PR t - q) ∧ (V + PR t - min q (V + PR t)) - (B + PR t - q) ≤ δ := by
        rcases _root_.le_total q (V + PR t) with h | h
        · rw [min_eq_left h]; constructor <;> linarith
        · rw [min_eq_right h]; constructor <;> linarith
      rw [keep_def (_ + x)]
      split
      · rw [zero_sub, abs_neg, abs_of_nonneg (by linarith)]
        linarith [hm1.1]
      · rw [abs_le]
        constructor <;> linarith [hm1.1, hm1.2]

/-- **C70 (distance).**  On any day, for any weather, the discharge of the run is within `23·(t+1)·gᵗ·10⁻⁸` mm of the published GR4J,
where `g = 1 + 3.5·max(0, X2)/X3`: there is no exponential growth unless water is gained from the groundwater. -/
theorem run_near (h : FairGR4J X1 X2 X3 X4 S0 P E) (lo : -(4 / 7 * X3) ≤ X2) (hi : X2 ≤ 4 / 10 * X3) (t : ℕ) :
    |runGR4J X1 X2 X3 X4 S0 P E t - bookGR4J X1 X2 X3 X4 S0 P E t| ≤ 23 * (t + 1) * (1 + 7 / 2 * (max 0 X2 / X3)) ^ t / 10 ^ 8 := by
  have h3 := h.routing
  have h4 := h.base
  have hf := h.toFair
  have hG := growth_one (X2 := X2) h3
  have he := eps_pos
  have hp : ∀ t, 0 ≤ runPR X1 S0 P E t := fun t => (runPR_bounds hf t).1
  have h1 := held_near h3 h4 hi hp t
  have h2 := discharge_near h3 h4 lo hi (runPR X1 S0 P E) (bookPR X1 S0 P E) t
  have h5 := production_near hf (t + 1)
  have h6 := discharge_held h3 h4 hi hp t
  have hV : 0 ≤ held (runPR X1 S0 P E) (Doc.dischargeGR4J X2 X3 X4 (runPR X1 S0 P E)) (exchangedGR4J X2 X3 X4 (runPR X1 S0 P E)) t := by
    cases t with
    | zero => exact le_refl 0
    | succ t => rw [held_succ]; exact keep_nonneg _
  have hd0 : 0 ≤ Doc.dischargeGR4J X2 X3 X4 (runPR X1 S0 P E) t := by
    have hq1 := (release_bounds h3 (le_max_left 0 (Doc.storeGR4J X2 X3 X4 (runPR X1 S0 P E) t + Doc.routed (Doc.sCurve1 X4) (fun s => 0.9 * runPR X1 S0 P E s) t +
      Doc.exchangeGR4J X2 (Doc.storeGR4J X2 X3 X4 (runPR X1 S0 P E) t) X3))).1
    exact add_nonneg hq1 (le_max_left _ _)
  unfold runGR4J released bookGR4J
  dsimp only
  have eg : growth X2 X3 = 1 + 7 / 2 * (max 0 X2 / X3) := rfl
  rw [← eg]
  have hpt := hp t
  set PR := runPR X1 S0 P E
  set q := Doc.dischargeGR4J X2 X3 X4 PR t
  set b := Doc.dischargeGR4J X2 X3 X4 (bookPR X1 S0 P E) t
  set V := held PR (Doc.dischargeGR4J X2 X3 X4 PR) (exchangedGR4J X2 X3 X4 PR) t
  set D := ∑ s ∈ Finset.range (t + 1), |PR s - bookPR X1 S0 P E s|
  set G := growth X2 X3 ^ t with hGd
  have hG1 : 1 ≤ G := one_le_pow₀ hG
  have hD : D ≤ 5 * eps * (t + 1 : ℕ) := by
    have := abs_nonneg (level X1 S0 P E (t + 1) - bookLevel X1 S0 P E (t + 1))
    linarith
  obtain ⟨k1, k2, k3⟩ := keep_near (x := min q (V + PR t)) (le_min hd0 (by linarith))
  obtain ⟨d1, d2⟩ := abs_le.1 h1
  have cap : |keep (min q (V + PR t)) - q| ≤ t * eps * G + eps := by
    have hpos : 0 ≤ t * eps * G := by positivity
    rcases _root_.le_total q (V + PR t) with h | h
    · rw [min_eq_left h] at k1 k2 k3 ⊢
      rw [abs_le]; constructor <;> linarith
    · rw [min_eq_right h] at k1 k2 k3 ⊢
      rw [abs_le]; constructor <;> linarith
  have tri := abs_sub_le (keep (min q (V + PR t))) q b
  have m1 : 44 / 10 * G * D ≤ 44 / 10 * G * (5 * eps * (t + 1 : ℕ)) := mul_le_mul_of_nonneg_left hD (by linarith)
  have m2 : eps ≤ eps * G := le_mul_of_one_le_right he.le hG1
  have fin : (23 : ℝ) * (t + 1) * G / 10 ^ 8 = 23 * (t + 1) * G * eps := by unfold eps; ring
  rw [fin]
  push_cast at m1
  have t0 : (0 : ℝ) ≤ t := Nat.cast_nonneg t
  nlinarith [mul_nonneg t0 he.le]

end

/-! ## Over the basin -/

theorem list_sum_abs_le {α : Type} (w : α → ℝ) (f g : α → ℝ) {b : ℝ} : ∀ l : List α, (∀ x ∈ l, 0 ≤ w x ∧ |f x - g x| ≤ b) →
    |(l.map fun x => w x * f x).sum - (l.map fun x => w x * g x).sum| ≤ (l.map w).sum * b := by
  intro l
  induction l with
  | nil => intro _; simp
  | cons x l ih =>
    intro h
    obtain ⟨hw, hb⟩ := h x List.mem_cons_self
    have := ih fun y hy => h y (List.mem_cons_of_mem _ hy)
    simp only [List.map_cons, List.sum_cons]
    have e : w x * f x + (l.map fun x => w x * f x).sum - (w x * g x + (l.map fun x => w x * g x).sum) =
      w x * (f x - g x) + ((l.map fun x => w x * f x).sum - (l.map fun x => w x * g x).sum) := by ring
    rw [e, add_mul]
    refine le_trans (abs_add_le _ _) (add_le_add ?_ this)
    rw [abs_mul, abs_of_nonneg hw]
    exact mul_le_mul_of_nonneg_left hb hw

/-- The mean over the basin of amounts within `b` of each other. -/
theorem overBasin_near {inp : Input ℝ} (ha : ∀ un ∈ inp.units, 0 ≤ un.area) {f g : ℕ → ℕ → ℝ} {t : ℕ} {b : ℝ} (hb : 0 ≤ b)
    (h : ∀ u < inp.units.length, |f u t - g u t| ≤ b) : |overBasin inp f t - overBasin inp g t| ≤ b := by
  have hA : 0 ≤ Spec.basinArea inp := List.sum_nonneg (by
    intro x hx
    obtain ⟨v, hv, rfl⟩ := List.mem_map.1 hx
    exact ha v hv)
  unfold overBasin
  refine le_trans (list_sum_abs_le (fun uu : UnitIn ℝ × ℕ => uu.1.area / Spec.basinArea inp) (fun uu => f uu.2 t) (fun uu => g uu.2 t)
    (b := b) inp.units.zipIdx ?_) ?_
  · intro uu huu
    have hu := List.mem_zipIdx_iff_getElem?.1 huu
    exact ⟨div_nonneg (ha _ (List.mem_of_getElem? hu)) hA, h uu.2 (List.getElem?_eq_some_iff.1 hu).1⟩
  · have e : (inp.units.zipIdx.map fun uu : UnitIn ℝ × ℕ => uu.1.area / Spec.basinArea inp).sum = Spec.basinArea inp / Spec.basinArea inp := by
      have e1 : (inp.units.zipIdx.map fun uu : UnitIn ℝ × ℕ => uu.1.area / Spec.basinArea inp) =
          (inp.units.map fun un => un.area).map fun a => a / Spec.basinArea inp := by
        rw [List.map_map]
        conv_rhs => rw [← List.zipIdx_map_fst 0 inp.units, List.map_map]
        rfl
      rw [e1]
      simp only [div_eq_mul_inv]
      rw [List.sum_map_mul_right, List.map_id']
      rfl
    rw [e]
    exact mul_le_of_le_one_left hb (div_self_le_one _)

/-- **C70 (distance to the published model).**  The discrete GR4J without snow and with one land cover, for any number of units, any
solver and any weather: on day `t` the discharge is within `23·(t+1)·gᵗ·10⁻⁸` mm of the mean over the area of the published GR4J, with
`g = 1 + 3.5·max(0, X2)/X3`.  Without gain from the groundwater (`X2 ≤ 0`) the distance grows by at most 23·10⁻⁸ mm a day. -/
theorem c70_gr4j_close {o : GrOpts} (hd : o.discrete = true) (hm : o.melt = none) (h6 : o.six = false) {c : PyCover} (hk : c.kind ≠ "glacier")
    (hc : Spec.GoodCovers [c]) (ho : Spec.GoodGr o) {inp : Input ℝ} (hf : Spec.FromModel (gr o [c]) inp) (ha : ∀ un ∈ inp.units, 0 ≤ un.area)
    {X1 X2 X3 X4 S0 : ℝ} {weather : ℕ → ℕ → Weather} {E : ℕ → ℕ → ℝ} (lo : -(4 / 7 * X3) ≤ X2) (hi : X2 ≤ 4 / 10 * X3)
    (hw : ∀ u < inp.units.length, Spec.Gr.FairGR4J X1 X2 X3 X4 S0 (fun t => (weather u t).P * (weather u t).rcf) (E u)) :
    ∃ m, build inp = .ok m ∧ ∀ (ext : ℕ → ℕ → ℝ), (∀ u < inp.units.length, ext u 0 = 1) →
      ∀ (sch : Scheme ℝ (GrHid GR4JSt)) (n : ℕ) (s : Sys ℝ (GrHid GR4JSt)), Spec.Gr.Fresh false inp X1 S0 (emptyGR4J X4) s →
      ∃ recs s', runSteps (Asm.asm inp m ext) (grLaws inp m ext "routing:gr4j" (routerGR4J ⟨X2, X3, uh1 X4, uh2 X4⟩) weather E) sch 1 grTick n s = .ok (recs, s') ∧
        recs.length = n ∧ ∀ (t : ℕ) (Q : ℝ), (recs.map (outletDischarge (Asm.asm inp m ext)))[t]? = some Q →
          |Q - Spec.Gr.overBasin inp (fun u t => Spec.Gr.bookGR4J X1 X2 X3 X4 S0 (fun t => (weather u t).P * (weather u t).rcf) (E u) t) t| ≤
            23 * (t + 1) * (1 + 7 / 2 * (max 0 X2 / X3)) ^ t / 10 ^ 8 := by
  obtain ⟨m, hb, h⟩ := c70_gr4j hd hm h6 hk hc ho hf ha hw
  refine ⟨m, hb, fun ext hext sch n s hfresh => ?_⟩
  obtain ⟨recs, s', hr, hq⟩ := h ext hext sch n s hfresh
  refine ⟨recs, s', hr, ?_, fun t Q hQ => ?_⟩
  · have := congrArg List.length hq
    simpa using this
  · rw [hq] at hQ
    have ht : t < n := by
      have := (List.getElem?_eq_some_iff.1 hQ).1
      simpa using this
    rw [List.getElem?_map, List.getElem?_range ht] at hQ
    simp only [Option.map_some, Option.some.injEq] at hQ
    rw [← hQ]
    by_cases hn : inp.units = []
    · unfold overBasin
      rw [hn]
      simp only [List.zipIdx_nil, List.map_nil, List.sum_nil, sub_self, abs_zero]
      by_cases h3 : 0 < X3
      · have := growth_one (X2 := X2) h3
        unfold growth at this
        positivity
      · have h0 : X3 = 0 := by linarith
        subst h0
        simp only [div_zero, mul_zero, add_zero]
        positivity
    · have h3 := (hw 0 (List.length_pos_of_ne_nil hn)).routing
      have := growth_one (X2 := X2) h3
      unfold growth at this
      exact overBasin_near ha (by positivity) fun u hu => run_near (hw u hu) lo hi t

end

end HB
