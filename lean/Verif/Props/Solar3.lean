import Verif.Props.Solar2
import Mathlib.Data.List.Basic
import Mathlib.Algebra.BigOperators.Group.Finset.Basic
import Mathlib.Algebra.BigOperators.Intervals
import Mathlib.Algebra.Order.BigOperators.Group.Finset

/-! # C92: the radiation of a day -/

set_option linter.unusedSectionVars false

namespace HB.Solar

open Real

theorem mapM_all {ε α β : Type} (f : α → Except ε β) (g : α → β) : ∀ l : List α, (∀ x ∈ l, f x = .ok (g x)) → l.mapM f = .ok (l.map g)
  | [], _ => rfl
  | x :: l, h => by
    rw [List.mapM_cons, h x (by simp), mapM_all f g l (fun y hy => h y (by simp [hy]))]
    rfl

theorem interval_turn {s : ℕ} (h : 0 < s) : 0 < interval s ∧ 24 * (s : ℝ) * interval s = 2 * Real.pi := by
  have hs : (0:ℝ) < s := by exact_mod_cast h
  have hp := Real.pi_pos
  unfold interval toRad
  constructor
  · positivity
  · field_simp; norm_num

/-- From the sunset to the next sunrise the sun is not above the horizon. -/
theorem night {lat decl l ha : ℝ} (h : |lat| + |decl| < Real.pi / 2) (hl : 0 < l) (hl' : l < Real.pi)
    (hu : ∀ ha, (Spec.Solar.sun lat decl ha).up = cos lat * cos decl * (cos ha - cos l)) (h1 : l ≤ ha) (h2 : ha ≤ 2 * Real.pi - l) :
    (Spec.Solar.sun lat decl ha).up ≤ 0 := by
  obtain ⟨c1, c2, _⟩ := cos_bound h
  have : cos ha ≤ cos l := by
    rcases le_total ha Real.pi with h' | h'
    · exact Real.strictAntiOn_cos.antitoneOn ⟨hl.le, hl'.le⟩ ⟨by linarith, h'⟩ h1
    · have e : cos ha = cos (2 * Real.pi - ha) := by rw [Real.cos_two_pi_sub]
      rw [e]
      exact Real.strictAntiOn_cos.antitoneOn ⟨hl.le, hl'.le⟩ ⟨by linarith, by linarith⟩ (by linarith)
  rw [hu]
  exact mul_nonpos_of_nonneg_of_nonpos (mul_pos c1 c2).le (by linarith)

/-- An instant with the sun not above the horizon. -/
theorem instant_dark {ι : Type} (I : Inputs ι) (day : ℤ) (ha : ℝ) (h : (Spec.Solar.sun I.lat (declination day) ha).up ≤ 0) :
    instant I day ha = .ok fun _ => some 0 := by
  unfold instant
  rw [zenith_eq]
  have hp := Real.pi_pos
  have h1 : Real.pi / 2 ≤ arccos (Spec.Solar.sun I.lat (declination day) ha).up := by
    by_contra hn
    have := Real.arccos_lt_pi_div_two.mp (not_le.mp hn)
    linarith
  have : 90 ≤ arccos (Spec.Solar.sun I.lat (declination day) ha).up * toDeg := by
    unfold toDeg; rw [mul_div_assoc', le_div_iff₀ hp]; linarith
  simp only [if_pos this]

theorem radiation_dark (elev trans : ℝ) (day : ℤ) (s n : Spec.Solar.Dir) (h : s.up ≤ 0) : Spec.Solar.radiation elev trans day s n = 0 := by
  unfold Spec.Solar.radiation; rw [if_neg (dark h)]

theorem sum_range_list (f : ℕ → ℝ) : ∀ n : ℕ, ((List.range n).map f).sum = ∑ j ∈ Finset.range n, f j
  | 0 => by simp
  | n + 1 => by rw [List.range_succ, List.map_append, List.sum_append, sum_range_list f n, Finset.sum_range_succ]; simp

/-- **The radiation of a day**: where the sun rises and sets that day, and (in the tropics and the south) no instant is exactly noon, the day's computation succeeds and
gives in each cell the mean, over the `24 * steps_per_hour` instants equally spread over the whole day from the sunrise on, of the radiation of the sun on the cell's
ground, save the share in the cast shade; the instants of the night count as zero. -/
theorem c92_daily {ι : Type} (I : Inputs ι) (day : ℤ) (hs : 0 < I.steps) (hc : ∃ i s, I.cell i = some s) (h : |I.lat| + |declination day| < Real.pi / 2)
    (hn : declination day < I.lat ∨ ∀ l, hourLimit (declination day) I.lat = some l → ∀ j : ℕ, -l + j * (2 * Real.pi / (24 * (I.steps : ℝ))) ≠ 0) :
    ∃ (f : ι → ℝ) (l : ℝ) (z a : ℕ → ℝ), daily I day = .ok f ∧ hourLimit (declination day) I.lat = some l ∧
      (∀ j : ℕ, 0 < (Spec.Solar.sun I.lat (declination day) (-l + j * (2 * Real.pi / (24 * (I.steps : ℝ))))).up → j < 24 * I.steps →
        0 ≤ z j ∧ z j ≤ 180 ∧ -180 < a j ∧ a j < 180 ∧
        Spec.Solar.direction (z j) (a j) = Spec.Solar.sun I.lat (declination day) (-l + j * (2 * Real.pi / (24 * (I.steps : ℝ))))) ∧
      ∀ i, (I.cell i = none → f i = 0) ∧ ∀ slope aspect, I.cell i = some (slope, aspect) →
        f i = (∑ j ∈ Finset.range (24 * I.steps),
          Spec.Solar.radiation I.elev I.trans day (Spec.Solar.sun I.lat (declination day) (-l + j * (2 * Real.pi / (24 * (I.steps : ℝ)))))
            (Spec.Solar.normal slope aspect) * (1 - I.shade (z j) (a j) i)) / (24 * (I.steps : ℝ)) := by
  obtain ⟨l, hl, l0, l1, hu⟩ := limit_eq h
  obtain ⟨dt0, dt1⟩ := interval_turn hs
  have hsr : (0:ℝ) < I.steps := by exact_mod_cast hs
  have hdt : 2 * Real.pi / (24 * (I.steps : ℝ)) = interval I.steps := by rw [← dt1]; field_simp
  rw [hdt] at hn ⊢
  set dt := interval I.steps with hdtdef
  have hlat : |I.lat| < Real.pi / 2 := by have := abs_nonneg (declination day); linarith
  set n := arangeLen (-l) (l + dt) dt with hndef
  -- the number of instants
  have hn0 : (n : ℝ) ≥ (2 * l + dt) / dt := by
    have : ((l + dt - -l) / dt) ≤ (⌈(l + dt - -l) / dt⌉ : ℝ) := Int.le_ceil _
    have h0 : (0 : ℤ) ≤ ⌈(l + dt - -l) / dt⌉ := Int.ceil_nonneg (div_nonneg (by linarith) dt0.le)
    have h1 : ((n : ℤ) : ℝ) = (⌈(l + dt - -l) / dt⌉ : ℝ) := by rw [hndef]; unfold arangeLen; rw [Int.toNat_of_nonneg h0]
    have h2 : (n : ℝ) = ((n : ℤ) : ℝ) := by simp
    rw [h2, h1]
    have e : 2 * l + dt = l + dt - -l := by ring
    rw [e]; exact this
  have hn1 : n ≤ 24 * I.steps + 1 := by
    rw [hndef]; unfold arangeLen
    rw [Int.toNat_le, Int.ceil_le]
    rw [div_le_iff₀ dt0]
    push_cast
    have : ((24 : ℝ) * I.steps + 1) * dt = 2 * Real.pi + dt := by rw [add_mul, dt1]; ring
    linarith
  -- each instant
  have hday : ∀ j : ℕ, j < 24 * I.steps + 1 → ¬ (Spec.Solar.sun I.lat (declination day) (-l + j * dt)).up ≤ 0 → (-Real.pi < -l + j * dt ∧ -l + j * dt < Real.pi) := by
    intro j hj hup
    have hj0 : (0:ℝ) ≤ j * dt := by positivity
    refine ⟨by linarith, ?_⟩
    by_contra hge
    refine hup (night h l0 l1 hu (by linarith) ?_)
    have : (j : ℝ) ≤ 24 * I.steps := by have : j ≤ 24 * I.steps := by omega
                                        exact_mod_cast this
    have : (j : ℝ) * dt ≤ 2 * Real.pi := by rw [← dt1]; exact mul_le_mul_of_nonneg_right this dt0.le
    linarith
  have hex : ∀ j : ℕ, ∃ (f : ι → Option ℝ) (z a : ℝ), (j < 24 * I.steps + 1 → instant I day (-l + j * dt) = .ok f ∧
      (0 < (Spec.Solar.sun I.lat (declination day) (-l + j * dt)).up → 0 ≤ z ∧ z ≤ 180 ∧ -180 < a ∧ a < 180 ∧
        Spec.Solar.direction z a = Spec.Solar.sun I.lat (declination day) (-l + j * dt)) ∧
      ∀ i, (I.cell i = none → (f i).getD 0 = 0) ∧ ∀ slope aspect, I.cell i = some (slope, aspect) →
        (f i).getD 0 = Spec.Solar.radiation I.elev I.trans day (Spec.Solar.sun I.lat (declination day) (-l + j * dt)) (Spec.Solar.normal slope aspect) * (1 - I.shade z a i)) := by
    intro j
    by_cases hup : (Spec.Solar.sun I.lat (declination day) (-l + j * dt)).up ≤ 0
    · refine ⟨fun _ => some 0, 0, 0, fun _ => ⟨instant_dark I day _ hup, fun hp => absurd hup (by linarith), fun i => ⟨fun _ => rfl, fun slope aspect _ => ?_⟩⟩⟩
      rw [radiation_dark _ _ _ _ _ hup]; simp
    · by_cases hj : j < 24 * I.steps + 1
      · obtain ⟨b1, b2⟩ := hday j hj hup
        obtain ⟨f, z, a, q1, q2, q3, q4, q5, q6, q7⟩ := c92_instant I day (-l + j * dt) hc hlat b1 b2 (by
          rcases hn with hn | hn
          · exact Or.inr hn
          · exact Or.inl (hn l hl j))
        exact ⟨f, z, a, fun _ => ⟨q1, fun _ => ⟨q2, q3, q4, q5, q6⟩, q7⟩⟩
      · exact ⟨fun _ => none, 0, 0, fun h => absurd h hj⟩
  choose f z a hf using hex
  have hall : (List.range n).mapM (fun j => instant I day (arangeAt (-l) dt j)) = .ok ((List.range n).map f) := by
    refine mapM_all _ _ _ (fun j hj => ?_)
    have : j < 24 * I.steps + 1 := by rw [List.mem_range] at hj; omega
    exact (hf j this).1
  refine ⟨_, l, z, a, by unfold daily; rw [hl]; simp only [← hdtdef, ← hndef, hall]; rfl, hl, fun j hj1 hj2 => (hf j (by omega)).2.1 hj1, fun i => ?_⟩
  rw [List.map_map]
  have hsum : ∀ g : ℕ → ℝ, (∀ j < 24 * I.steps + 1, ((f j) i).getD 0 = g j) → (∀ j, j < 24 * I.steps + 1 → (Spec.Solar.sun I.lat (declination day) (-l + j * dt)).up ≤ 0 → g j = 0) →
      ((List.range n).map ((fun f => (f i).getD 0) ∘ f)).sum = ∑ j ∈ Finset.range (24 * I.steps), g j := by
    intro g h1 h2
    rw [sum_range_list]
    have e1 : ∑ j ∈ Finset.range n, ((fun f => (f i).getD 0) ∘ f) j = ∑ j ∈ Finset.range n, g j :=
      Finset.sum_congr rfl (fun j hj => h1 j (by rw [Finset.mem_range] at hj; omega))
    have hnight : ∀ j : ℕ, j < 24 * I.steps + 1 → n ≤ j + 1 → g j = 0 := by
      intro j hj hj'
      refine h2 j hj (night h l0 l1 hu ?_ ?_)
      · have : (n : ℝ) ≤ j + 1 := by exact_mod_cast hj'
        have : (2 * l + dt) / dt ≤ j + 1 := by linarith
        rw [div_le_iff₀ dt0] at this
        linarith
      · have : (j : ℝ) ≤ 24 * I.steps := by have : j ≤ 24 * I.steps := by omega
                                            exact_mod_cast this
        have : (j : ℝ) * dt ≤ 2 * Real.pi := by rw [← dt1]; exact mul_le_mul_of_nonneg_right this dt0.le
        linarith
    rw [e1]
    have e2 : ∑ j ∈ Finset.range n, g j = ∑ j ∈ Finset.range (24 * I.steps + 1), g j := by
      refine Finset.sum_subset (Finset.range_mono hn1) (fun j hj hj' => ?_)
      rw [Finset.mem_range] at hj hj'
      exact hnight j hj (by omega)
    rw [e2, Finset.sum_range_succ, hnight (24 * I.steps) (by omega) (by omega), add_zero]
  constructor
  · intro hi
    rw [hsum (fun _ => 0) (fun j hj => ((hf j hj).2.2 i).1 hi) (fun _ _ _ => rfl)]
    simp
  · intro slope aspect hi
    rw [hsum (fun j => Spec.Solar.radiation I.elev I.trans day (Spec.Solar.sun I.lat (declination day) (-l + j * dt)) (Spec.Solar.normal slope aspect) * (1 - I.shade (z j) (a j) i))
      (fun j hj => ((hf j hj).2.2 i).2 slope aspect hi) (fun j _ hup => by rw [radiation_dark _ _ _ _ _ hup]; simp)]

/-- North of the tropic and south of the polar circle, this holds on all days. -/
theorem c92_daily_all {ι : Type} (I : Inputs ι) (day : ℤ) (hs : 0 < I.steps) (hc : ∃ i s, I.cell i = some s)
    (h1 : Spec.Solar.deg 23.45 < I.lat) (h2 : I.lat < Spec.Solar.deg 66.55) :
    ∃ (f : ι → ℝ) (l : ℝ) (z a : ℕ → ℝ), daily I day = .ok f ∧ hourLimit (declination day) I.lat = some l ∧ 0 < l ∧ l < Real.pi ∧
      (Spec.Solar.sun I.lat (declination day) (-l)).up = 0 ∧
      (∀ j : ℕ, 0 < (Spec.Solar.sun I.lat (declination day) (-l + j * (2 * Real.pi / (24 * (I.steps : ℝ))))).up → j < 24 * I.steps →
        0 ≤ z j ∧ z j ≤ 180 ∧ -180 < a j ∧ a j < 180 ∧
        Spec.Solar.direction (z j) (a j) = Spec.Solar.sun I.lat (declination day) (-l + j * (2 * Real.pi / (24 * (I.steps : ℝ))))) ∧
      ∀ i, (I.cell i = none → f i = 0) ∧ ∀ slope aspect, I.cell i = some (slope, aspect) →
        f i = (∑ j ∈ Finset.range (24 * I.steps),
          Spec.Solar.radiation I.elev I.trans day (Spec.Solar.sun I.lat (declination day) (-l + j * (2 * Real.pi / (24 * (I.steps : ℝ)))))
            (Spec.Solar.normal slope aspect) * (1 - I.shade (z j) (a j) i)) / (24 * (I.steps : ℝ)) := by
  have hp := Real.pi_pos
  have hd := (c92_declination day).2.1
  have h0 : 0 < I.lat := by refine lt_trans ?_ h1; unfold Spec.Solar.deg; positivity
  have h90 : Spec.Solar.deg 66.55 + Spec.Solar.deg 23.45 = Real.pi / 2 := by unfold Spec.Solar.deg; ring
  have h : |I.lat| + |declination day| < Real.pi / 2 := by rw [abs_of_pos h0]; linarith
  obtain ⟨f, l, z, a, q1, q2, q3, q4⟩ := c92_daily I day hs hc h (Or.inl (by have := le_abs_self (declination day); linarith))
  obtain ⟨l', r1, r2, r3, r4⟩ := c92_limit I.lat (declination day) h
  rw [q2, Option.some.injEq] at r1
  subst r1
  refine ⟨f, l, z, a, q1, q2, r2, r3, ((r4 (-l) (by rw [abs_neg, abs_of_pos r2]; exact r3.le)).2).mpr (by rw [abs_neg, abs_of_pos r2]), q3, q4⟩

/-- **The range of a day's radiation**: never negative, and never above the solar constant at the least distance of the sun. -/
theorem c92_daily_range {ι : Type} (I : Inputs ι) (day : ℤ) (hs : 0 < I.steps) (hc : ∃ i s, I.cell i = some s) (h : |I.lat| + |declination day| < Real.pi / 2)
    (hn : declination day < I.lat ∨ ∀ l, hourLimit (declination day) I.lat = some l → ∀ j : ℕ, -l + j * (2 * Real.pi / (24 * (I.steps : ℝ))) ≠ 0)
    (ht0 : 0 < I.trans) (ht1 : I.trans ≤ 1) (he : I.elev ≤ 44000) (hsh : ∀ z a i, 0 ≤ I.shade z a i ∧ I.shade z a i ≤ 1) :
    ∃ f, daily I day = .ok f ∧ ∀ i, 0 ≤ f i ∧ f i ≤ 1368 / (1 - 0.017) ^ 2 := by
  obtain ⟨f, l, z, a, q1, q2, q3, q4⟩ := c92_daily I day hs hc h hn
  refine ⟨f, q1, fun i => ?_⟩
  have hN : (0:ℝ) < 24 * (I.steps : ℝ) := by have : (0:ℝ) < I.steps := by exact_mod_cast hs
                                             linarith
  have hM : (0:ℝ) ≤ 1368 / (1 - 0.017) ^ 2 := by norm_num
  cases hi : I.cell i with
  | none => rw [(q4 i).1 hi]; exact ⟨le_refl _, hM⟩
  | some s =>
    obtain ⟨slope, aspect⟩ := s
    rw [(q4 i).2 slope aspect hi]
    have hterm : ∀ j ∈ Finset.range (24 * I.steps),
        0 ≤ Spec.Solar.radiation I.elev I.trans day (Spec.Solar.sun I.lat (declination day) (-l + j * (2 * Real.pi / (24 * (I.steps : ℝ)))))
            (Spec.Solar.normal slope aspect) * (1 - I.shade (z j) (a j) i) ∧
        Spec.Solar.radiation I.elev I.trans day (Spec.Solar.sun I.lat (declination day) (-l + j * (2 * Real.pi / (24 * (I.steps : ℝ)))))
            (Spec.Solar.normal slope aspect) * (1 - I.shade (z j) (a j) i) ≤ 1368 / (1 - 0.017) ^ 2 := by
      intro j hj
      rw [Finset.mem_range] at hj
      obtain ⟨s0, s1⟩ := hsh (z j) (a j) i
      by_cases hup : (Spec.Solar.sun I.lat (declination day) (-l + j * (2 * Real.pi / (24 * (I.steps : ℝ))))).up ≤ 0
      · rw [radiation_dark _ _ _ _ _ hup, zero_mul]; exact ⟨le_refl _, hM⟩
      · obtain ⟨_, _, _, _, hdir⟩ := q3 j (not_le.mp hup) hj
        rw [← hdir]
        obtain ⟨b0, b1⟩ := c92_radiation_range I.elev I.trans day (z j) (a j) slope aspect ht0 ht1 he
        refine ⟨mul_nonneg b0 (by linarith), ?_⟩
        calc _ ≤ Spec.Solar.radiation I.elev I.trans day (Spec.Solar.direction (z j) (a j)) (Spec.Solar.normal slope aspect) * 1 :=
              mul_le_mul_of_nonneg_left (by linarith) b0
          _ ≤ _ := by rw [mul_one]; exact b1
    refine ⟨div_nonneg (Finset.sum_nonneg fun j hj => (hterm j hj).1) hN.le, ?_⟩
    rw [div_le_iff₀ hN]
    calc _ ≤ ∑ j ∈ Finset.range (24 * I.steps), (1368 / (1 - 0.017) ^ 2 : ℝ) := Finset.sum_le_sum fun j hj => (hterm j hj).2
      _ = _ := by rw [Finset.sum_const, Finset.card_range, nsmul_eq_mul]; push_cast; ring

/-! ## Examples -/

/-- One cell facing the south with a slope of 30 degrees, one without data, at the latitude 46 degrees, four instants an hour. -/
noncomputable def exampleInputs : Inputs Bool where
  steps := 4
  elev := 2500
  lat := Spec.Solar.deg 46
  trans := 0.75
  cell := fun b => if b then some (30, 180) else none
  shade := fun _ _ _ => 0

theorem c92_example (day : ℤ) : (0 < exampleInputs.steps) ∧ (∃ i s, exampleInputs.cell i = some s) ∧ Spec.Solar.deg 23.45 < exampleInputs.lat ∧
    exampleInputs.lat < Spec.Solar.deg 66.55 ∧ |exampleInputs.lat| + |declination day| < Real.pi / 2 ∧ declination day < exampleInputs.lat := by
  have hp := Real.pi_pos
  have hd := (c92_declination day).2.1
  have h0 : (0:ℝ) < Spec.Solar.deg 46 := by unfold Spec.Solar.deg; positivity
  have h1 : Spec.Solar.deg 23.45 < Spec.Solar.deg 46 := by unfold Spec.Solar.deg; nlinarith
  have h2 : Spec.Solar.deg 46 < Spec.Solar.deg 66.55 := by unfold Spec.Solar.deg; nlinarith
  have h90 : Spec.Solar.deg 66.55 + Spec.Solar.deg 23.45 = Real.pi / 2 := by unfold Spec.Solar.deg; ring
  refine ⟨by decide, ⟨true, (30, 180), rfl⟩, h1, h2, ?_, ?_⟩
  · show |Spec.Solar.deg 46| + _ < _
    rw [abs_of_pos h0]; linarith
  · show _ < Spec.Solar.deg 46
    have := le_abs_self (declination day); linarith

/-- At noon on the longest day at the latitude 53.45 degrees, a slope of 30 degrees facing the south is struck at right angles. -/
theorem c92_example_noon : (Spec.Solar.sun (Spec.Solar.deg 53.45) (declination 172) 0).dot (Spec.Solar.normal 30 180) = 1 := by
  rw [(c92_declination 172).2.2]
  have e1 : Spec.Solar.deg 180 = Real.pi := by unfold Spec.Solar.deg; ring
  have e2 : Spec.Solar.deg 53.45 = Spec.Solar.deg 23.45 + Spec.Solar.deg 30 := by unfold Spec.Solar.deg; ring
  simp only [Spec.Solar.Dir.dot, Spec.Solar.sun, Spec.Solar.normal, e1, e2, Real.cos_pi, Real.sin_pi, Real.cos_zero, Real.sin_zero, Real.sin_add, Real.cos_add]
  generalize Spec.Solar.deg 23.45 = x
  generalize Spec.Solar.deg 30 = y
  have h1 := sin_sq_add_cos_sq x
  have h2 := sin_sq_add_cos_sq y
  have : (sin x ^ 2 + cos x ^ 2) * (sin y ^ 2 + cos y ^ 2) = 1 := by rw [h1, h2]; norm_num
  linear_combination this

end HB.Solar
