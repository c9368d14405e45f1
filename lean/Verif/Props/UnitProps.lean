import Verif.Model.UnitProps
import Verif.Spec.UnitProps

/-!
# C51 — lateral connections and unit properties
-/
set_option linter.unusedSectionVars false

namespace HB

/-- **C51 (lateral connections).** A connection is accepted exactly when its fraction lies in ]0, 1]; it is then appended as
given and the others are kept. -/
theorem c51_lateral {K : Type} [Field K] [LinearOrder K] [IsStrictOrderedRing K] (l : List (LatConn K)) (receiver : ℕ)
    (f : K) (type : String) :
    ((0 < f ∧ f ≤ 1) ↔ (addLateral l receiver f type).isSome) ∧
    ∀ l', addLateral l receiver f type = some l' → l' = l ++ [⟨receiver, f, type⟩] := by
  unfold addLateral
  by_cases h : f ≤ 0 ∨ f > 1
  · rw [if_pos h]
    refine ⟨⟨fun ⟨h1, h2⟩ => ?_, by simp⟩, by simp⟩
    rcases h with h | h
    · exact absurd h1 (not_lt.mpr h)
    · exact absurd h2 (not_le.mpr h)
  · rw [if_neg h]
    push Not at h
    exact ⟨⟨fun _ => rfl, fun _ => h⟩, fun l' e => (Option.some.inj e).symm⟩

/-- Series of requests: every stored connection has its fraction in ]0, 1], whatever was asked for. -/
theorem c51_all_valid {K : Type} [Field K] [LinearOrder K] [IsStrictOrderedRing K] (reqs : List (LatConn K)) :
    ∀ c ∈ reqs.foldl (fun l r => (addLateral l r.receiver r.fraction r.type).getD l) [],
      0 < c.fraction ∧ c.fraction ≤ 1 := by
  have key : ∀ (reqs l : List (LatConn K)), (∀ c ∈ l, 0 < c.fraction ∧ c.fraction ≤ 1) →
      ∀ c ∈ reqs.foldl (fun l r => (addLateral l r.receiver r.fraction r.type).getD l) l, 0 < c.fraction ∧ c.fraction ≤ 1 := by
    intro reqs
    induction reqs with
    | nil => intro l h c hc; exact h c hc
    | cons r rs ih =>
      intro l h
      rw [List.foldl_cons]
      apply ih
      intro c hc
      unfold addLateral at hc
      split_ifs at hc with hb
      · exact h c hc
      · push Not at hb
        rw [Option.getD_some] at hc
        rcases List.mem_append.mp hc with hc | hc
        · exact h c hc
        · rw [List.mem_singleton] at hc; subst hc; exact hb
  exact key reqs [] (by simp)

theorem arctan_back (v : ℝ) (h1 : -90 < v) (h2 : v < 90) : Real.arctan (Real.tan (v * Real.pi / 180)) = v * Real.pi / 180 := by
  have := Real.pi_pos
  apply Real.arctan_tan <;> nlinarith

/-- **C51 (units).** Whenever a value is returned for a property stored in degrees (spelled "degrees" or "deg") or in square
metres (or asked in its own unit), it stands for the same quantity in the requested unit.  Slopes strictly between -90 and
90 degrees. -/
theorem c51_units_partial (own u : String) (v w : ℝ) (a b : Spec.Measure) (ha : Spec.measureOf own = some a)
    (hb : Spec.measureOf u = some b) (hspell : own ≠ "degree" ∧ own ≠ "°") (h1 : -90 < v) (h2 : a = .angleDeg → v < 90)
    (h : propValue own v u = some w) :
    Spec.sameKind a b = true ∧ Spec.quantity b w = Spec.quantity a v := by
  have back : a = .angleDeg → Real.arctan (Real.tan (v * Real.pi / 180)) = v * Real.pi / 180 :=
    fun e => arctan_back v h1 (h2 e)
  by_cases hou : own = u
  · subst hou
    rw [ha] at hb; cases hb
    unfold propValue at h
    rw [if_pos rfl] at h
    cases h
    refine ⟨?_, rfl⟩
    cases a <;> rfl
  · unfold propValue at h
    rw [if_neg hou] at h
    obtain ⟨s1, s2⟩ := hspell
    split_ifs at h with c1 c2 c3 c4 c5 c6
    · obtain ⟨d1, d2⟩ := c1
      have hd : own = "degrees" ∨ own = "deg" := by simpa only [s1, s2, false_or, or_false] using d1
      have hdu : u = "degrees" ∨ u = "deg" := by simpa only [s1, s2, false_or, or_false] using d2
      have ea : a = .angleDeg := by rcases hd with rfl | rfl <;> exact (Option.some.inj ha).symm
      have eb : b = .angleDeg := by rcases hdu with rfl | rfl <;> exact (Option.some.inj hb).symm
      cases h; subst ea eb; exact ⟨rfl, rfl⟩
    · obtain ⟨d1, d2⟩ := c2
      have hd : own = "degrees" ∨ own = "deg" := by simpa only [s1, s2, false_or, or_false] using d1
      have ea : a = .angleDeg := by rcases hd with rfl | rfl <;> exact (Option.some.inj ha).symm
      have eb : b = .angleRad := by rcases d2 with rfl | rfl <;> exact (Option.some.inj hb).symm
      cases h; subst ea eb; exact ⟨rfl, rfl⟩
    · obtain ⟨d1, d2⟩ := c3
      have hd : own = "degrees" ∨ own = "deg" := by simpa only [s1, s2, false_or, or_false] using d1
      have ea : a = .angleDeg := by rcases hd with rfl | rfl <;> exact (Option.some.inj ha).symm
      have eb : b = .slopePercent := by rcases d2 with rfl | rfl <;> exact (Option.some.inj hb).symm
      cases h; subst ea eb
      refine ⟨rfl, ?_⟩
      simp only [Spec.quantity]
      rw [mul_div_cancel_left₀ _ (by norm_num : (100 : ℝ) ≠ 0)]
      exact back rfl
    · obtain ⟨d1, d2⟩ := c4
      have hd : own = "degrees" ∨ own = "deg" := by simpa only [s1, s2, false_or, or_false] using d1
      have ea : a = .angleDeg := by rcases hd with rfl | rfl <;> exact (Option.some.inj ha).symm
      have eb : b = .slopeRatio := by rcases d2 with rfl | rfl <;> exact (Option.some.inj hb).symm
      cases h; subst ea eb
      exact ⟨rfl, back rfl⟩
    · obtain ⟨d1, rfl⟩ := c5
      have ea : a = .areaM2 := by rcases d1 with rfl | rfl <;> exact (Option.some.inj ha).symm
      have eb : b = .areaHa := (Option.some.inj hb).symm
      cases h; subst ea eb
      refine ⟨rfl, ?_⟩
      simp only [Spec.quantity]; ring
    · obtain ⟨d1, d2⟩ := c6
      have ea : a = .areaM2 := by rcases d1 with rfl | rfl <;> exact (Option.some.inj ha).symm
      have eb : b = .areaKm2 := by rcases d2 with rfl | rfl <;> exact (Option.some.inj hb).symm
      cases h; subst ea eb
      refine ⟨rfl, ?_⟩
      simp only [Spec.quantity]; ring

/-- Which requests get a value: the stored unit itself, any slope unit from degrees, hectares and square kilometres from
square metres (not the other spelling of square metres). -/
theorem c51_supported (own u : String) (v : ℝ) (hspell : own ≠ "degree" ∧ own ≠ "°") :
    (propValue own v u).isSome ↔ own = u ∨
      ((own = "degrees" ∨ own = "deg") ∧ u ∈ ["degrees", "deg", "radians", "rad", "percent", "%", "m/m", "m_per_m"]) ∨
      ((own = "m2" ∨ own = "m^2") ∧ u ∈ ["ha", "km2", "km^2"]) := by
  obtain ⟨s1, s2⟩ := hspell
  unfold propValue
  simp only [List.mem_cons, List.not_mem_nil, or_false, s1, s2, false_or]
  split_ifs with c0 c1 c2 c3 c4 c5 c6
  · simp only [Option.isSome_some, true_iff]; exact Or.inl c0
  · simp only [Option.isSome_some, true_iff]
    exact Or.inr (Or.inl ⟨c1.1, c1.2.elim Or.inl fun h => Or.inr (Or.inl h)⟩)
  · simp only [Option.isSome_some, true_iff]
    refine Or.inr (Or.inl ⟨c2.1, ?_⟩)
    rcases c2.2 with h | h <;> simp [h]
  · simp only [Option.isSome_some, true_iff]
    refine Or.inr (Or.inl ⟨c3.1, ?_⟩)
    rcases c3.2 with h | h <;> simp [h]
  · simp only [Option.isSome_some, true_iff]
    refine Or.inr (Or.inl ⟨c4.1, ?_⟩)
    rcases c4.2 with h | h <;> simp [h]
  · simp only [Option.isSome_some, true_iff]
    refine Or.inr (Or.inr ⟨c5.1, ?_⟩)
    simp [c5.2]
  · simp only [Option.isSome_some, true_iff]
    refine Or.inr (Or.inr ⟨c6.1, ?_⟩)
    rcases c6.2 with h | h <;> simp [h]
  · simp only [Option.isSome_none, Bool.false_eq_true, false_iff]
    rintro (h | ⟨hp, h | h | h | h | h | h | h | h⟩ | ⟨hq, h | h | h⟩)
    · exact c0 h
    · exact c1 ⟨hp, Or.inl h⟩
    · exact c1 ⟨hp, Or.inr h⟩
    · exact c2 ⟨hp, Or.inl h⟩
    · exact c2 ⟨hp, Or.inr h⟩
    · exact c3 ⟨hp, Or.inl h⟩
    · exact c3 ⟨hp, Or.inr h⟩
    · exact c4 ⟨hp, Or.inl h⟩
    · exact c4 ⟨hp, Or.inr h⟩
    · exact c5 ⟨hq, h⟩
    · exact c6 ⟨hq, Or.inl h⟩
    · exact c6 ⟨hq, Or.inr h⟩

/-- The conversions are one-way: a property stored in radians cannot be asked in degrees, nor hectares in square metres. -/
theorem c51_one_way (v : ℝ) : propValue "rad" v "degrees" = none ∧ propValue "ha" v "m2" = none ∧
    propValue "m2" v "m^2" = none := by
  refine ⟨?_, ?_, ?_⟩ <;> (unfold propValue; simp)

/-- The defect: a property stored in "degree" (or "°") is returned unconverted whatever unit is asked for — 45 degrees are
reported as 45 radians, 45 percent, even 45 hectares. -/
theorem c51_degree_unconverted (v : ℝ) (u : String) : propValue "degree" v u = some v ∧ propValue "°" v u = some v := by
  constructor <;> (unfold propValue; simp)

/-- ... which is wrong already for 45 degrees in radians. -/
theorem c51_degree_wrong : propValue "degree" 45 "radians" = some 45 ∧
    Spec.quantity .angleRad 45 ≠ Spec.quantity .angleDeg 45 := by
  refine ⟨(c51_degree_unconverted 45 "radians").1, ?_⟩
  simp only [Spec.quantity]
  have := Real.pi_le_four
  intro h
  nlinarith

/-- Hypotheses of the unit theorem met: 45 degrees in percent, one hectare. -/
example : propValue "degrees" 45 "percent" = some (100 * Real.tan (45 * Real.pi / 180)) ∧
    Spec.measureOf "degrees" = some .angleDeg ∧ Spec.measureOf "percent" = some .slopePercent ∧
    propValue "m2" 10000 "ha" = some (10000 / 10000) := by
  refine ⟨by unfold propValue; simp, rfl, rfl, by unfold propValue; simp⟩

end HB
