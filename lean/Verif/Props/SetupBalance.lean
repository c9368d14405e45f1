import Verif.Props.Setup
import Verif.Props.PrecipExamples

/-!
# C74: a predefined model set up from declared inputs closes its water balance in every run
-/

set_option linter.unusedSectionVars false

namespace HB

open HB.Names HB.Wire HB.Basin HB.Setup

section
variable {K : Type} [Field K] [LinearOrder K] [IsStrictOrderedRing K] [FloorRing K]

/-- The extents of the model that is set up are those a network needs. -/
theorem Setup.extents_given {rnd : K → K} {vs : List Wire.Variant} {S : Setup.Settings K} {a b : CTime} {sc : SolverClass} {loaded : List Var}
    {M : Setup.Model K} {cs : List PyCover} (hcs : (cs.map (·.name)).Nodup) (h : Spec.SetUpAs rnd vs S a b sc loaded M) (hB : Spec.GoodBasin cs S.basin)
    (hone : ∀ u ∈ S.basin.units, (u.covers.map (·.fraction)).sum = 1) :
    Spec.AreasGiven M.input.base M.extent ∧ Spec.Covered M.input.base M.extent := by
  have main : ∀ (k : ℕ) (un : UnitIn K), M.input.base.units[k]? = some un → ∃ u ∈ S.basin.units, un.area = u.area ∧
      (un.str.covers.map (M.extent k)).sum = 1 ∧ ∀ i ∈ un.str.covers, ∃ c ∈ u.covers, M.extent k i = c.fraction := by
    intro k un hk
    have hlt : k < S.basin.units.length := by rw [← h.declared.units]; exact (List.getElem?_eq_some_iff.1 hk).1
    have hu := List.getElem?_eq_getElem hlt
    have hum := List.getElem_mem hlt
    obtain ⟨un', g, e1, e2, e3, -, -, e4, e5, -, ⟨c0, e6⟩, e7, e8⟩ := h.declared.unit k _ hu
    rw [hk] at e1
    cases e1
    have hext : un.str.covers.map (M.extent k) = g.hu.covers.map g.hu.frac := by
      have hx : ∀ i, M.extent k i = ((un.str.unitBricks[i]?).map (·.name)).elim 0 g.hu.frac := by
        intro i
        unfold Model.extent
        rw [hk, e2]
        cases hb : un.str.unitBricks[i]? <;> simp [hb]
      have : un.str.covers.map (M.extent k) = (un.str.covers.map fun i => (un.str.unitBricks[i]?).map (·.name)).map (fun o => o.elim 0 g.hu.frac) := by
        rw [List.map_map]
        exact List.map_congr_left fun i _ => hx i
      rw [this, e4, List.map_map]
      rfl
    have hfr : ∀ c ∈ g.hu.covers, ∃ e ∈ S.basin.units[k].covers, e.name = c ∧ g.hu.frac c = e.fraction := by
      intro c hc
      obtain ⟨e, he, rfl⟩ := e7 c hc
      exact ⟨e, he, rfl, e6 e he hc (.inr (hone _ hum))⟩
    refine ⟨_, hum, e3, ?_, fun i hi => ?_⟩
    · rw [hext]
      have hn : (S.basin.units[k].covers.map (·.name)).Nodup := by
        rw [hB.covers _ hum]
        exact hcs
      have := total_declared hn e8.nodup (fun n hn => by obtain ⟨e, he, h⟩ := e7 n hn; exact List.mem_map.2 ⟨e, he, h⟩) e5
      rw [hone _ hum] at this
      rw [← this]
      congr 1
      refine List.map_congr_left fun c hc => ?_
      obtain ⟨e, he, rfl, h2⟩ := hfr c hc
      rw [h2, declared_of hn he]
    · have hm : M.extent k i ∈ un.str.covers.map (M.extent k) := List.mem_map.2 ⟨i, hi, rfl⟩
      rw [hext] at hm
      obtain ⟨c, hc, h1⟩ := List.mem_map.1 hm
      obtain ⟨e, he, -, h2⟩ := hfr c hc
      exact ⟨e, he, by rw [← h1, h2]⟩
  have e8 : (0 : K) < 1 / 10 ^ 8 := by positivity
  refine ⟨⟨fun un hun => ?_, fun k un hk i hi => ?_⟩, ⟨fun k un hk => ?_, fun k un hk i hi => ?_⟩⟩
  · obtain ⟨k, hk⟩ := List.mem_iff_getElem?.1 hun
    obtain ⟨u, hu, h1, -⟩ := main k un hk
    rw [h1]
    exact hB.area u hu
  · obtain ⟨u, hu, -, -, h1⟩ := main k un hk
    obtain ⟨c, hc, h2⟩ := h1 i hi
    rw [h2]
    rcases hB.fraction u hu c hc with h | h
    · rw [h]; exact ⟨le_rfl, zero_le_one⟩
    · exact ⟨(e8.trans h.1).le, h.2⟩
  · obtain ⟨u, hu, -, h1, -⟩ := main k un hk
    exact h1
  · obtain ⟨u, hu, -, -, h1⟩ := main k un hk
    obtain ⟨c, hc, h2⟩ := h1 i hi
    rw [h2]
    rcases hB.fraction u hu c hc with h | h
    · exact .inl h
    · exact .inr (lt_of_eq_of_lt (by unfold prec; norm_num) h.1)

end

/-- The balance of the model that is set up closes, with the rain and snow separation as it is computed, for every weather (correction factors
of 1), process laws, solver and number of steps. -/
def Spec.AlwaysCloses (M : Setup.Model ℝ) : Prop := ∀ (σ : Type) (laws : Laws ℝ σ) (sch : Scheme ℝ σ) (tick : σ → σ) (time : σ → ℕ),
  Spec.Clocked laws sch tick time → ∀ weather : ℕ → ℕ → Weather, (∀ u t, (weather u t).rcf = 1 ∧ (weather u t).scf = 1) →
  Spec.Closes M.input.base M.model M.extent (withSplitters M.input.base M.model time (fun ty u t => splitAmounts ty (weather u t)) laws) sch
    M.dt tick time fun u t => (weather u t).P

/-- **C74 (Socont).**  With the inputs of C73, no snow redistribution and shares of the land covers adding up to 1 in each unit, setting up
succeeds, gives the declared model, and its water balance closes in every run. -/
theorem c74_socont {cs : List PyCover} (h : Spec.GoodCovers cs) {o : SocontOpts} (ho : Spec.GoodSnow o.snow)
    (hr : o.snow.refreezing ≠ none → o.snow.melt = "melt:degree_day") (hone : (cs.filter fun c => c.kind != "glacier").length = 1)
    (hice : Spec.IceMelts o.snow.melt cs) (hred : o.snow.redistribution = none) {S : Setup.Settings ℝ} (hv : S.variants = socont o cs)
    (hB : Spec.GoodBasin cs S.basin) (hsum : ∀ u ∈ S.basin.units, (u.covers.map (·.fraction)).sum = 1)
    (hP : ∀ u ∈ S.basin.units, Spec.PropertiesGiven (Spec.socontChoices o) u) {loaded : List Var}
    (hD : Spec.DataGiven (Spec.socontChoices o) S.basin loaded) {a b : CTime} (hT : Spec.PeriodGiven S.timer a b) {sc : SolverClass}
    (hS : S.solver ∈ Spec.solverNames sc) (rnd : ℝ → ℝ) :
    ∃ M, setup rnd S = .ok M ∧ Spec.SetUpAs rnd (socont o cs) S a b sc loaded M ∧ Spec.AlwaysCloses M := by
  obtain ⟨M, h1, h2⟩ := c73_socont h ho hr hone hice hv hB hP hD hT hS rnd
  obtain ⟨a1, a2⟩ := extents_given (name_nodup h) h2 hB hsum
  obtain ⟨soil, hsoil⟩ := List.length_eq_one_iff.1 hone
  have hmem : soil ∈ cs.filter fun c => c.kind != "glacier" := by rw [hsoil]; exact List.mem_cons_self ..
  obtain ⟨s1, s2⟩ := List.mem_filter.1 hmem
  exact ⟨M, h1, h2, fun σ laws sch tick time hc weather hf => c67_socont_weather h ho ⟨soil, s1, by simpa using s2⟩ hice hred h2.structures.from
    (prepare_parts h2.built).1 a1 a2 hc weather hf⟩

/-- **C74 (HBV-96).** -/
theorem c74_hbv {cs : List PyCover} (h : Spec.GoodCovers cs) {o : HbvOpts} (ho : Spec.GoodSnow o.snow)
    (hr : o.snow.refreezing ≠ none → o.snow.melt = "melt:degree_day") (hsoil : ∃ c ∈ cs, c.kind ≠ "lake" ∧ c.kind ≠ "glacier")
    (hice : Spec.IceMelts o.snow.melt cs) (hred : o.snow.redistribution = none) {S : Setup.Settings ℝ} (hv : S.variants = hbv96 o cs)
    (hB : Spec.GoodBasin cs S.basin) (hsum : ∀ u ∈ S.basin.units, (u.covers.map (·.fraction)).sum = 1)
    (hL : Spec.LakesApart cs S.basin) (hP : ∀ u ∈ S.basin.units, Spec.PropertiesGiven (Spec.hbvChoices o) u) {loaded : List Var}
    (hD : Spec.DataGiven (Spec.hbvChoices o) S.basin loaded) {a b : CTime} (hT : Spec.PeriodGiven S.timer a b) {sc : SolverClass}
    (hS : S.solver ∈ Spec.solverNames sc) (rnd : ℝ → ℝ) :
    ∃ M, setup rnd S = .ok M ∧ Spec.SetUpAs rnd (hbv96 o cs) S a b sc loaded M ∧ Spec.AlwaysCloses M := by
  obtain ⟨M, h1, h2⟩ := c73_hbv h ho hr hsoil hice hv hB hL hP hD hT hS rnd
  obtain ⟨a1, a2⟩ := extents_given (name_nodup h) h2 hB hsum
  exact ⟨M, h1, h2, fun σ laws sch tick time hc weather hf => c67_hbv_weather h ho hsoil hice hred h2.structures.from
    (prepare_parts h2.built).1 a1 a2 hc weather hf⟩

/-- **C74 (GR4J and GR6J).** -/
theorem c74_gr {c : PyCover} (h : Spec.GoodCovers [c]) (hk : c.kind ≠ "glacier") {o : GrOpts} (ho : Spec.GoodGr o)
    (hsr : ∀ s ∈ o.snowRain, s ∈ ["snow_rain:threshold", "snow_rain:linear", "snow_rain:cemaneige"]) (hred : o.redistribution = none)
    {S : Setup.Settings ℝ} (hv : S.variants = gr o [c]) (hB : Spec.GoodBasin [c] S.basin)
    (hsum : ∀ u ∈ S.basin.units, (u.covers.map (·.fraction)).sum = 1) (hP : ∀ u ∈ S.basin.units, Spec.PropertiesGiven (Spec.grChoices o) u)
    {loaded : List Var} (hD : Spec.DataGiven (Spec.grChoices o) S.basin loaded) {a b : CTime} (hT : Spec.PeriodGiven S.timer a b)
    {sc : SolverClass} (hS : S.solver ∈ Spec.solverNames sc) (rnd : ℝ → ℝ) :
    ∃ M, setup rnd S = .ok M ∧ Spec.SetUpAs rnd (gr o [c]) S a b sc loaded M ∧ Spec.AlwaysCloses M := by
  obtain ⟨M, h1, h2⟩ := c73_gr h hk ho hsr hv hB hP hD hT hS rnd
  obtain ⟨a1, a2⟩ := extents_given (name_nodup h) h2 hB hsum
  exact ⟨M, h1, h2, fun σ laws sch tick time hc weather hf => c67_gr_weather h ho hsr hred h2.structures.from
    (prepare_parts h2.built).1 a1 a2 hc weather hf⟩

end HB

/-! ## Example -/

namespace HB.SetupDemo

open HB.Names HB.Wire HB.Basin HB.Setup HB.PreDemo

/-- Two units, one of them half glacier. -/
noncomputable def valley : Basin.Decl ℝ :=
  ⟨[⟨1, 3, 1200, [⟨"open", "", 1⟩, ⟨"glacier", "", 0⟩], [⟨"slope", 10, "degrees"⟩], []⟩,
    ⟨2, 1, 2500, [⟨"open", "", 1 / 2⟩, ⟨"glacier", "", 1 / 2⟩], [⟨"slope", 20, "degrees"⟩], []⟩], [], none⟩

theorem valley_good : Spec.GoodBasin alpine valley where
  few := by decide
  some_unit := by simp [valley]
  ids := by simp [valley]
  area := by simp [valley]
  covers := by simp [valley, alpine]
  fraction := by
    have e : (1 : ℝ) / 10 ^ 8 < 1 ∧ (1 : ℝ) / 10 ^ 8 < 1 / 2 ∧ (1 : ℝ) / 2 ≤ 1 := by norm_num
    intro u hu c hc
    simp only [valley, List.mem_cons, List.not_mem_nil, or_false] at hu
    rcases hu with rfl | rfl <;> simp only [List.mem_cons, List.not_mem_nil, or_false] at hc <;> rcases hc with rfl | rfl
    · exact .inr ⟨e.1, le_rfl⟩
    · exact .inl rfl
    · exact .inr e.2
    · exact .inr e.2
  whole := by
    intro u hu
    simp only [valley, List.mem_cons, List.not_mem_nil, or_false] at hu
    rcases hu with rfl | rfl <;> norm_num
  links := by simp [valley]

/-- Socont there, over January 2020. -/
theorem valley_closes : ∃ M, setup id (⟨socont {} alpine, "heun_explicit", january, 10, valley⟩ : Setup.Settings ℝ) = .ok M ∧ Spec.AlwaysCloses M ∧
    M.input.base.units.length = 2 := by
  obtain ⟨M, h1, h2, h3⟩ := c74_socont (S := ⟨socont {} alpine, "heun_explicit", january, 10, valley⟩) alpine_good default_snow (by decide) (by decide)
    (fun _ => by decide) rfl rfl valley_good
    (by
      intro u hu
      simp only [valley, List.mem_cons, List.not_mem_nil, or_false] at hu
      rcases hu with rfl | rfl <;> norm_num)
    (by
      intro u hu
      simp only [valley, List.mem_cons, List.not_mem_nil, or_false] at hu
      rcases hu with rfl | rfl
      · exact ⟨by simp, fun _ => ⟨_, List.mem_singleton.2 rfl, rfl⟩, fun _ h => absurd h (by decide), fun _ h => absurd h (by decide)⟩
      · exact ⟨by simp, fun _ => ⟨_, List.mem_singleton.2 rfl, rfl⟩, fun _ h => absurd h (by decide), fun _ h => absurd h (by decide)⟩)
    (loaded := [.precipitation, .pet, .temperature])
    ⟨by decide, by decide, fun _ => by decide, fun _ h => absurd h (by decide), fun _ h => absurd h (by decide)⟩ january_given (sc := .heunExplicit) (by decide) id
  exact ⟨M, h1, h3, h2.declared.units⟩

end HB.SetupDemo
