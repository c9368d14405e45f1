import Verif.Model.Names
import Verif.Spec.Names

/-!
# C52 — names of components
-/
set_option linter.unusedSectionVars false

namespace HB

open Names

/-- Looking a name up in a table with distinct keys. -/
theorem lookup_iff {α : Type} (l : List (String × α)) (hl : (l.map Prod.fst).Nodup) (s : String) (a : α) :
    l.lookup s = some a ↔ (s, a) ∈ l := by
  induction l with
  | nil => simp
  | cons e r ih =>
    rw [List.map_cons, List.nodup_cons] at hl
    rw [List.lookup_cons]
    by_cases h : s = e.1
    · have hb : (s == e.1) = true := by rw [h]; exact beq_self_eq_true _
      simp only [hb]
      subst h
      constructor
      · intro e'; rw [← Option.some.inj e']; exact List.mem_cons_self
      · intro hm
        rcases List.mem_cons.mp hm with hm | hm
        · rw [← hm]
        · exact absurd (List.mem_map.mpr ⟨_, hm, rfl⟩) hl.1
    · have hb : (s == e.1) = false := by rw [beq_eq_false_iff_ne]; exact h
      simp only [hb]
      rw [ih hl.2]
      constructor
      · exact List.mem_cons_of_mem _
      · intro hm
        rcases List.mem_cons.mp hm with hm | hm
        · exact absurd (by rw [← hm]) h
        · exact hm

theorem lookup_none_iff {α : Type} (l : List (String × α)) (s : String) : l.lookup s = none ↔ s ∉ l.map Prod.fst := by
  rw [List.lookup_eq_none_iff]
  constructor
  · intro h hm
    obtain ⟨e, he, rfl⟩ := List.mem_map.mp hm
    have := h e he
    simp at this
  · intro h e he
    have : s ≠ e.1 := fun h' => h (h' ▸ List.mem_map.mpr ⟨e, he, rfl⟩)
    simpa using this

/-- A table agrees with a listing of the names per component. -/
theorem table_iff {α : Type} (l : List (String × α)) (hl : (l.map Prod.fst).Nodup) (names : α → List String)
    (h1 : ∀ e ∈ l, e.1 ∈ names e.2) (h2 : ∀ a, ∀ n ∈ names a, (n, a) ∈ l) (s : String) :
    (∀ a, l.lookup s = some a ↔ s ∈ names a) ∧ (l.lookup s = none ↔ ∀ a, s ∉ names a) := by
  have h : ∀ a, l.lookup s = some a ↔ s ∈ names a := fun a =>
    (lookup_iff l hl s a).trans ⟨fun hm => h1 _ hm, fun hm => h2 a s hm⟩
  refine ⟨h, ?_⟩
  constructor
  · intro hn a ha
    rw [← h a, hn] at ha; cases ha
  · intro hn
    cases ho : l.lookup s with
    | none => rfl
    | some a => exact absurd ((h a).mp ho) (hn a)

/-- **C52 (solvers).** Every string: it builds a solver exactly if it is one of the solver's names, and is refused with an
error otherwise. -/
theorem c52_solvers (s : String) : (∀ c, solverFactory s = .ok c ↔ s ∈ Spec.solverNames c) ∧
    (solverFactory s = .error ↔ ∀ c, s ∉ Spec.solverNames c) := by
  obtain ⟨h1, h2⟩ := table_iff solverMap (by decide) Spec.solverNames (by decide) (by intro a; cases a <;> decide) s
  unfold solverFactory
  rcases ho : solverMap.lookup s with _ | d
  · simp only [ho] at h1 h2
    refine ⟨fun c => ?_, ?_⟩
    · rw [← h1 c]; simp
    · rw [← h2]; simp
  · simp only [ho] at h1 h2
    refine ⟨fun c => ?_, ?_⟩
    · rw [← h1 c]; simp
    · rw [← h2]; simp

/-- The registry with the old names added. -/
def processTable : List (String × ProcClass) :=
  registry.map (fun e => (e.1, e.2.1)) ++
    aliases.filterMap fun a => (registry.lookup a.2).map fun e => (a.1, e.1)

theorem process_lookup (s : String) : (registry.lookup (resolveAlias s)).map Prod.fst = processTable.lookup s := by
  have hnd : (processTable.map Prod.fst).Nodup := by decide +kernel
  have hreg : (registry.map Prod.fst).Nodup := by decide +kernel
  have hal : (aliases.map Prod.fst).Nodup := by decide
  unfold resolveAlias
  rcases ha : aliases.lookup s with _ | t
  · rw [Option.getD_none]
    rcases hr : registry.lookup s with _ | e
    · symm
      rw [Option.map_none, lookup_none_iff]
      have h1 := (lookup_none_iff registry s).mp hr
      have h2 := (lookup_none_iff aliases s).mp ha
      intro hm
      have hk : processTable.map Prod.fst = registry.map Prod.fst ++ aliases.map Prod.fst := by decide +kernel
      rw [hk] at hm
      rcases List.mem_append.mp hm with hm | hm
      · exact h1 hm
      · exact h2 hm
    · symm
      rw [Option.map_some, lookup_iff _ hnd]
      have := (lookup_iff registry hreg s e).mp hr
      exact List.mem_append_left _ (List.mem_map.mpr ⟨_, this, rfl⟩)
  · rw [Option.getD_some]
    have hm := (lookup_iff aliases hal s t).mp ha
    have key : ∀ p ∈ aliases, (registry.lookup p.2).map Prod.fst = processTable.lookup p.1 := by decide +kernel
    exact key _ hm

theorem needs_eq (s : String) (e : ProcClass × Needs) (h : registry.lookup s = some e) (c : Category) :
    createOn e.2 c = Spec.storeFor e.1 c := by
  have hm := (lookup_iff registry (by decide +kernel) s e).mp h
  have key : ∀ p ∈ registry, ∀ c ∈ [Category.snowpack, .glacier, .other], createOn p.2.2 c = Spec.storeFor p.2.1 c := by
    decide +kernel
  exact key _ hm c (by cases c <;> simp)

/-- **C52 (processes).** Every string and every brick category: a process is built exactly if the string is one of its names
(old names included) and the brick has the store the process works on; anything else is refused with an error.  Parameters
are registered for exactly the same names, for the same process. -/
theorem c52_processes (s : String) : (∀ cat p st, processFactory s cat = .ok (p, st) ↔
      s ∈ Spec.processNames p ∧ Spec.storeFor p cat = some st) ∧
    (∀ cat, processFactory s cat = .error ↔ ∀ p, s ∈ Spec.processNames p → Spec.storeFor p cat = none) ∧
    (∀ p, registerSettings s = .ok p ↔ s ∈ Spec.processNames p) ∧
    (registerSettings s = .error ↔ ∀ p, s ∉ Spec.processNames p) := by
  obtain ⟨h1, h2⟩ := table_iff processTable (by decide +kernel) Spec.processNames (by decide +kernel)
    (by intro a; cases a <;> decide +kernel) s
  rw [← process_lookup] at h2
  simp only [← process_lookup] at h1
  unfold processFactory registerSettings
  rcases ho : registry.lookup (resolveAlias s) with _ | e
  · simp only [ho, Option.map_none, true_iff, reduceCtorEq, false_iff] at h1 h2
    refine ⟨fun cat p st => ?_, fun cat => ?_, fun p => ?_, ?_⟩
    · simp only [reduceCtorEq, false_iff]; exact fun h => h1 p h.1
    · simp only [true_iff]; exact fun p h => absurd h (h1 p)
    · simp only [reduceCtorEq, false_iff]; exact h1 p
    · simp only [true_iff]; exact h1
  · have hn := needs_eq _ e ho
    simp only [ho, Option.map_some, Option.some.injEq, reduceCtorEq, false_iff, not_forall, not_not] at h1 h2
    have hs : s ∈ Spec.processNames e.1 := (h1 e.1).mp rfl
    refine ⟨fun cat p st => ?_, fun cat => ?_, fun p => ?_, ?_⟩
    · simp only [hn cat]
      rcases hst : Spec.storeFor e.1 cat with _ | x
      · simp only [reduceCtorEq, false_iff]
        rintro ⟨hp, hq⟩
        rw [← (h1 p).mpr hp, hst] at hq; cases hq
      · simp only [Res.ok.injEq, Prod.mk.injEq]
        constructor
        · rintro ⟨rfl, rfl⟩; exact ⟨hs, hst⟩
        · rintro ⟨hp, hq⟩
          have := (h1 p).mpr hp
          subst this
          rw [hst] at hq
          exact ⟨rfl, Option.some.inj hq⟩
    · simp only [hn cat]
      rcases hst : Spec.storeFor e.1 cat with _ | x
      · simp only [true_iff]
        intro p hp
        rw [← (h1 p).mpr hp]; exact hst
      · simp only [reduceCtorEq, false_iff, not_forall]
        exact ⟨e.1, hs, by rw [hst]; simp⟩
    · simp only [Res.ok.injEq]; exact h1 p
    · simp only [reduceCtorEq, false_iff, not_forall, not_not]
      exact ⟨e.1, hs⟩

/-- **C52 (bricks and splitters).** Every known name builds its component; for any other string the builder goes on with
a null pointer: nothing is substituted, but the program is undefined instead of reporting an error. -/
theorem c52_bricks_splitters_partial (s : String) :
    (∀ c, buildBrick s = .ok c ↔ s ∈ Spec.brickNames c) ∧
    (buildBrick s = .nullDeref ↔ ∀ c, s ∉ Spec.brickNames c) ∧
    (∀ c, buildSplitter s = .ok c ↔ s ∈ Spec.splitterNames c) ∧
    (buildSplitter s = .nullDeref ↔ ∀ c, s ∉ Spec.splitterNames c) := by
  obtain ⟨h1, h2⟩ := table_iff brickMap (by decide) Spec.brickNames (by decide) (by intro a; cases a <;> decide) s
  obtain ⟨h3, h4⟩ := table_iff splitterMap (by decide) Spec.splitterNames (by decide) (by intro a; cases a <;> decide) s
  unfold buildBrick buildSplitter
  refine ⟨fun c => ?_, ?_, fun c => ?_, ?_⟩
  · rw [← h1 c]; rcases brickMap.lookup s with _ | d <;> simp
  · rw [← h2]; rcases brickMap.lookup s with _ | d <;> simp
  · rw [← h3 c]; rcases splitterMap.lookup s with _ | d <;> simp
  · rw [← h4]; rcases splitterMap.lookup s with _ | d <;> simp

/-- An unknown brick type ("lake") or splitter type is not reported as an error by the builder. -/
theorem c52_unknown_brick_dereferenced : buildBrick "lake" = .nullDeref ∧ buildSplitter "snow_rain" = .nullDeref := by
  decide +kernel

/-- The current name and the old name of the overflow build the same process, but only the old one is linked to its
container as the overflow. -/
theorem c52_overflow_names_differ : buildProcess "overflow" .other = .ok (.outflowOverflow, .water, true) ∧
    buildProcess "outflow:overflow" .other = .ok (.outflowOverflow, .water, false) := by decide +kernel

theorem code_eq (a b : Char) : (a == b || upperCode a == upperCode b) = true ↔ Spec.lowerCode a = Spec.lowerCode b := by
  have hinj : a.toNat = b.toNat → a = b := fun h => Char.ext (UInt32.toNat_inj.mp h)
  simp only [Bool.or_eq_true, beq_iff_eq, upperCode, Spec.lowerCode]
  constructor
  · rintro (rfl | h)
    · rfl
    · split_ifs at * <;> omega
  · intro h
    right
    split_ifs at * <;> omega

theorem stringsMatch_iff (a b : String) : stringsMatch a b = true ↔ Spec.SameLetters a b := by
  unfold stringsMatch Spec.SameLetters
  generalize a.toList = x
  generalize b.toList = y
  induction x generalizing y with
  | nil => cases y <;> simp
  | cons c x ih =>
    cases y with
    | nil => simp
    | cons d y =>
      have := ih y
      simp only [List.length_cons, List.zip_cons_cons, List.all_cons, List.map_cons, List.cons.injEq]
      rw [← this, ← code_eq c d]
      simp only [Bool.and_eq_true, beq_iff_eq, Nat.add_right_cancel_iff]
      tauto

/-- **C52 (forcing variables).** A variable name of a time series is recognised exactly if it is one of the documented names,
in upper or lower case; any other is refused. -/
theorem c52_variables (s : String) : (∀ v, matchVariable s = .ok v ↔ ∃ n ∈ Spec.variableNames v, Spec.SameLetters s n) ∧
    (matchVariable s = .error ↔ ∀ v, ∀ n ∈ Spec.variableNames v, ¬ Spec.SameLetters s n) := by
  have t1 : ∀ e ∈ variableTests, e.1 ∈ Spec.variableNames e.2 := by decide
  have t2 : ∀ v, ∀ n ∈ Spec.variableNames v, (n, v) ∈ variableTests := by intro v; cases v <;> decide
  have t3 : ∀ e ∈ variableTests, ∀ e' ∈ variableTests, stringsMatch e.1 e'.1 = true → e = e' := by decide +kernel
  have huniq : ∀ e ∈ variableTests, ∀ e' ∈ variableTests, Spec.SameLetters s e.1 → Spec.SameLetters s e'.1 → e = e' := by
    intro e he e' he' h h'
    exact t3 e he e' he' ((stringsMatch_iff _ _).mpr (h.symm.trans h'))
  unfold matchVariable
  rcases ho : variableTests.find? (fun e => stringsMatch s e.1) with _ | e
  · simp only [ho]
    rw [List.find?_eq_none] at ho
    have hno : ∀ v, ∀ n ∈ Spec.variableNames v, ¬ Spec.SameLetters s n := by
      intro v n hn hs
      exact ho _ (t2 v n hn) ((stringsMatch_iff _ _).mpr hs)
    refine ⟨fun v => ?_, ?_⟩
    · constructor
      · intro h; cases h
      · rintro ⟨n, hn, hs⟩; exact absurd hs (hno v n hn)
    · exact ⟨fun _ => hno, fun _ => trivial⟩
  · simp only [ho]
    have hm := List.mem_of_find?_eq_some ho
    have hs : Spec.SameLetters s e.1 := (stringsMatch_iff _ _).mp (by simpa using List.find?_some ho)
    refine ⟨fun v => ?_, ?_⟩
    · constructor
      · intro h; cases h; exact ⟨e.1, t1 e hm, hs⟩
      · rintro ⟨n, hn, hs'⟩
        have := huniq e hm (n, v) (t2 v n hn) hs hs'
        rw [this]
    · constructor
      · intro h; cases h
      · intro h; exact absurd hs (h e.2 e.1 (t1 e hm))

/-- **C52 (forcing of components).** What a brick, a process or a splitter may ask for; any other name is an error. -/
theorem c52_forcings (s : String) :
    (brickForcing s ≠ .error ↔ s ∈ ["precipitation", "temperature", "solar_radiation", "r_solar"]) ∧
    (processForcing s ≠ .error ↔ s ∈ ["precipitation", "pet", "temperature", "temperature_min", "temperature_max",
      "solar_radiation", "r_solar"]) ∧
    (splitterForcing s ≠ .error ↔ s ∈ ["precipitation", "temperature", "temperature_min", "temperature_max",
      "solar_radiation", "r_solar"]) ∧
    (∀ v, brickForcing s = .ok v ∨ processForcing s = .ok v ∨ splitterForcing s = .ok v → s ∈ Spec.variableNames v) := by
  refine ⟨?_, ?_, ?_, ?_⟩
  · unfold brickForcing
    split_ifs with h1 h2 h3 <;> simp_all
  · unfold processForcing
    split_ifs with h1 h2 h3 h4 h5 h6 <;> simp_all
  · unfold splitterForcing
    split_ifs with h1 h2 h3 h4 h5 <;> simp_all
  · intro v h
    have hb : ∀ v, brickForcing s = .ok v → s ∈ Spec.variableNames v := by
      intro v h
      unfold brickForcing at h
      split_ifs at h with h1 h2 h3
      · cases h; subst h1; decide
      · cases h; subst h2; decide
      · cases h; rcases h3 with rfl | rfl <;> decide
    have hp : ∀ v, processForcing s = .ok v → s ∈ Spec.variableNames v := by
      intro v h
      unfold processForcing at h
      split_ifs at h with h1 h2 h3 h4 h5 h6
      · cases h; subst h1; decide
      · cases h; subst h2; decide
      · cases h; subst h3; decide
      · cases h; subst h4; decide
      · cases h; subst h5; decide
      · cases h; rcases h6 with rfl | rfl <;> decide
    have hsp : ∀ v, splitterForcing s = .ok v → s ∈ Spec.variableNames v := by
      intro v h
      unfold splitterForcing at h
      split_ifs at h with h1 h2 h3 h4 h5
      · cases h; subst h1; decide
      · cases h; subst h2; decide
      · cases h; subst h3; decide
      · cases h; subst h4; decide
      · cases h; rcases h5 with rfl | rfl <;> decide
    rcases h with h | h | h
    · exact hb v h
    · exact hp v h
    · exact hsp v h

/-- **C52 (content types).** Only "water", "snow" and "ice" are content types; a target with another type is refused by
every brick. -/
theorem c52_contents (s : String) : (contentOf s = .unknown ↔ s ∉ ["water", "snow", "ice"]) ∧
    (contentOf s = .water ↔ s = "water") ∧ (contentOf s = .snow ↔ s = "snow") ∧ (contentOf s = .ice ↔ s = "ice") ∧
    (∀ c, attach (.brick c) .unknown = false) := by
  have hl := lookup_iff [("water", Content.water), ("snow", .snow), ("ice", .ice)] (by decide) s
  have hn := lookup_none_iff [("water", Content.water), ("snow", .snow), ("ice", .ice)] s
  unfold contentOf
  refine ⟨?_, ?_, ?_, ?_, fun c => by cases c <;> rfl⟩
  all_goals
    rcases ho : ([("water", Content.water), ("snow", .snow), ("ice", .ice)].lookup s) with _ | x
  all_goals rw [ho] at hn
  all_goals simp only [List.map_cons, List.map_nil, List.mem_cons, List.not_mem_nil, or_false, true_iff, not_or,
    reduceCtorEq, false_iff, not_and_or, not_not] at hn
  all_goals simp only [Option.getD_none, Option.getD_some, List.mem_cons, List.not_mem_nil, or_false, true_iff, not_or,
    reduceCtorEq, false_iff]
  all_goals try first | exact hn | exact hn.1 | exact hn.2.1 | exact hn.2.2
  all_goals have hx := (hl x).mp ho
  all_goals simp only [List.mem_cons, Prod.mk.injEq, List.not_mem_nil, or_false] at hx
  all_goals rcases hx with ⟨rfl, rfl⟩ | ⟨rfl, rfl⟩ | ⟨rfl, rfl⟩ <;> decide

/-- A misspelt content type on a flux to the outlet is accepted. -/
theorem c52_unknown_content_to_outlet : parseTarget "outlet:watre" = ("outlet", .unknown) ∧
    attach .outlet .unknown = true := by decide +kernel

/-- Some names at work. -/
example : solverFactory "trapezoidal" = .ok .crankNicolson ∧ solverFactory "Euler" = .error ∧
    processFactory "melt:degree_day" .glacier = .ok (.meltDegreeDay, .ice) ∧
    processFactory "melt:cemaneige" .glacier = .error ∧
    processFactory "transform:snow_ice_swat" .snowpack = .ok (.snowToIceSwat, .snow) ∧
    matchVariable "T_Min" = .ok .temperatureMin ∧ matchVariable "tmin" = .error := by decide +kernel

end HB
