import Verif.Props.ProjectFile2
import Mathlib.Data.List.Nodup

/-! # C95: accepted project files and the operations made from them -/

set_option linter.unusedSectionVars false
set_option linter.unusedSimpArgs false

namespace HB.Project

open Custom (Val get has truthy getOr)
open Spec

theorem ite_nil {P : Prop} [Decidable P] (x : String) : (if P then [x] else ([] : List String)) = [] ↔ ¬ P := by
  split_ifs with h <;> simp [h]

/-- All messages about the forcing, given its mapping. -/
theorem msgs_nil (files : Files) (gridded : List String) (catchment : Bool) (config d : Dict) (hd : get config "forcing" = some (.dict d)) :
    msgs files gridded catchment config = [] ↔ Good files gridded catchment config d := by
  have hf : forcingOf config = some d := by unfold forcingOf; rw [hd]
  unfold msgs
  rw [hf]
  simp only [forcingMsgs, crossMsgs, List.append_eq_nil_iff, keyMsgs_nil, subMsgs_nil, strMsgs_nil, numberMsgs_nil, dataParamsMsgs_nil, List.map_eq_nil_iff, filter_nil_iff, ite_nil]
  constructor
  · rintro ⟨⟨⟨⟨⟨⟨⟨⟨⟨⟨⟨k, st⟩, so⟩, p1⟩, p2⟩, p3⟩, p4⟩, tw⟩, pr⟩, te⟩, dp⟩, la, re⟩
    have hst : HasStation d → GoodStation files d := by
      intro h; rw [← hasStation_iff] at h; rw [if_pos h] at st; exact (stationMsgs_nil files d).mp st
    have hsome : HasStation d ∨ gridded ≠ [] := by
      by_contra hc
      push Not at hc
      apply so
      have : hasStation d = false := by
        cases h : hasStation d with
        | false => rfl
        | true => exact absurd ((hasStation_iff d).mp h) hc.1
      rw [this, hc.2]; rfl
    have hne : sources gridded d ≠ [] := by
      rcases hsome with h | h
      · obtain ⟨cs, h1, h2⟩ := (hst h).columns
        cases cs with
        | nil => exact absurd rfl h1
        | cons p cs => exact List.ne_nil_of_mem ((mem_sources gridded d p.1).mpr (Or.inl ⟨_, h2, by simp⟩))
      · unfold sources; simp [h]
    refine ⟨hd, k, hst, hsome, ?_, ?_, ⟨_, p1, p2, p3, p4, ?_⟩, dp, ?_⟩
    · intro v hv hg
      have := tw v ((mem_station d v).mpr hv)
      simp [hg] at this
    · rw [← mem_sources]
      by_contra hc; exact pr ⟨hne, hc⟩
    · rw [← mem_sources, ← mem_sources]
      by_cases h1 : "pet" ∈ sources gridded d
      · left; exact h1
      · right
        refine ⟨by by_contra hc; exact te ⟨hne, h1, hc⟩, ?_⟩
        cases hl : number (sub d "pet") "latitude" with
        | some x => left; exact ⟨x, (number_some _ _ x).mp hl⟩
        | none =>
          right
          cases hc : catchment with
          | true => rfl
          | false => exact absurd ⟨hne, h1, hl, hc⟩ la
    · intro h n hn
      have hs := hst h
      obtain ⟨t, t1, -⟩ := hs.temperature
      obtain ⟨p, p1, -⟩ := hs.precipitation
      have et := section_unique t1
      have ep := section_unique p1
      subst et; subst ep
      rw [if_pos ((hasStation_iff d).mpr h), filter_nil_iff] at re
      have := re n ((mem_references files d n t1 p1).mpr hn)
      rw [decide_eq_false_iff_not, not_not] at this
      exact (dataParams_names dp n).mp this
  · intro g
    obtain ⟨t, p1, p2, p3, p4, hp⟩ := g.pet
    have et := section_unique p1
    subst et
    refine ⟨⟨⟨⟨⟨⟨⟨⟨⟨⟨⟨g.keys, ?_⟩, ?_⟩, p1⟩, p2⟩, p3⟩, p4⟩, ?_⟩, ?_⟩, ?_⟩, g.params⟩, ?_, ?_⟩
    · split_ifs with h
      · exact (stationMsgs_nil files d).mpr (g.station ((hasStation_iff d).mp h))
      · rfl
    · intro h
      rw [Bool.and_eq_true] at h
      rcases g.some_ with h1 | h1
      · rw [(hasStation_iff d).mpr h1] at h; simp at h
      · exact h1 (List.isEmpty_iff.mp h.2)
    · intro v hv
      have := g.once v ((mem_station d v).mp hv)
      simpa using this
    · rintro ⟨-, h⟩; exact h ((mem_sources gridded d _).mpr g.precipitation)
    · rintro ⟨-, h1, h2⟩
      rw [mem_sources] at h1 h2
      rcases hp with h | h
      · exact h1 h
      · exact h2 h.1
    · rintro ⟨-, h1, h2, h3⟩
      rw [mem_sources] at h1
      rcases hp with h | ⟨-, ⟨x, hx⟩ | h⟩
      · exact h1 h
      · rw [(number_some _ _ x).mpr hx] at h2; cases h2
      · rw [h3] at h; cases h
    · split_ifs with h
      · have h' := (hasStation_iff d).mp h
        have hs := g.station h'
        obtain ⟨t, t1, -⟩ := hs.temperature
        obtain ⟨p, p1, -⟩ := hs.precipitation
        have et := section_unique t1
        have ep := section_unique p1
        subst et; subst ep
        rw [filter_nil_iff]
        intro n hn
        rw [decide_eq_false_iff_not, not_not, dataParams_names g.params]
        exact g.references h' n ((mem_references files d n t1 p1).mp hn)
      · rfl

theorem load_ok {files : Files} {gridded : List String} {catchment : Bool} {config : Dict} {r : List Op × List (String × DataParam)}
    (h : load files gridded catchment config = .ok r) : ∃ d, Good files gridded catchment config d ∧ r = (ops files gridded d, dataParams config) := by
  unfold load at h
  split_ifs at h with hm
  rw [not_not] at hm
  cases hf : forcingOf config with
  | none => rw [hf] at h; cases h
  | some d =>
    rw [hf] at h
    simp only at h
    have hd : get config "forcing" = some (.dict d) := by
      unfold forcingOf at hf
      cases hg : get config "forcing" with
      | none => rw [hg] at hf; cases hf
      | some v =>
        rw [hg] at hf
        cases v with
        | dict t => injection hf with hf; rw [hf]
        | _ => cases hf
    injection h with h
    exact ⟨d, (msgs_nil files gridded catchment config d hd).mp hm, h.symm⟩

/-- **A project file is accepted exactly when its sections about the forcing are in order.** -/
theorem c95_accepts (files : Files) (gridded : List String) (catchment : Bool) (config : Dict) :
    (∃ r, load files gridded catchment config = .ok r) ↔ ∃ d, Good files gridded catchment config d := by
  constructor
  · rintro ⟨r, h⟩; obtain ⟨d, g, -⟩ := load_ok h; exact ⟨d, g⟩
  · rintro ⟨d, g⟩
    have hf : forcingOf config = some d := by unfold forcingOf; rw [g.section_]
    refine ⟨(ops files gridded d, dataParams config), ?_⟩
    unfold load
    rw [if_neg (by rw [not_not]; exact (msgs_nil files gridded catchment config d g.section_).mpr g), hf]

/-- The variable whose field an operation makes. -/
def field : Op → Option String
  | .load .. => none
  | .correct .. => none
  | .constant v => some v
  | .additive v .. => some v
  | .multiplicative v .. => some v
  | .gridded v => some v
  | .pet .. => some "pet"

def three : List String := ["precipitation", "temperature", "pet"]

/-- The fields made from the station data. -/
theorem fields_station (s : Station) : (stationOps s).filterMap field =
    (if has s.columns "temperature" then ["temperature"] else []) ++ (if has s.columns "precipitation" then ["precipitation"] else [])
      ++ (if has s.columns "pet" then ["pet"] else []) ++ ((s.columns.map (·.1)).filter fun v => decide (v ∉ three)) := by
  have hl : ∀ l : List String, (l.map Op.constant).filterMap field = l := by
    intro l; induction l with
    | nil => rfl
    | cons a l ih => rw [List.map_cons, List.filterMap_cons]; simp only [field]; rw [ih]
  have h1 : (temperatureOps s).filterMap field = if has s.columns "temperature" then ["temperature"] else [] := by
    unfold temperatureOps; split_ifs <;> rfl
  have h2 : (precipOps s).filterMap field = if has s.columns "precipitation" then ["precipitation"] else [] := by
    unfold precipOps
    split_ifs
    · have : (correctOps s).filterMap field = [] := by unfold correctOps; cases s.precipFactor <;> rfl
      rw [List.filterMap_append, this]
      cases s.precipGradient <;> rfl
    · rfl
  have h3 : (if has s.columns "pet" then [Op.constant "pet"] else []).filterMap field = if has s.columns "pet" then ["pet"] else [] := by
    split_ifs <;> rfl
  unfold stationOps
  rw [List.filterMap_append, List.filterMap_append, List.filterMap_append, List.filterMap_append, h1, h2, h3, hl]
  simp only [List.filterMap_cons, List.filterMap_nil, field, List.nil_append]
  rfl

theorem has_mem (d : Dict) (k : String) : has d k = true ↔ k ∈ d.map (·.1) := by
  rw [has_iff]
  constructor
  · intro h; obtain ⟨v, hv⟩ := Option.ne_none_iff_exists'.mp h; exact get_mem hv
  · exact mem_get

theorem mem_ite {P : Prop} [Decidable P] (x v : String) : v ∈ (if P then [x] else ([] : List String)) ↔ P ∧ v = x := by
  split_ifs with h <;> simp [h]

theorem nodup_ite {P : Prop} [Decidable P] (x : String) : (if P then [x] else ([] : List String)).Nodup := by split_ifs <;> simp

theorem mem_fields_station (s : Station) (v : String) : v ∈ (stationOps s).filterMap field ↔ v ∈ s.columns.map (·.1) := by
  rw [fields_station]
  simp only [List.mem_append, mem_ite, has_mem, List.mem_filter, decide_eq_true_eq, three, List.mem_cons, List.not_mem_nil, or_false, not_or]
  constructor
  · rintro (((⟨h, rfl⟩ | ⟨h, rfl⟩) | ⟨h, rfl⟩) | ⟨h, -⟩) <;> exact h
  · intro h
    by_cases h1 : v = "temperature"
    · subst h1; exact Or.inl (Or.inl (Or.inl ⟨h, rfl⟩))
    · by_cases h2 : v = "precipitation"
      · subst h2; exact Or.inl (Or.inl (Or.inr ⟨h, rfl⟩))
      · by_cases h3 : v = "pet"
        · subst h3; exact Or.inl (Or.inr ⟨h, rfl⟩)
        · exact Or.inr ⟨h, h2, h1, h3⟩

theorem nodup_fields_station (s : Station) (h : (s.columns.map (·.1)).Nodup) : ((stationOps s).filterMap field).Nodup := by
  rw [fields_station]
  rw [List.nodup_append', List.nodup_append', List.nodup_append']
  refine ⟨⟨⟨nodup_ite _, nodup_ite _, ?_⟩, nodup_ite _, ?_⟩, List.Nodup.filter _ h, ?_⟩
  · intro v h1 h2; rw [mem_ite] at h1 h2; rw [h1.2] at h2; exact absurd h2.2 (by decide)
  · intro v h1 h2
    rw [List.mem_append, mem_ite, mem_ite] at h1; rw [mem_ite] at h2
    rw [h2.2] at h1
    rcases h1 with h1 | h1 <;> exact absurd h1.2 (by decide)
  · intro v h1 h2
    rw [List.mem_append, List.mem_append, mem_ite, mem_ite, mem_ite] at h1
    rw [List.mem_filter, decide_eq_true_eq] at h2
    apply h2.2
    rcases h1 with (h1 | h1) | h1 <;> rw [h1.2] <;> decide

/-- The fields of the project. -/
theorem fields_ops (files : Files) (gridded : List String) (d : Dict) : (ops files gridded d).filterMap field =
    (if hasStation d then (stationOps (station files d)).filterMap field else []) ++ gridded ++ (if "pet" ∈ sources gridded d then [] else ["pet"]) := by
  have hl : ∀ l : List String, (l.map Op.gridded).filterMap field = l := by
    intro l; induction l with
    | nil => rfl
    | cons a l ih => rw [List.map_cons, List.filterMap_cons]; simp only [field]; rw [ih]
  unfold ops
  rw [List.filterMap_append, List.filterMap_append, hl]
  congr 1
  · congr 1; split_ifs <;> rfl
  · split_ifs <;> rfl

/-- **One field for each variable**: an accepted project makes exactly one field for each variable of the station and of the grids, and one of the potential
evapotranspiration; and there are precipitation and evapotranspiration. -/
theorem c95_one_field (files : Files) (gridded : List String) (catchment : Bool) (config : Dict) (o : List Op) (ps : List (String × DataParam))
    (h : load files gridded catchment config = .ok (o, ps)) (hg : gridded.Nodup) : ∃ d, get config "forcing" = some (.dict d) ∧
    (∀ v, v ∈ o.filterMap field ↔ FromStation d v ∨ v ∈ gridded ∨ v = "pet") ∧ "precipitation" ∈ o.filterMap field ∧
    ((∀ cs, get d "columns" = some (.dict cs) → (cs.map (·.1)).Nodup) → (o.filterMap field).Nodup) := by
  obtain ⟨d, g, hr⟩ := load_ok h
  injection hr with h1 h2
  subst h1
  have hm : ∀ v, v ∈ (if hasStation d then (stationOps (station files d)).filterMap field else []) ↔ FromStation d v := by
    intro v
    rw [← mem_station]
    split_ifs with hs
    · exact mem_fields_station _ v
    · rfl
  have hmem : ∀ v, v ∈ (ops files gridded d).filterMap field ↔ FromStation d v ∨ v ∈ gridded ∨ v = "pet" := by
    intro v
    rw [fields_ops, List.mem_append, List.mem_append, hm]
    by_cases hp : "pet" ∈ sources gridded d
    · rw [if_pos hp]
      rw [mem_sources] at hp
      constructor
      · rintro ((h | h) | h)
        · exact Or.inl h
        · exact Or.inr (Or.inl h)
        · cases h
      · rintro (h | h | rfl)
        · exact Or.inl (Or.inl h)
        · exact Or.inl (Or.inr h)
        · exact Or.inl hp
    · rw [if_neg hp, List.mem_singleton]; exact or_assoc
  refine ⟨d, g.section_, hmem, (hmem _).mpr ?_, fun hn => ?_⟩
  · rcases g.precipitation with h | h
    · exact Or.inl h
    · exact Or.inr (Or.inl h)
  · rw [fields_ops, List.nodup_append', List.nodup_append']
    refine ⟨⟨?_, hg, ?_⟩, ?_, ?_⟩
    · split_ifs with hs
      · obtain ⟨cs, -, hcs⟩ := (g.station ((hasStation_iff d).mp hs)).columns
        refine nodup_fields_station _ ?_
        show ((columnsOf d).map (·.1)).Nodup
        rw [columnsOf_eq hcs]; exact hn cs hcs
      · exact List.nodup_nil
    · intro v h1 h2; exact g.once v ((hm v).mp h1) h2
    · split_ifs <;> simp
    · intro v h1 h2
      split_ifs at h2 with hp
      · cases h2
      · rw [List.mem_singleton] at h2
        subst h2
        rw [List.mem_append, hm] at h1
        exact hp ((mem_sources gridded d _).mpr h1)

/-- The parameter an operation refers to. -/
def opRefs : Op → List Ref
  | .correct _ f => [f]
  | .additive _ _ g => g.toList
  | .multiplicative _ _ g => [g]
  | _ => []

theorem opRefs_station {s : Station} {o : Op} (h : o ∈ stationOps s) {n : String} (hn : Ref.param n ∈ opRefs o) : n ∈ references s := by
  unfold stationOps temperatureOps precipOps correctOps at h
  unfold references
  rw [List.mem_filterMap]
  simp only [List.mem_append, List.mem_singleton, List.mem_map] at h
  rcases h with (((h | h) | h) | h) | ⟨v, -, rfl⟩
  · subst h; simp [opRefs] at hn
  · split_ifs at h
    · rw [List.mem_singleton] at h; subst h
      simp only [opRefs, Option.mem_toList] at hn
      exact ⟨some (.param n), by simp [hn], rfl⟩
    · cases h
  · split_ifs at h
    · rw [List.mem_append] at h
      rcases h with h | h
      · cases hf : s.precipFactor with
        | none => rw [hf] at h; cases h
        | some f =>
          rw [hf, List.mem_singleton] at h; subst h
          simp only [opRefs, List.mem_singleton] at hn
          exact ⟨some (.param n), by simp [← hn, hf], rfl⟩
      · cases hf : s.precipGradient with
        | none => rw [hf, List.mem_singleton] at h; subst h; simp [opRefs] at hn
        | some f =>
          rw [hf, List.mem_singleton] at h; subst h
          simp only [opRefs, List.mem_singleton] at hn
          exact ⟨some (.param n), by simp [← hn, hf], rfl⟩
    · cases h
  · split_ifs at h
    · rw [List.mem_singleton] at h; subst h; simp [opRefs] at hn
    · cases h
  · simp [opRefs] at hn

/-- The elevation an operation needs. -/
def needsElevation : Op → Option (Option Int)
  | .additive _ r _ => some r
  | .multiplicative _ r _ => some r
  | _ => none

theorem needs_station {s : Station} {o : Op} (h : o ∈ stationOps s) {r : Option Int} (hr : needsElevation o = some r) :
    r = s.refElevation ∧ (has s.columns "temperature" = true ∨ s.precipGradient.isSome = true) := by
  unfold stationOps temperatureOps precipOps correctOps at h
  simp only [List.mem_append, List.mem_singleton, List.mem_map] at h
  rcases h with (((h | h) | h) | h) | ⟨v, -, rfl⟩
  · subst h; simp [needsElevation] at hr
  · split_ifs at h with ht
    · rw [List.mem_singleton] at h; subst h
      injection hr with hr; exact ⟨hr.symm, Or.inl ht⟩
    · cases h
  · split_ifs at h
    · rw [List.mem_append] at h
      rcases h with h | h
      · cases hf : s.precipFactor with
        | none => rw [hf] at h; cases h
        | some f => rw [hf, List.mem_singleton] at h; subst h; simp [needsElevation] at hr
      · cases hf : s.precipGradient with
        | none => rw [hf, List.mem_singleton] at h; subst h; simp [needsElevation] at hr
        | some f =>
          rw [hf, List.mem_singleton] at h; subst h
          injection hr with hr; exact ⟨hr.symm, Or.inr rfl⟩
    · cases h
  · split_ifs at h
    · rw [List.mem_singleton] at h; subst h; simp [needsElevation] at hr
    · cases h
  · simp [needsElevation] at hr

/-- An operation of the project with a reference or an elevation is one of the station. -/
theorem ops_station {files : Files} {gridded : List String} {d : Dict} {o : Op} (h : o ∈ ops files gridded d) (hn : opRefs o ≠ [] ∨ needsElevation o ≠ none) :
    hasStation d = true ∧ o ∈ stationOps (station files d) := by
  unfold ops at h
  rw [List.mem_append, List.mem_append, List.mem_map] at h
  rcases h with (h | ⟨v, -, rfl⟩) | h
  · split_ifs at h with hs
    · exact ⟨hs, h⟩
    · cases h
  · simp [opRefs, needsElevation] at hn
  · split_ifs at h
    · cases h
    · rw [List.mem_singleton] at h; subst h; simp [opRefs, needsElevation] at hn

/-- **Nothing is missing**: in an accepted project every reference to a parameter is to one of the data parameters, and every gradient with the elevation knows the
elevation of the station. -/
theorem c95_nothing_missing (files : Files) (gridded : List String) (catchment : Bool) (config : Dict) (os : List Op) (ps : List (String × DataParam))
    (h : load files gridded catchment config = .ok (os, ps)) :
    (∀ o ∈ os, ∀ n, Ref.param n ∈ opRefs o → n ∈ ps.map (·.1)) ∧ (∀ o ∈ os, needsElevation o ≠ some none) := by
  obtain ⟨d, g, hr⟩ := load_ok h
  injection hr with h1 h2
  subst h1; subst h2
  constructor
  · intro o ho n hn
    obtain ⟨hs, hos⟩ := ops_station ho (Or.inl (List.ne_nil_of_mem hn))
    have h' := (hasStation_iff d).mp hs
    have hst := g.station h'
    obtain ⟨t, t1, -⟩ := hst.temperature
    obtain ⟨p, p1, -⟩ := hst.precipitation
    have et := section_unique t1
    have ep := section_unique p1
    subst et; subst ep
    rw [dataParams_names g.params]
    exact g.references h' n ((mem_references files d n t1 p1).mp (opRefs_station hos hn))
  · intro o ho hn
    obtain ⟨hs, hos⟩ := ops_station ho (Or.inr (by rw [hn]; simp))
    have hst := g.station ((hasStation_iff d).mp hs)
    obtain ⟨e1, e2⟩ := needs_station hos hn
    obtain ⟨cs, -, hcs⟩ := hst.columns
    obtain ⟨p, p1, -⟩ := hst.precipitation
    have ep := section_unique p1
    subst ep
    have : ∃ x, get d "ref_elevation" = some (.num x) := by
      apply hst.needed
      rcases e2 with h | h
      · left
        have h' : has (columnsOf d) "temperature" = true := h
        rw [columnsOf_eq hcs, has_iff] at h'
        obtain ⟨v, hv⟩ := Option.ne_none_iff_exists'.mp h'
        exact ⟨cs, v, hcs, hv⟩
      · right
        have h' : (ref (sub d "precipitation") "gradient").isSome = true := h
        rw [ref_isSome] at h'
        obtain ⟨v, hv, hv2⟩ := h'
        exact ⟨_, v, p1, hv, hv2⟩
    obtain ⟨x, hx⟩ := this
    have e3 : (station files d).refElevation = some x := (number_some d _ x).mpr hx
    rw [e3] at e1; cases e1

/-- **Corrected first**: the precipitation is corrected by the given factor before it is spread. -/
theorem c95_corrected_first (files : Files) (gridded : List String) (d t : Dict) (x : Int) (ht : Section d "precipitation" t)
    (hx : get t "correction_factor" = some (.num x)) (hp : FromStation d "precipitation") :
    ∃ pre post, ops files gridded d = pre ++ .correct "precipitation" (.num x) :: post ∧ "precipitation" ∉ pre.filterMap field ∧ "precipitation" ∈ post.filterMap field := by
  have hs : hasStation d = true := by
    obtain ⟨cs, h, -⟩ := hp
    rw [hasStation_iff]; right; rw [h]; simp
  have hc : has (station files d).columns "precipitation" = true := by
    rw [has_mem]
    have := (mem_station d "precipitation").mpr hp
    rw [if_pos hs] at this; exact this
  have hf : (station files d).precipFactor = some (.num x) := by
    show ref (sub d "precipitation") "correction_factor" = _
    rw [← section_unique ht]; unfold ref; rw [hx]
  unfold ops stationOps precipOps correctOps
  rw [if_pos hs, hc, hf]
  simp only [if_true]
  refine ⟨_, _, by simp only [List.append_assoc, List.cons_append, List.nil_append]; rw [← List.cons_append], ?_, ?_⟩
  · unfold temperatureOps
    split_ifs <;> simp [field]
  · cases (station files d).precipGradient <;> simp [field]

/-! ## What is accepted all the same -/

/-- A file given as null is accepted, and there is then no file to load. -/
theorem c95_null_file : ∃ o ps, load (fun _ => none) [] false
    [("forcing", .dict [("file", .null), ("columns", .dict [("precipitation", .str "p"), ("pet", .str "e")])])] = .ok (o, ps) ∧
      Op.load none "date" "%Y-%m-%d" [("precipitation", .str "p"), ("pet", .str "e")] ∈ o := ⟨_, _, rfl, List.mem_cons_self⟩

/-- A data parameter given as null is accepted, and has no value. -/
theorem c95_null_value (files : Files) (av : List String) (h : files "f.csv" = some (some av)) (h1 : "date" ∈ av) (h2 : "p" ∈ av) (h3 : "e" ∈ av) :
    ∃ o ps, load files [] false
      [("forcing", .dict [("file", .str "f.csv"), ("columns", .dict [("precipitation", .str "p"), ("pet", .str "e")]),
        ("precipitation", .dict [("correction_factor", .str "param:cf")])]), ("data_parameters", .dict [("cf", .dict [("value", .null)])])] = .ok (o, ps) ∧
      ("cf", ⟨none, none, none⟩) ∈ ps ∧ Op.correct "precipitation" (.param "cf") ∈ o := by
  unfold load
  have hm : msgs files [] false [("forcing", .dict [("file", .str "f.csv"), ("columns", .dict [("precipitation", .str "p"), ("pet", .str "e")]),
        ("precipitation", .dict [("correction_factor", .str "param:cf")])]), ("data_parameters", .dict [("cf", .dict [("value", .null)])])] = [] := by
    have hfile : file files [("file", .str "f.csv"), ("columns", .dict [("precipitation", .str "p"), ("pet", .str "e")]),
        ("precipitation", .dict [("correction_factor", .str "param:cf")])] = some "f.csv" := by
      show (if (files "f.csv").isSome then some "f.csv" else none) = _; rw [h]; rfl
    have hcm : columnMsgs files (some "f.csv") "date" [("precipitation", .str "p"), ("pet", .str "e")] = [] := by
      rw [columnMsgs_nil]
      refine ⟨av, h, h1, ?_⟩
      intro p hp
      simp only [List.mem_cons, List.not_mem_nil, or_false] at hp
      rcases hp with rfl | rfl
      · exact ⟨"p", h2, rfl⟩
      · exact ⟨"e", h3, rfl⟩
    have hfm : fileMsgs files [("file", .str "f.csv"), ("columns", .dict [("precipitation", .str "p"), ("pet", .str "e")]),
        ("precipitation", .dict [("correction_factor", .str "param:cf")])] "forcing" = [] := by
      show ([] : List String) ++ (if (files "f.csv").isSome then [] else _) = []; rw [h]; rfl
    show forcingMsgs files [] _ ++ _ ++ _ = _
    unfold forcingMsgs stationMsgs
    rw [hfile, hfm]
    show _ ++ _ ++ _ = _
    rw [show (timeOf [("file", .str "f.csv"), ("columns", .dict [("precipitation", .str "p"), ("pet", .str "e")]),
        ("precipitation", .dict [("correction_factor", .str "param:cf")])]).1 = "date" from rfl]
    rw [show columnsOf [("file", .str "f.csv"), ("columns", .dict [("precipitation", .str "p"), ("pet", .str "e")]),
        ("precipitation", .dict [("correction_factor", .str "param:cf")])] = [("precipitation", .str "p"), ("pet", .str "e")] from rfl]
    rw [hcm]
    rfl
  rw [if_neg (by rw [not_not]; exact hm)]
  exact ⟨_, _, rfl, List.mem_cons_self, List.mem_cons_of_mem _ List.mem_cons_self⟩

/-! ## An example -/

def exampleFiles : Files := fun n => if n = "station.csv" then some (some ["date", "p(mm)", "t(C)"]) else none

/-- A station with precipitation and temperature, gradients and a reference; the evapotranspiration is computed. -/
def exampleConfig (reference : String) : Dict :=
  [("forcing", .dict [("file", .str "station.csv"), ("columns", .dict [("precipitation", .str "p(mm)"), ("temperature", .str "t(C)")]), ("ref_elevation", .num 1250),
      ("temperature", .dict [("gradient", .str reference)]), ("precipitation", .dict [("correction_factor", .num 2), ("gradient", .num 1)]),
      ("pet", .dict [("latitude", .num 47)])]),
   ("data_parameters", .dict [("t_gradient", .dict [("value", .num (-1)), ("min", .num (-2)), ("max", .num 0)])])]

theorem c95_example : load exampleFiles [] false (exampleConfig "param:t_gradient") = .ok
      ([.load (some "station.csv") "date" "%Y-%m-%d" [("precipitation", .str "p(mm)"), ("temperature", .str "t(C)")],
        .additive "temperature" (some 1250) (some (.param "t_gradient")), .correct "precipitation" (.num 2), .multiplicative "precipitation" (some 1250) (.num 1),
        .pet "Oudin" (some 47)], [("t_gradient", ⟨some (-1), some (-2), some 0⟩)]) ∧
    (¬ ∃ r, load exampleFiles [] false (exampleConfig "param:gradient") = .ok r) ∧ (¬ ∃ r, load exampleFiles ["temperature"] false (exampleConfig "param:t_gradient") = .ok r) := by
  refine ⟨rfl, ?_, ?_⟩
  · rintro ⟨r, h⟩; cases h
  · rintro ⟨r, h⟩; cases h

end HB.Project
