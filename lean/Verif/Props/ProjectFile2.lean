import Verif.Props.ProjectFile

/-! # C95: accepted project files -/

set_option linter.unusedSectionVars false
set_option linter.unusedSimpArgs false

namespace HB.Project

open Custom (Val get has truthy getOr)
open Spec

theorem timeColumn_iff (d : Dict) (c : String) : TimeColumn d c ↔ c = (timeOf d).1 := by
  unfold TimeColumn timeOf
  have base : ∀ P : Prop, P → ((c ≠ "" ∧ False) ∨ (c = "date" ∧ P) ↔ c = "date") := by intro P hP; simp [hP]
  cases hg : get d "time" with
  | none => simp
  | some v =>
    cases v with
    | dict t =>
      cases hc : get t "column" with
      | none =>
        simp [str, hc, orElse]
        rintro - t' s rfl h; rw [hc] at h; cases h
      | some w =>
        cases w with
        | str s =>
          simp only [str, hc, orElse, Option.some.injEq, Val.dict.injEq, Val.str.injEq]
          by_cases hs : s = ""
          · subst hs
            rw [if_pos rfl]
            constructor
            · rintro (⟨h1, t', rfl, h2⟩ | ⟨h, -⟩)
              · rw [hc] at h2; injection h2 with h2; injection h2 with h2; exact absurd h2.symm h1
              · exact h
            · intro h; right; refine ⟨h, ?_⟩
              rintro t' s' rfl h2; rw [hc] at h2; injection h2 with h2; injection h2 with h2; exact h2.symm
          · rw [if_neg hs]
            constructor
            · rintro (⟨h1, t', rfl, h2⟩ | ⟨h, h2⟩)
              · rw [hc] at h2; injection h2 with h2; injection h2 with h2; exact h2.symm
              · exact absurd (h2 t s rfl hc) hs
            · rintro rfl; left; exact ⟨hs, t, rfl, hc⟩
        | _ =>
          simp only [str, hc, orElse, Option.some.injEq, Val.dict.injEq]
          constructor
          · rintro (⟨h1, t', rfl, h2⟩ | ⟨h, h2⟩)
            · rw [hc] at h2; cases h2
            · exact h
          · intro h; right; refine ⟨h, ?_⟩
            rintro t' s' rfl h2; rw [hc] at h2; cases h2
    | _ => simp

theorem timeFormat_iff (d : Dict) (c : String) : TimeFormat d c ↔ c = (timeOf d).2 := by
  unfold TimeFormat timeOf
  have base : ∀ P : Prop, P → ((c ≠ "" ∧ False) ∨ (c = "%Y-%m-%d" ∧ P) ↔ c = "%Y-%m-%d") := by intro P hP; simp [hP]
  cases hg : get d "time" with
  | none => simp
  | some v =>
    cases v with
    | dict t =>
      cases hc : get t "format" with
      | none =>
        simp [str, hc, orElse]
        rintro - t' s rfl h; rw [hc] at h; cases h
      | some w =>
        cases w with
        | str s =>
          simp only [str, hc, orElse, Option.some.injEq, Val.dict.injEq, Val.str.injEq]
          by_cases hs : s = ""
          · subst hs
            rw [if_pos rfl]
            constructor
            · rintro (⟨h1, t', rfl, h2⟩ | ⟨h, -⟩)
              · rw [hc] at h2; injection h2 with h2; injection h2 with h2; exact absurd h2.symm h1
              · exact h
            · intro h; right; refine ⟨h, ?_⟩
              rintro t' s' rfl h2; rw [hc] at h2; injection h2 with h2; injection h2 with h2; exact h2.symm
          · rw [if_neg hs]
            constructor
            · rintro (⟨h1, t', rfl, h2⟩ | ⟨h, h2⟩)
              · rw [hc] at h2; injection h2 with h2; injection h2 with h2; exact h2.symm
              · exact absurd (h2 t s rfl hc) hs
            · rintro rfl; left; exact ⟨hs, t, rfl, hc⟩
        | _ =>
          simp only [str, hc, orElse, Option.some.injEq, Val.dict.injEq]
          constructor
          · rintro (⟨h1, t', rfl, h2⟩ | ⟨h, h2⟩)
            · rw [hc] at h2; cases h2
            · exact h
          · intro h; right; refine ⟨h, ?_⟩
            rintro t' s' rfl h2; rw [hc] at h2; cases h2
    | _ => simp

theorem columnsOf_eq {d cs : Dict} (h : get d "columns" = some (.dict cs)) : columnsOf d = cs := by unfold columnsOf; rw [h]

theorem columnsOf_ne {d : Dict} (h : columnsOf d ≠ []) : get d "columns" = some (.dict (columnsOf d)) := by
  unfold columnsOf at *
  cases hg : get d "columns" with
  | none => rw [hg] at h; exact absurd rfl h
  | some v =>
    rw [hg] at h
    cases v with
    | dict t => rfl
    | _ => exact absurd rfl h

theorem fileMsgs_nil (files : Files) (d : Dict) (w : String) :
    fileMsgs files d w = [] ↔ get d "file" ≠ none ∧ ∀ v, get d "file" = some v → v = .null ∨ ∃ n, v = .str n ∧ files n ≠ none := by
  unfold fileMsgs
  rw [List.append_eq_nil_iff, strMsgs_nil]
  unfold Optional IsStr str
  cases h : get d "file" with
  | none => simp [has, h]
  | some v =>
    cases v with
    | str s =>
      cases hf : files s <;> simp [hf]
    | _ => simp [has, h]

theorem timeMsgs_nil (d : Dict) (w : String) :
    timeMsgs d w = [] ↔ Optional d "time" fun v => ∃ t, v = .dict t ∧ Keys t ["column", "format"] ∧ Optional t "column" IsStr ∧ Optional t "format" IsStr := by
  unfold timeMsgs
  rw [Optional]
  cases h : get d "time" with
  | none => simp
  | some v =>
    cases v with
    | dict t =>
      simp only [List.append_eq_nil_iff, keyMsgs_nil, strMsgs_nil, Option.some.injEq, forall_eq', reduceCtorEq, false_or, Val.dict.injEq, exists_eq_left']
      exact and_assoc
    | _ => simp

theorem missing_false (available : List String) (v : Val) : missing available v = false ↔ ∃ c ∈ available, v = .str c := by
  unfold missing
  cases v <;> simp

theorem columnMsgs_nil (files : Files) (n tc : String) (cols : Dict) :
    columnMsgs files (some n) tc cols = [] ↔ ∃ available, files n = some (some available) ∧ tc ∈ available ∧ ∀ p ∈ cols, ∃ c ∈ available, p.2 = .str c := by
  unfold columnMsgs
  cases h : files n with
  | none => simp [h]
  | some o =>
    cases o with
    | none => simp [h]
    | some av =>
      simp only [h, List.append_eq_nil_iff, List.map_eq_nil_iff, filter_nil_iff, missing_false, Option.some.injEq, exists_eq_left']
      by_cases ht : tc ∈ av <;> simp [ht]

/-- The station section. -/
theorem stationMsgs_nil (files : Files) (d : Dict) : stationMsgs files d = [] ↔ GoodStation files d := by
  unfold stationMsgs
  simp only [List.append_eq_nil_iff, fileMsgs_nil, timeMsgs_nil, numberMsgs_nil, subMsgs_nil, keyMsgs_nil, refMsgs_nil]
  constructor
  · rintro ⟨⟨⟨⟨⟨⟨⟨⟨⟨⟨⟨⟨⟨f1, f2⟩, ti⟩, co⟩, el⟩, t1⟩, t2⟩, t3⟩, p1⟩, p2⟩, p3⟩, p4⟩, ne⟩, cm⟩
    have hco : columnsOf d ≠ [] := by intro h; rw [if_pos h] at co; cases co
    have hget := columnsOf_ne hco
    refine ⟨f1, ?_, ti, ⟨_, hco, hget⟩, el, ⟨_, t1, t2, t3⟩, ⟨_, p1, p2, p3, p4⟩, ?_⟩
    · intro v hv
      rcases f2 v hv with rfl | ⟨n, rfl, hn⟩
      · left; rfl
      · right
        have hfile : file files d = some n := by
          unfold file; rw [(str_some d "file" n).mpr hv]; simp only
          rw [if_pos]; cases hf : files n with
          | none => exact absurd hf hn
          | some o => rfl
        rw [hfile, columnMsgs_nil] at cm
        obtain ⟨av, h1, h2, h3⟩ := cm
        refine ⟨n, av, rfl, h1, ⟨_, h2, (timeColumn_iff d _).mpr rfl⟩, fun cs hcs => ?_⟩
        rw [← columnsOf_eq hcs]; exact h3
    · intro hneed
      have hcond : (has (columnsOf d) "temperature" || (station files d).precipGradient.isSome) = true := by
        rw [Bool.or_eq_true]
        rcases hneed with ⟨cs, v, hcs, hv⟩ | ⟨t, v, ht, hv, hr⟩
        · left; rw [columnsOf_eq hcs, has_iff, hv]; simp
        · right
          show (ref (sub d "precipitation") "gradient").isSome = true
          rw [ref_isSome, ← section_unique ht]; exact ⟨v, hv, hr⟩
      rw [hcond, Bool.true_and] at ne
      have : (number d "ref_elevation").isNone = false := by
        cases hn : (number d "ref_elevation").isNone with
        | false => rfl
        | true => rw [show (station files d).refElevation = number d "ref_elevation" from rfl, hn] at ne; simp at ne
      cases hx : number d "ref_elevation" with
      | none => rw [hx] at this; cases this
      | some x => exact ⟨x, (number_some d _ x).mp hx⟩
  · intro g
    obtain ⟨cs, hcs, hget⟩ := g.columns
    have hco := columnsOf_eq hget
    obtain ⟨t, t1, t2, t3⟩ := g.temperature
    obtain ⟨p, p1, p2, p3, p4⟩ := g.precipitation
    have et := section_unique t1
    have ep := section_unique p1
    subst et; subst ep
    refine ⟨⟨⟨⟨⟨⟨⟨⟨⟨⟨⟨⟨⟨g.given, ?_⟩, g.time⟩, ?_⟩, g.elevation⟩, t1⟩, t2⟩, t3⟩, p1⟩, p2⟩, p3⟩, p4⟩, ?_⟩, ?_⟩
    · intro v hv
      rcases g.file v hv with h | ⟨n, av, h1, h2, -⟩
      · left; exact h
      · right; exact ⟨n, h1, by rw [h2]; simp⟩
    · rw [hco, if_neg hcs]
    · split_ifs with hc
      · exfalso
        rw [Bool.and_eq_true, Bool.or_eq_true] at hc
        have : ∃ x, get d "ref_elevation" = some (.num x) := by
          apply g.needed
          rcases hc.1 with h | h
          · left
            rw [hco, has_iff] at h
            obtain ⟨v, hv⟩ := Option.ne_none_iff_exists'.mp h
            exact ⟨cs, v, hget, hv⟩
          · right
            have h' : (ref (sub d "precipitation") "gradient").isSome = true := h
            rw [ref_isSome] at h'
            obtain ⟨v, hv, hr⟩ := h'
            exact ⟨_, v, p1, hv, hr⟩
        obtain ⟨x, hx⟩ := this
        have h2 : (number d "ref_elevation").isNone = true := hc.2
        rw [(number_some d _ x).mpr hx] at h2; cases h2
      · rfl
    · obtain ⟨v, hv⟩ := Option.ne_none_iff_exists'.mp g.given
      rcases g.file v hv with rfl | ⟨n, av, rfl, h2, ⟨c, hc, htc⟩, h4⟩
      · have : file files d = none := by unfold file str; rw [hv]
        rw [this]; rfl
      · have hfile : file files d = some n := by
          unfold file; rw [(str_some d "file" n).mpr hv]; simp only; rw [if_pos]; rw [h2]; rfl
        rw [hfile, columnMsgs_nil]
        refine ⟨av, h2, ?_, ?_⟩
        · rw [← (timeColumn_iff d c).mp htc]; exact hc
        · rw [hco]; exact h4 cs hget

/-- The data parameters. -/
theorem dataParamMsgs_nil (n : String) (v : Val) : dataParamMsgs n v = [] ↔
    (IsNum v ∨ ∃ d, v = .dict d ∧ Keys d ["value", "min", "max"] ∧ get d "value" ≠ none ∧ Optional d "value" IsNum ∧ Optional d "min" IsNum ∧ Optional d "max" IsNum) := by
  unfold dataParamMsgs IsNum
  cases v with
  | dict d =>
    simp only [List.append_eq_nil_iff, keyMsgs_nil, numberMsgs_nil, reduceCtorEq, exists_false, false_or, Val.dict.injEq, exists_eq_left']
    have hh : ((if has d "value" = true then [] else ["data_parameters." ++ n ++ ".value"]) = ([] : List String)) ↔ get d "value" ≠ none := by
      rw [← has_iff]; cases has d "value" <;> simp
    rw [hh]
    unfold IsNum
    tauto
  | _ => simp

theorem dataParamsMsgs_nil (config : Dict) : dataParamsMsgs config = [] ↔ GoodDataParams config := by
  unfold dataParamsMsgs GoodDataParams
  rw [Optional]
  cases h : get config "data_parameters" with
  | none => simp
  | some v =>
    cases v with
    | dict ps =>
      simp only [List.flatMap_eq_nil_iff, dataParamMsgs_nil, Option.some.injEq, forall_eq', reduceCtorEq, false_or, Val.dict.injEq, exists_eq_left']
    | _ => simp

/-- The names of data parameters in order. -/
theorem dataParams_names {config : Dict} (h : GoodDataParams config) (n : String) :
    n ∈ (dataParams config).map (·.1) ↔ ∃ ps, get config "data_parameters" = some (.dict ps) ∧ n ∈ ps.map (·.1) := by
  unfold dataParams
  cases hg : get config "data_parameters" with
  | none => simp
  | some v =>
    cases v with
    | dict ps =>
      simp only [Option.some.injEq, Val.dict.injEq, exists_eq_left']
      rcases h _ hg with h | ⟨ps', h1, h2⟩
      · cases h
      · injection h1 with h1; subst h1
        have e : (ps.flatMap entry).map (·.1) = ps.map (·.1) := by
          clear hg
          induction ps with
          | nil => rfl
          | cons p ps ih =>
            rw [List.flatMap_cons, List.map_append, ih (fun q hq => h2 q (by simp [hq]))]
            have : (entry p).map (·.1) = [p.1] := by
              unfold entry
              rcases h2 p (by simp) with ⟨x, hx⟩ | ⟨d, hd, -⟩
              · rw [hx]; rfl
              · rw [hd]; rfl
            rw [this]; rfl
        rw [e]
    | _ => simp

theorem hasStation_iff (d : Dict) : hasStation d = true ↔ HasStation d := by
  unfold hasStation HasStation; rw [Bool.or_eq_true, has_iff, has_iff]

theorem mem_sources (gridded : List String) (d : Dict) (v : String) : v ∈ sources gridded d ↔ FromStation d v ∨ v ∈ gridded := by
  unfold sources FromStation
  rw [List.mem_append]
  have : v ∈ (if hasStation d then (columnsOf d).map (·.1) else []) ↔ ∃ cs, get d "columns" = some (.dict cs) ∧ v ∈ cs.map (·.1) := by
    constructor
    · intro h
      split_ifs at h with hs
      · have hne : columnsOf d ≠ [] := by rintro he; rw [he] at h; simp at h
        exact ⟨_, columnsOf_ne hne, h⟩
      · cases h
    · rintro ⟨cs, h1, h2⟩
      rw [if_pos ((hasStation_iff d).mpr (Or.inr (by rw [h1]; simp))), columnsOf_eq h1]; exact h2
  rw [this]

theorem mem_station (d : Dict) (v : String) : v ∈ (if hasStation d then (columnsOf d).map (·.1) else []) ↔ FromStation d v := by
  have := mem_sources [] d v
  unfold sources at this
  simpa using this

theorem mem_references (files : Files) (d : Dict) (n : String) (ht : Section d "temperature" (sub d "temperature")) (hp : Section d "precipitation" (sub d "precipitation")) :
    n ∈ references (station files d) ↔ Refers d n := by
  have e : n ∈ references (station files d) ↔
      ref (sub d "temperature") "gradient" = some (.param n) ∨ ref (sub d "precipitation") "gradient" = some (.param n) ∨ ref (sub d "precipitation") "correction_factor" = some (.param n) := by
    unfold references station
    simp only [List.mem_filterMap, List.mem_cons, List.not_mem_nil, or_false]
    constructor
    · rintro ⟨r, hr, hm⟩
      have : r = some (.param n) := by
        cases r with
        | none => cases hm
        | some r => cases r with
          | num x => cases hm
          | param m => injection hm with hm; rw [hm]
      subst this
      rcases hr with h | h | h
      · exact Or.inl h.symm
      · exact Or.inr (Or.inl h.symm)
      · exact Or.inr (Or.inr h.symm)
    · rintro (h | h | h)
      · exact ⟨_, Or.inl h.symm, rfl⟩
      · exact ⟨_, Or.inr (Or.inl h.symm), rfl⟩
      · exact ⟨_, Or.inr (Or.inr h.symm), rfl⟩
  rw [e, ref_param, ref_param, ref_param]
  unfold Refers
  constructor
  · rintro (⟨v, h1, h2⟩ | ⟨v, h1, h2⟩ | ⟨v, h1, h2⟩)
    · exact ⟨_, v, h2, Or.inl ⟨ht, h1⟩⟩
    · exact ⟨_, v, h2, Or.inr ⟨hp, Or.inl h1⟩⟩
    · exact ⟨_, v, h2, Or.inr ⟨hp, Or.inr h1⟩⟩
  · rintro ⟨t, v, h2, ⟨hs, h1⟩ | ⟨hs, h1 | h1⟩⟩
    · rw [section_unique hs] at h1; exact Or.inl ⟨v, h1, h2⟩
    · rw [section_unique hs] at h1; exact Or.inr (Or.inl ⟨v, h1, h2⟩)
    · rw [section_unique hs] at h1; exact Or.inr (Or.inr ⟨v, h1, h2⟩)

end HB.Project
