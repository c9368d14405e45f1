import Verif.Model.ProjectObs
import Verif.Props.ProjectFile4

/-! # C95: observations and parameters of a project file -/

set_option linter.unusedSectionVars false
set_option linter.unusedSimpArgs false

namespace HB.Project

open Custom (Val get has truthy getOr)
open Spec

/-- The section about the observations. -/
structure GoodObs (files : Files) (d : Dict) : Prop where
  keys : Keys d ["file", "time", "column"]
  time : Optional d "time" fun v => ∃ t, v = .dict t ∧ Keys t ["column", "format"] ∧ Optional t "column" IsStr ∧ Optional t "format" IsStr
  fileGiven : get d "file" ≠ none
  columnGiven : get d "column" ≠ none
  column : Optional d "column" IsStr
  file : ∀ v, get d "file" = some v → v = .null ∨ ∃ n, v = .str n ∧ files n ≠ none
  /-- the file has the columns, if file and column are both named -/
  columns : ∀ n c, get d "file" = some (.str n) → get d "column" = some (.str c) → ∃ available, files n = some (some available) ∧ c ∈ available ∧ ∃ t ∈ available, TimeColumn d t

theorem obsDictMsgs_nil (files : Files) (d : Dict) : obsDictMsgs files d = [] ↔ GoodObs files d := by
  unfold obsDictMsgs
  simp only [List.append_eq_nil_iff, keyMsgs_nil, fileMsgs_nil, timeMsgs_nil, strMsgs_nil]
  have hh : ((if has d "column" = true then [] else ["observations.column"]) = ([] : List String)) ↔ get d "column" ≠ none := by
    rw [← has_iff]; cases has d "column" <;> simp
  rw [hh]
  have hcols : (get d "file" ≠ none ∧ ∀ v, get d "file" = some v → v = .null ∨ ∃ n, v = .str n ∧ files n ≠ none) →
      (obsColumnMsgs files (file files d) (str d "column") (timeOf d).1 = [] ↔
        ∀ n c, get d "file" = some (.str n) → get d "column" = some (.str c) → ∃ available, files n = some (some available) ∧ c ∈ available ∧ ∃ t ∈ available, TimeColumn d t) := by
    rintro ⟨-, hf⟩
    unfold obsColumnMsgs
    cases hs : str d "file" with
    | none =>
      have : file files d = none := by unfold file; rw [hs]
      rw [this]
      refine ⟨fun _ n c h1 _ => ?_, fun _ => rfl⟩
      rw [(str_some d "file" n).mpr h1] at hs; cases hs
    | some n =>
      have hg := (str_some d "file" n).mp hs
      have hn : files n ≠ none := by
        rcases hf _ hg with h | ⟨m, hm, h⟩
        · cases h
        · injection hm with hm; rw [hm]; exact h
      have hfile : file files d = some n := by
        unfold file; rw [hs]; simp only; rw [if_pos]; cases hx : files n with
        | none => exact absurd hx hn
        | some o => rfl
      rw [hfile]
      cases hc : str d "column" with
      | none =>
        refine ⟨fun _ n' c _ h2 => ?_, fun _ => rfl⟩
        rw [(str_some d "column" c).mpr h2] at hc; cases hc
      | some c =>
        have hgc := (str_some d "column" c).mp hc
        simp only
        have hq : (∀ n' c', get d "file" = some (.str n') → get d "column" = some (.str c') → ∃ available, files n' = some (some available) ∧ c' ∈ available ∧ ∃ t ∈ available, TimeColumn d t) ↔
            ∃ available, files n = some (some available) ∧ c ∈ available ∧ (timeOf d).1 ∈ available := by
          constructor
          · intro h
            obtain ⟨av, h1, h2, t, h3, h4⟩ := h n c hg hgc
            exact ⟨av, h1, h2, by rw [← (timeColumn_iff d t).mp h4]; exact h3⟩
          · rintro ⟨av, h1, h2, h3⟩ n' c' hn' hc'
            rw [hg] at hn'; injection hn' with hn'; injection hn' with hn'; subst hn'
            rw [hgc] at hc'; injection hc' with hc'; injection hc' with hc'; subst hc'
            exact ⟨av, h1, h2, _, h3, (timeColumn_iff d _).mpr rfl⟩
        rw [hq]
        cases hx : files n with
        | none => exact absurd hx hn
        | some o =>
          cases o with
          | none => simp
          | some av =>
            simp only [List.append_eq_nil_iff, Option.some.injEq, exists_eq_left']
            by_cases h1 : (timeOf d).1 ∈ av <;> by_cases h2 : c ∈ av <;> simp [h1, h2]
  constructor
  · rintro ⟨⟨⟨⟨⟨k, f⟩, t⟩, c⟩, cg⟩, cm⟩
    exact ⟨k, t, f.1, cg, c, f.2, (hcols f).mp cm⟩
  · intro g
    exact ⟨⟨⟨⟨⟨g.keys, g.fileGiven, g.file⟩, g.time⟩, g.column⟩, g.columnGiven⟩, (hcols ⟨g.fileGiven, g.file⟩).mpr g.columns⟩

/-- **A project file is accepted exactly when all its sections are in order** (of those modelled): the required sections are there, no key is unknown, the forcing is as in
`c95_accepts`, the parameters are numbers, and the observations, if any, name a file with the columns. -/
theorem c95_accepts_all (files : Files) (gridded : List String) (catchment : Bool) (config : Dict) :
    (∃ r, loadAll files gridded catchment config = .ok r) ↔
      Keys config ["model", "hydro_units", "forcing", "observations", "periods", "parameters", "data_parameters", "output"] ∧ (∀ k ∈ ["model", "hydro_units", "forcing", "periods"], get config k ≠ none) ∧ (∃ d, Good files gridded catchment config d) ∧
      (Optional config "observations" fun v => ∃ d, v = .dict d ∧ GoodObs files d) ∧
      (Optional config "parameters" fun v => ∃ ps, v = .dict ps ∧ ∀ p ∈ ps, IsNum p.2) := by
  have hobs : obsMsgs files config = [] ↔ Optional config "observations" fun v => ∃ d, v = .dict d ∧ GoodObs files d := by
    unfold obsMsgs
    rw [Optional]
    cases h : get config "observations" with
    | none => simp
    | some v => cases v <;> simp [obsDictMsgs_nil]
  have hpar : paramMsgs config = [] ↔ Optional config "parameters" fun v => ∃ ps, v = .dict ps ∧ ∀ p ∈ ps, IsNum p.2 := by
    unfold paramMsgs
    rw [Optional]
    have hnum : ∀ v, (numOf v).isNone = false ↔ IsNum v := by intro v; unfold numOf IsNum; cases v <;> simp
    cases h : get config "parameters" with
    | none => simp
    | some v =>
      cases v with
      | dict ps => simp only [List.map_eq_nil_iff, filter_nil_iff, hnum, Option.some.injEq, forall_eq', reduceCtorEq, false_or, Val.dict.injEq, exists_eq_left']
      | _ => simp
  have htop : topMsgs config = [] ↔ Keys config ["model", "hydro_units", "forcing", "observations", "periods", "parameters", "data_parameters", "output"] ∧ ∀ k ∈ ["model", "hydro_units", "forcing", "periods"], get config k ≠ none := by
    unfold topMsgs
    rw [List.append_eq_nil_iff, keyMsgs_nil, filter_nil_iff]
    refine and_congr Iff.rfl (forall_congr' fun k => forall_congr' fun _ => ?_)
    rw [← has_iff]; cases has config k <;> simp
  have hfor := c95_accepts files gridded catchment config
  have hall : (∃ r, loadAll files gridded catchment config = .ok r) ↔
      topMsgs config = [] ∧ (∃ r, load files gridded catchment config = .ok r) ∧ obsMsgs files config = [] ∧ paramMsgs config = [] := by
    have hm : ∀ r, load files gridded catchment config = .ok r → msgs files gridded catchment config = [] := by
      intro r hr; unfold load at hr; split_ifs at hr with h; rw [not_not] at h; exact h
    unfold loadAll
    constructor
    · rintro ⟨r, h⟩
      split_ifs at h with hc
      rw [not_not] at hc
      simp only [List.append_eq_nil_iff] at hc
      obtain ⟨⟨⟨h1, -⟩, h3⟩, h4⟩ := hc
      cases hl : load files gridded catchment config with
      | error e => rw [hl] at h; cases h
      | ok q => exact ⟨h1, ⟨q, rfl⟩, h3, h4⟩
    · rintro ⟨h1, ⟨q, hq⟩, h3, h4⟩
      rw [h1, hm q hq, h3, h4, hq]
      exact ⟨_, if_neg (by simp)⟩
  rw [hall, htop, hfor, hobs, hpar, and_assoc]

/-- **Parameters and observations are those declared.** -/
theorem c95_observations (files : Files) (gridded : List String) (catchment : Bool) (config : Dict) (o : List Op) (dp : List (String × DataParam)) (ps : List (String × Int))
    (ob : Option Obs) (h : loadAll files gridded catchment config = .ok (o, dp, ps, ob)) :
    load files gridded catchment config = .ok (o, dp) ∧
    (∀ l, get config "parameters" = some (.dict l) → l = ps.map fun p => (p.1, Val.num p.2)) ∧
    ((∀ d, get config "observations" ≠ some (.dict d)) → ob = none) ∧
    (∀ d, get config "observations" = some (.dict d) → ∃ b, ob = some b ∧ TimeColumn d b.timeColumn ∧ TimeFormat d b.timeFormat ∧
      (∀ n, b.file = some n ↔ get d "file" = some (.str n)) ∧ (∀ c, b.column = some c ↔ get d "column" = some (.str c))) := by
  have hacc := (c95_accepts_all files gridded catchment config).mp ⟨_, h⟩
  obtain ⟨-, -, -, hob, hpa⟩ := hacc
  unfold loadAll at h
  split_ifs at h
  cases hl : load files gridded catchment config with
  | error e => rw [hl] at h; cases h
  | ok q =>
    rw [hl] at h
    obtain ⟨q1, q2⟩ := q
    simp only at h
    injection h with h
    injection h with h1 h; injection h with h2 h; injection h with h3 h4
    subst h1; subst h2; subst h3; subst h4
    refine ⟨rfl, fun l hl => ?_, fun hno => ?_, fun d hd => ?_⟩
    · rcases hpa _ hl with hn | ⟨l', h1, h2⟩
      · cases hn
      · injection h1 with h1; subst h1
        have e : params config = l.filterMap fun p => (numOf p.2).map fun x => (p.1, x) := by unfold params; rw [hl]
        rw [e]
        clear hl e hpa
        induction l with
        | nil => rfl
        | cons p l ih =>
          obtain ⟨x, hx⟩ := h2 p (by simp)
          have ih' := ih (fun q hq => h2 q (by simp [hq]))
          rw [List.filterMap_cons]
          have : (numOf p.2).map (fun x => (p.1, x)) = some (p.1, x) := by rw [hx]; rfl
          rw [this]
          simp only [List.map_cons]
          rw [← ih', ← hx]
    · unfold obs; split
      · rename_i d hd; exact absurd hd (hno d)
      · rfl
    · have hb : obs files config = some ⟨file files d, (timeOf d).1, (timeOf d).2, str d "column"⟩ := by unfold obs; rw [hd]
      refine ⟨_, hb, (timeColumn_iff d _).mpr rfl, (timeFormat_iff d _).mpr rfl, fun n => ?_, fun c => str_some d _ c⟩
      rcases hob _ hd with hn | ⟨d', h1, g⟩
      · cases hn
      · injection h1 with h1; subst h1
        show file files d = some n ↔ _
        unfold file
        constructor
        · intro hf
          cases hs : str d "file" with
          | none => rw [hs] at hf; cases hf
          | some m =>
            rw [hs] at hf; simp only at hf
            split_ifs at hf
            injection hf with hf; subst hf; exact (str_some d _ _).mp hs
        · intro hf
          rw [(str_some d _ _).mpr hf]
          simp only
          rw [if_pos]
          rcases g.file _ hf with hn | ⟨m, hm, h⟩
          · cases hn
          · injection hm with hm; subst hm
            cases hx : files n with
            | none => exact absurd hx h
            | some o => rfl

/-- A discharge column given as null is accepted, whatever columns the file has, also when the column of the dates is not there. -/
theorem c95_null_column (files : Files) (h : files "q.csv" ≠ none) : GoodObs files [("file", .str "q.csv"), ("column", .null), ("time", .dict [("column", .str "no such column")])] := by
  rw [← obsDictMsgs_nil]
  have hsome : (files "q.csv").isSome = true := by
    cases hx : files "q.csv" with
    | none => exact absurd hx h
    | some o => rfl
  have hfm : fileMsgs files [("file", .str "q.csv"), ("column", .null), ("time", .dict [("column", .str "no such column")])] "observations" = [] := by
    show ([] : List String) ++ (if (files "q.csv").isSome then [] else _) = []; rw [hsome]; rfl
  unfold obsDictMsgs
  rw [hfm]
  have hcm : obsColumnMsgs files (file files [("file", .str "q.csv"), ("column", .null), ("time", .dict [("column", .str "no such column")])]) none "no such column" = [] := by
    unfold obsColumnMsgs
    cases file files _ <;> rfl
  show _ ++ _ ++ _ ++ _ ++ _ ++ obsColumnMsgs files (file files _) none "no such column" = []
  rw [hcm]
  rfl

/-- A whole project file is accepted. -/
theorem c95_example_all : ∃ r, loadAll (fun n => if n = "q.csv" then some (some ["date", "q"]) else exampleFiles n) [] false
    (exampleConfig "param:t_gradient" ++ [("model", .str "socont"), ("hydro_units", .null), ("periods", .list [.str "2000-01-01", .str "2009-12-31"]), ("parameters", .dict [("k", .num 3)]),
      ("observations", .dict [("file", .str "q.csv"), ("column", .str "q")])]) = .ok r := ⟨_, rfl⟩

end HB.Project
