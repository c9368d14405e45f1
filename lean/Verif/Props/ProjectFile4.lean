import Verif.Props.ProjectFile3

/-! # C95: the operations are those declared -/

set_option linter.unusedSectionVars false

namespace HB.Project

open Custom (Val get has truthy getOr)
open Spec

/-- What stands under a key: a number, a reference, or nothing. -/
def Declares (t : Dict) (k : String) (r : Option Ref) : Prop :=
  (∃ y, get t k = some (.num y) ∧ r = some (.num y)) ∨ (∃ n v, get t k = some v ∧ RefTo n v ∧ r = some (.param n)) ∨
    ((get t k = none ∨ get t k = some .null) ∧ r = none)

theorem declares_ref {t : Dict} {k : String} (h : Optional t k IsRef) : Declares t k (ref t k) := by
  unfold Declares
  cases hg : get t k with
  | none => right; right; exact ⟨Or.inl rfl, by unfold ref; rw [hg]⟩
  | some v =>
    rcases h v hg with rfl | ⟨y, rfl⟩ | ⟨n, hn⟩
    · right; right; exact ⟨Or.inr rfl, by unfold ref; rw [hg]⟩
    · left; exact ⟨y, rfl, by unfold ref; rw [hg]⟩
    · right; left; exact ⟨n, v, rfl, hn, (ref_param t k n).mpr ⟨v, hg, hn⟩⟩

theorem mem_ops {files : Files} {gridded : List String} {d : Dict} (h : HasStation d) {o : Op} (ho : o ∈ stationOps (station files d)) : o ∈ ops files gridded d := by
  unfold ops
  rw [if_pos ((hasStation_iff d).mpr h), List.mem_append, List.mem_append]
  exact Or.inl (Or.inl ho)

/-- **The operations are those declared**: the file is loaded with the declared columns; the temperature is spread with the declared gradient (or the default) from the
elevation of the station, the precipitation with the declared gradient or without one. -/
theorem c95_declared (files : Files) (gridded : List String) (catchment : Bool) (config : Dict) (o : List Op) (ps : List (String × DataParam))
    (h : load files gridded catchment config = .ok (o, ps)) : ∃ d, get config "forcing" = some (.dict d) ∧ (HasStation d →
      ∃ cs tt tp, get d "columns" = some (.dict cs) ∧ Section d "temperature" tt ∧ Section d "precipitation" tp ∧
        (∃ f c fmt, Op.load f c fmt cs ∈ o ∧ TimeColumn d c ∧ TimeFormat d fmt ∧ ∀ n, get d "file" = some (.str n) ↔ f = some n) ∧
        (∀ v, get cs "temperature" = some v → ∃ x g, get d "ref_elevation" = some (.num x) ∧ Declares tt "gradient" g ∧ Op.additive "temperature" (some x) g ∈ o) ∧
        (∀ v, get cs "precipitation" = some v → ∃ g, Declares tp "gradient" g ∧
          ((g = none ∧ Op.constant "precipitation" ∈ o) ∨ ∃ r x, g = some r ∧ get d "ref_elevation" = some (.num x) ∧ Op.multiplicative "precipitation" (some x) r ∈ o)) ∧
        (∀ v, get cs "precipitation" = some v → ∃ f, Declares tp "correction_factor" f ∧ ∀ r, f = some r ↔ Op.correct "precipitation" r ∈ o)) := by
  obtain ⟨d, g, hr⟩ := load_ok h
  injection hr with h1 h2
  subst h1
  refine ⟨d, g.section_, fun hs => ?_⟩
  have st := g.station hs
  obtain ⟨cs, -, hcs⟩ := st.columns
  obtain ⟨tt, t1, -, t3⟩ := st.temperature
  obtain ⟨tp, p1, -, p3, p4⟩ := st.precipitation
  have et := section_unique t1
  have ep := section_unique p1
  have hcol : (station files d).columns = cs := columnsOf_eq hcs
  have hhas : ∀ k v, get cs k = some v → has (station files d).columns k = true := by
    intro k v hv; rw [hcol, has_iff, hv]; simp
  refine ⟨cs, tt, tp, hcs, t1, p1, ⟨file files d, (timeOf d).1, (timeOf d).2, ?_, (timeColumn_iff d _).mpr rfl, (timeFormat_iff d _).mpr rfl, fun n => ?_⟩, ?_, ?_, ?_⟩
  · apply mem_ops hs
    unfold stationOps
    rw [hcol]
    simp only [List.mem_append, List.mem_singleton]
    exact Or.inl (Or.inl (Or.inl (Or.inl rfl)))
  · constructor
    · intro hn
      rcases st.file _ hn with h | ⟨m, av, hm, hf, -⟩
      · cases h
      · injection hm with hm; subst hm
        unfold file; rw [(str_some d "file" n).mpr hn]; simp only; rw [if_pos]; rw [hf]; rfl
    · intro hf
      unfold file at hf
      cases hstr : str d "file" with
      | none => rw [hstr] at hf; cases hf
      | some m =>
        rw [hstr] at hf
        simp only at hf
        split_ifs at hf
        injection hf with hf; subst hf
        exact (str_some d _ _).mp hstr
  · intro v hv
    obtain ⟨x, hx⟩ := st.needed (Or.inl ⟨cs, v, hcs, hv⟩)
    refine ⟨x, ref tt "gradient", hx, declares_ref t3, mem_ops hs ?_⟩
    unfold stationOps temperatureOps
    rw [if_pos (hhas _ v hv)]
    simp only [List.mem_append, List.mem_singleton]
    refine Or.inl (Or.inl (Or.inl (Or.inr ?_)))
    show _ = Op.additive "temperature" (number d "ref_elevation") (ref (sub d "temperature") "gradient")
    rw [(number_some d _ x).mpr hx, ← et]
  · intro v hv
    refine ⟨ref tp "gradient", declares_ref p4, ?_⟩
    have hprec : (station files d).precipGradient = ref tp "gradient" := by
      show ref (sub d "precipitation") "gradient" = _; rw [← ep]
    cases hg : ref tp "gradient" with
    | none =>
      left
      refine ⟨rfl, mem_ops hs ?_⟩
      unfold stationOps precipOps
      rw [if_pos (hhas _ v hv), hprec, hg]
      simp only [List.mem_append, List.mem_singleton]
      exact Or.inl (Or.inl (Or.inr (Or.inr trivial)))
    | some r =>
      right
      obtain ⟨w, hw, hwr⟩ := (ref_isSome tp "gradient").mp (by rw [hg]; rfl)
      obtain ⟨x, hx⟩ := st.needed (Or.inr ⟨tp, w, p1, hw, hwr⟩)
      refine ⟨r, x, rfl, hx, mem_ops hs ?_⟩
      unfold stationOps precipOps
      rw [if_pos (hhas _ v hv), hprec, hg]
      simp only [List.mem_append, List.mem_singleton]
      refine Or.inl (Or.inl (Or.inr (Or.inr ?_)))
      show _ = Op.multiplicative "precipitation" (number d "ref_elevation") r
      rw [(number_some d _ x).mpr hx]
  · intro v hv
    refine ⟨ref tp "correction_factor", declares_ref p3, fun r => ?_⟩
    have hfac : (station files d).precipFactor = ref tp "correction_factor" := by
      show ref (sub d "precipitation") "correction_factor" = _; rw [← ep]
    constructor
    · intro hr
      apply mem_ops hs
      unfold stationOps precipOps correctOps
      rw [if_pos (hhas _ v hv), hfac, hr]
      simp only [List.mem_append, List.mem_singleton]
      exact Or.inl (Or.inl (Or.inr (Or.inl trivial)))
    · intro ho
      obtain ⟨-, hos⟩ := ops_station ho (Or.inl (by simp [opRefs]))
      rw [← hfac]
      unfold stationOps temperatureOps precipOps correctOps at hos
      simp only [List.mem_append, List.mem_singleton, List.mem_map, reduceCtorEq, false_or, and_false, exists_false, or_false] at hos
      rcases hos with (h | h) | h
      · split_ifs at h
        · simp at h
        · cases h
      · rw [if_pos (hhas _ v hv), List.mem_append] at h
        rcases h with h | h
        · cases hf : (station files d).precipFactor with
          | none => rw [hf] at h; cases h
          | some f => rw [hf, List.mem_singleton] at h; injection h with _ h; rw [h]
        · cases hg : (station files d).precipGradient with
          | none => rw [hg] at h; simp at h
          | some r' => rw [hg] at h; simp at h
      · split_ifs at h
        · simp at h
        · cases h

/-- **Data parameters are those declared**, with value and limits as given. -/
theorem c95_parameters (files : Files) (gridded : List String) (catchment : Bool) (config : Dict) (o : List Op) (ps : List (String × DataParam))
    (h : load files gridded catchment config = .ok (o, ps)) (l : Dict) (hl : get config "data_parameters" = some (.dict l)) : ps.map (·.1) = l.map (·.1) ∧
      ∀ (i : ℕ) (n : String) (v : Val), l[i]? = some (n, v) → ∃ p : DataParam, ps[i]? = some (n, p) ∧ ((∃ x, v = .num x ∧ p = ⟨some x, none, none⟩) ∨ ∃ t, v = .dict t ∧
        (∀ x, p.value = some x ↔ get t "value" = some (.num x)) ∧ (∀ x, p.min = some x ↔ get t "min" = some (.num x)) ∧ (∀ x, p.max = some x ↔ get t "max" = some (.num x))) := by
  obtain ⟨d, g, hr⟩ := load_ok h
  injection hr with h1 h2
  subst h2
  have hgood : ∀ p ∈ l, ∃ x, dataParam p.2 = some x ∧ ((∃ y, p.2 = .num y ∧ x = ⟨some y, none, none⟩) ∨ ∃ t, p.2 = .dict t ∧ x = ⟨number t "value", number t "min", number t "max"⟩) := by
    rcases g.params _ hl with hn | ⟨ps', h1, h2⟩
    · cases hn
    · injection h1 with h1; subst h1
      intro p hp
      rcases h2 p hp with ⟨y, hy⟩ | ⟨t, ht, -⟩
      · exact ⟨_, by rw [hy]; rfl, Or.inl ⟨y, hy, rfl⟩⟩
      · exact ⟨_, by rw [ht]; rfl, Or.inr ⟨t, ht, rfl⟩⟩
  have hdp : dataParams config = l.flatMap entry := by unfold dataParams; rw [hl]
  rw [hdp]
  clear hl hdp h h1 g
  have hent : ∀ p ∈ l, ∀ x, dataParam p.2 = some x → entry p = [(p.1, x)] := by intro p _ x hx; unfold entry; rw [hx]
  induction l with
  | nil => exact ⟨rfl, fun i n v hi => by simp at hi⟩
  | cons p l ih =>
    obtain ⟨x, hx, hor⟩ := hgood p (by simp)
    obtain ⟨i1, i2⟩ := ih (fun q hq => hgood q (by simp [hq])) (fun q hq => hent q (by simp [hq]))
    rw [List.flatMap_cons, hent p (by simp) x hx]
    refine ⟨by simp only [List.map_cons, List.singleton_append]; rw [i1], fun i n v hi => ?_⟩
    cases i with
    | zero =>
      rw [List.getElem?_cons_zero] at hi
      injection hi with hi
      subst hi
      refine ⟨x, rfl, ?_⟩
      rcases hor with ⟨y, h1, h2⟩ | ⟨t, h1, h2⟩
      · exact Or.inl ⟨y, h1, h2⟩
      · subst h2; exact Or.inr ⟨t, h1, fun z => number_some t _ z, fun z => number_some t _ z, fun z => number_some t _ z⟩
    | succ i =>
      rw [List.getElem?_cons_succ] at hi
      obtain ⟨q, hq, hq2⟩ := i2 i n v hi
      exact ⟨q, by rw [List.singleton_append, List.getElem?_cons_succ]; exact hq, hq2⟩

end HB.Project
