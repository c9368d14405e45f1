import Verif.Spec.Valid
import Verif.Props.Wiring3

/-!
# Lemmas for C62: classes and names, loops, numbers of outputs
-/

set_option linter.unusedSectionVars false

namespace HB

open Names Wire

/-! ### Classes and names -/

theorem auto_iff {s : String} {pc : ProcClass} (h : s ∈ Spec.processNames pc) (v : Var) : v ∈ autoForcing pc ↔ Spec.Driven s v := by
  unfold Spec.Driven
  cases pc <;> simp only [Spec.processNames, List.mem_cons, List.not_mem_nil, or_false] at h <;>
    first
    | (subst h; cases v <;> decide)
    | (rcases h with h | h <;> subst h <;> cases v <;> decide)

theorem takes_iff {s : String} {pc : ProcClass} (h : s ∈ Spec.processNames pc) (v : Var) : takes pc v = true ↔ Spec.Usable s v := by
  unfold Spec.Usable Spec.Driven
  cases pc <;> simp only [Spec.processNames, List.mem_cons, List.not_mem_nil, or_false] at h <;>
    first
    | (subst h; cases v <;> decide)
    | (rcases h with h | h <;> subst h <;> cases v <;> decide)

theorem splitTakes_iff {s : String} {sc : SplitClass} (h : s ∈ Spec.splitterNames sc) (v : Var) :
    splitTakes sc v = true ↔ Spec.SplitUsable s v := by
  unfold Spec.SplitUsable
  cases sc <;> simp only [Spec.splitterNames, List.mem_cons, List.not_mem_nil, or_false] at h <;>
    (subst h; cases v <;> decide)

theorem storeOf_eq (pc : ProcClass) (c : Category) : storeOf pc c = Spec.storeFor pc c := by
  cases pc <;> cases c <;> decide

theorem procReads_eq (pc : ProcClass) : procReads pc = autoForcing pc := by cases pc <;> rfl

theorem hasProps_iff {K : Type} {s : String} {pc : ProcClass} (h : s ∈ Spec.processNames pc) (x : UnitX K) :
    hasProps x pc = true ↔ Spec.PropsFor x s := by
  unfold Spec.PropsFor
  cases pc <;> simp only [Spec.processNames, List.mem_cons, List.not_mem_nil, or_false] at h <;>
    first
    | (subst h; simp [hasProps]; done)
    | (rcases h with h | h <;> subst h <;> simp [hasProps]; done)
    | (subst h
       simp only [hasProps]
       cases x.aspect <;> simp [aspects])

/-- The class of a name is unique. -/
theorem processNames_inj {s : String} {pc pc' : ProcClass} (h : s ∈ Spec.processNames pc) (h' : s ∈ Spec.processNames pc') :
    pc = pc' := by
  have h1 : registerSettings s = .ok pc := ((c52_processes s).2.2.1 pc).2 h
  have h2 : registerSettings s = .ok pc' := ((c52_processes s).2.2.1 pc').2 h'
  rw [h1] at h2
  cases h2
  rfl

theorem worksOn_iff {s t : String} {pc : ProcClass} (h : s ∈ Spec.processNames pc) {c : BrickClass} (ht : t ∈ Spec.brickNames c)
    {st : Store} : Spec.WorksOn s t st ↔ storeOf pc (categoryOf c) = some st := by
  rw [storeOf_eq, categoryOf_spec ht]
  constructor
  · rintro ⟨pc', h', hs⟩
    rwa [processNames_inj h h']
  · exact fun hs => ⟨pc, h, hs⟩

theorem mainStore_eq {t : String} {c : BrickClass} (ht : t ∈ Spec.brickNames c) : mainStore c = Spec.ownStore t := by
  cases c <;> simp only [Spec.brickNames, List.mem_cons, List.not_mem_nil, or_false] at ht <;>
    first
    | (subst ht; decide)
    | (rcases ht with h | h | h | h <;> subst h <;> decide)

theorem cover_iff {t : String} {c : BrickClass} (ht : t ∈ Spec.brickNames c) :
    (c = .genericLandCover ∨ c = .glacier) ↔ (t ∈ Spec.brickNames .genericLandCover ∨ t = "glacier") := by
  cases c <;> simp only [Spec.brickNames, List.mem_cons, List.not_mem_nil, or_false] at ht <;>
    first
    | (subst ht; decide)
    | (rcases ht with h | h | h | h <;> subst h <;> decide)

/-- The check of a process, class by class. -/
theorem procValid_iff (v : PView) : procValid v = true ↔
    (isLateral v.cls = false → v.cls ≠ .capillaryHBV → v.outs = 1) ∧ (∀ x ∈ autoForcing v.cls, x ∈ v.forc) ∧
    (v.cls = .capillaryHBV → v.links ≠ [] ∧ v.links.length = v.outs ∧
      (1 < v.links.length → ∀ l ∈ v.links, l.covers ≠ [])) ∧
    (v.cls = .outflowDirect → ∀ k pc, v.procs[k]? = some pc → k ≠ v.idx →
      storeOf pc (categoryOf v.brick) ≠ some .water) ∧
    (v.cls = .refreezeDegreeDay → .meltDegreeDay ∈ v.procs) ∧ (v.cls = .outflowSnowHolding → v.brick = .snowpack) ∧
    (linksOne v.cls = true → v.links ≠ []) := by
  obtain ⟨brick, procs, idx, cls, outs, links, forc⟩ := v
  cases cls <;> simp [procValid, isLateral, autoForcing, linksOne, and_assoc]
  · have h : storeOf .outflowDirect (categoryOf brick) = some .water := by cases brick <;> decide
    rw [h]
    intro _
    constructor
    · intro h k pc hk hne
      exact (h pc k (List.mem_zipIdx_iff_getElem?.2 hk)).resolve_left hne
    · intro h pc k hk
      by_cases hki : k = idx
      · exact .inl hki
      · exact .inr (h k pc (List.mem_zipIdx_iff_getElem?.1 hk) hki)
  · intro _ _
    constructor
    · rintro (h | h) hlt
      · omega
      · exact h
    · intro h
      by_cases hl : links.length ≤ 1
      · exact .inl hl
      · exact .inr (h (by omega))

theorem name_iff {s : String} {pc : ProcClass} (h : s ∈ Spec.processNames pc) :
    (pc = .capillaryHBV ↔ s = "capillary:hbv") ∧ (pc = .outflowDirect ↔ s = "outflow:direct") ∧
    (pc = .refreezeDegreeDay ↔ s = "refreeze:degree_day") ∧ (pc = .outflowSnowHolding ↔ s = "outflow:snow_holding") ∧
    (pc = .meltDegreeDay ↔ s = "melt:degree_day") ∧ (pc = .meltDegreeDayAspect ↔ s = "melt:degree_day_aspect") := by
  cases pc <;> simp only [Spec.processNames, List.mem_cons, List.not_mem_nil, or_false] at h <;>
    first
    | (subst h; decide)
    | (rcases h with h | h <;> subst h <;> decide)

theorem splitName_iff {s : String} {sc : SplitClass} (h : s ∈ Spec.splitterNames sc) :
    (sc = .multiFluxes ↔ s = "multi_fluxes") ∧ (sc = .rain ↔ s = "rain") ∧ (sc = .snowRainCemaNeige ↔ s = "snow_rain:cemaneige") ∧
    (sc ≠ .multiFluxes ∧ sc ≠ .rain ↔ s ∈ ["snow_rain:threshold", "snow_rain:linear", "snow_rain:cemaneige"]) := by
  cases sc <;> simp only [Spec.splitterNames, List.mem_cons, List.not_mem_nil, or_false] at h <;> (subst h; decide)

/-! ### Loops -/

theorem chain_isOk {σ α : Type} {f : σ → α → Except Err σ} {P : α → Prop} {l : List α} {s : σ}
    (h : ∀ a ∈ l, ∀ s, (∃ r, f s a = .ok r) ↔ P a) : (∃ r, chain f l s = .ok r) ↔ ∀ a ∈ l, P a := by
  induction l generalizing s with
  | nil => simp [chain]
  | cons a l ih =>
    simp only [chain, bind_ok, List.mem_cons, forall_eq_or_imp]
    constructor
    · rintro ⟨r, s', hs, hr⟩
      exact ⟨(h a (by simp) s).1 ⟨s', hs⟩, (ih fun a ha => h a (by simp [ha])).1 ⟨r, hr⟩⟩
    · rintro ⟨h1, h2⟩
      obtain ⟨s', hs⟩ := (h a (by simp) s).2 h1
      obtain ⟨r, hr⟩ := (ih (s := s') fun a ha => h a (by simp [ha])).2 h2
      exact ⟨r, s', hs, hr⟩

theorem chain_mem {α : Type} {f : List Var → α → Except Err (List Var)} {Q : α → Prop} {v : Var} {l : List α} {s r : List Var}
    (h : ∀ a ∈ l, ∀ s r, f s a = .ok r → (v ∈ r ↔ v ∈ s ∨ Q a)) (hr : chain f l s = .ok r) :
    v ∈ r ↔ v ∈ s ∨ ∃ a ∈ l, Q a := by
  induction l generalizing s with
  | nil => simp only [chain] at hr; cases hr; simp
  | cons a l ih =>
    simp only [chain, bind_ok] at hr
    obtain ⟨s', hs, hr⟩ := hr
    rw [ih (fun a ha => h a (by simp [ha])) hr, h a (by simp) s s' hs]
    simp [or_assoc]

theorem attach_isOk {keeps : Var → Bool} {vs fs : List Var} :
    (∃ r, attachForcings keeps vs fs = .ok r) ↔ ∀ v ∈ vs, keeps v = true := by
  refine chain_isOk fun v _ s => ?_
  by_cases h : keeps v = true <;> simp [h]

theorem attach_mem {keeps : Var → Bool} {vs fs r : List Var} {v : Var} (h : attachForcings keeps vs fs = .ok r) :
    v ∈ r ↔ v ∈ fs ∨ v ∈ vs := by
  rw [chain_mem (Q := fun a => v = a) ?_ h]
  · simp
  · intro a _ s r hr
    split at hr
    · cases hr
      by_cases hc : s.contains a = true
      · rw [if_pos hc]
        constructor
        · exact .inl
        · rintro (h | rfl)
          · exact h
          · simpa using hc
      · rw [if_neg hc]
        simp
    · cases hr

/-! ### Numbers of outputs -/

variable {K : Type} [Field K]

theorem concatM_length {α : Type} {f : α → Except Err (Net K)} {g : α → ℕ} {l : List α} {n : Net K} (h : concatM f l = .ok n)
    (h1 : ∀ a ∈ l, ∀ m, f a = .ok m → m.outs.length = g a) : n.outs.length = (l.map g).sum := by
  induction l generalizing n with
  | nil => simp only [concatM] at h; cases h; rfl
  | cons b l ih =>
    simp only [concatM, bind_ok] at h
    obtain ⟨d, hd, r, hr, h⟩ := h
    cases h
    simp only [Net.append, List.length_append, List.map_cons, List.sum_cons, h1 b (by simp) d hd,
      ih hr fun a ha => h1 a (by simp [ha])]

theorem lateral_length {inp : Input K} {bt : Built K} (hok : BuiltOK inp bt) {un : UnitIn K} {src : Comp} {j : ℕ} {pc : ProcClass}
    {o : Out} {n : Net K} (h : wireLateral bt un src j pc o = .ok n) :
    n.outs.length = (un.lateral.map fun cn => (inp.units[cn.1]?.elim [] fun r => Spec.snowpacksOf r.str).length).sum := by
  refine concatM_length h fun cn _ m hm => ?_
  cases hr : inp.units[cn.1]? with
  | none =>
    have : bt.units[cn.1]? = none := by
      rw [List.getElem?_eq_none_iff] at hr ⊢
      rw [hok.len]; exact hr
    simp [this] at hm
  | some r =>
    obtain ⟨rcv, hrcv, hR⟩ := hok.unit hr
    simp only [hrcv] at hm
    split at hm
    · rw [concatM_length (g := fun _ => 1) hm, List.map_const', Option.elim_some,
        (snowpacks_perm hR).length_eq]
      · simp
      · intro k _ m2 hm2
        split at hm2
        · obtain ⟨rfl, _⟩ := toBrick_outs hm2
          rfl
        · cases hm2
    · cases hm

/-- The number of outputs of a process of a unit. -/
theorem unit_outputs_length {inp : Input K} {m : Wire.Model K} (hd : Spec.Distinct inp) (h : build inp = .ok m) {u : ℕ}
    {un : UnitIn K} (hu : inp.units[u]? = some un) {i : ℕ} {b : Brick} (hb : un.str.unitBricks[i]? = some b) {j : ℕ}
    {p : Proc} (hp : b.procs[j]? = some p) :
    (m.net.outputs (.unitBrick u i) j).length = Spec.fluxCount inp un p := by
  obtain ⟨bu, bb, n, hok, hU, hcb, hn, he⟩ := unit_outputs_eq hd h hu hb hp
  obtain ⟨pc, hpc, hname⟩ := createBrick_proc hcb hp
  rw [he, Spec.fluxCount]
  unfold wireUnitProc at hn
  simp only [hpc] at hn
  by_cases hat : toAtmosphere pc = true
  · rw [if_pos hat] at hn
    rw [if_pos ((toAtmosphere_iff hname).1 hat)]
    cases hn
    rfl
  · rw [if_neg hat] at hn
    rw [if_neg fun hh => hat ((toAtmosphere_iff hname).2 hh)]
    refine concatM_length hn fun o _ d hd' => ?_
    unfold Spec.fluxesOf
    unfold wireUnitOut at hd'
    by_cases h1 : o.target = "outlet"
    · rw [if_pos h1] at hd'
      cases hd'
      rw [if_neg (by rw [h1]; decide)]
      rfl
    · rw [if_neg h1] at hd'
      by_cases h2 : o.target = "lateral"
      · rw [if_pos h2] at hd'
        rw [if_pos h2]
        exact lateral_length hok hd'
      · rw [if_neg h2] at hd'
        rw [if_neg h2]
        split at hd'
        · obtain ⟨rfl, _⟩ := toBrick_outs hd'
          rfl
        · split at hd'
          · cases hd'; rfl
          · cases hd'

theorem basin_outputs_length {inp : Input K} {m : Wire.Model K} (hd : Spec.Distinct inp) (h : build inp = .ok m)
    {i : ℕ} {b : Brick} (hb : inp.basin.basinBricks[i]? = some b) {j : ℕ} {p : Proc} (hp : b.procs[j]? = some p) :
    (m.net.outputs (.basinBrick i) j).length = if p.type ∈ Spec.atmosphereNames then 1 else p.outs.length := by
  obtain ⟨h1, h2⟩ := c57_basin_outputs hd h hb hp
  split
  · obtain ⟨f, hf, _⟩ := h1 ‹_›
    rw [hf]
    rfl
  · exact (h2 ‹_›).length_eq

end HB
