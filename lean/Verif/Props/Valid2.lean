import Verif.Props.Valid
import Verif.Props.BaseStructure2

/-!
# C62: what a run of a prepared model reads
-/

set_option linter.unusedSectionVars false

namespace HB

open Names Wire

section
variable {K : Type} [Field K] [LinearOrder K]

theorem prepare_parts {xi : InputX K} {m : Wire.Model K} {fs : List (List Var)} (h : prepare xi = .ok (m, fs)) :
    build xi.base = .ok m ∧ valid xi m = true ∧ ∀ (u : ℕ) (un : UnitIn K), xi.base.units[u]? = some un → ∀ bu,
      m.built.units[u]? = some bu → ∃ l, fs[u]? = some l ∧ connectUnit (xi.ext u) un bu = .ok l := by
  simp only [prepare, bind_ok] at h
  obtain ⟨m', hm, -, hcb, fs', hfs, h⟩ := h
  split at h
  · cases h
    refine ⟨hm, ‹_›, fun u un hu bu hbu => ?_⟩
    have hz : xi.base.units.zipIdx[u]? = some (un, u) := by simp [hu]
    obtain ⟨l, hl, hw⟩ := createAll_get hfs hz
    simp only [hbu] at hw
    exact ⟨l, hl, hw⟩
  · cases h

theorem connectBrick_mem {b : Brick} {bb : BuiltBrick} (hcb : createBrick b = .ok bb) {x : UnitX K} {i : ℕ} {s r : List Var}
    (h : connectBrick x s (i, bb) = .ok r) {v : Var} : v ∈ r ↔ v ∈ s ∨ v ∈ x.brickF i ∨
      ∃ j p, b.procs[j]? = some p ∧ (Spec.Driven p.type v ∨ v ∈ x.procF i j) := by
  simp only [connectBrick, bind_ok] at h
  obtain ⟨s', h1, h2⟩ := h
  rw [chain_mem (Q := fun pj : ProcClass × ℕ => v ∈ listed x i pj.2 pj.1) ?_ h2, attach_mem h1, or_assoc]
  · refine or_congr Iff.rfl (or_congr Iff.rfl ⟨?_, ?_⟩)
    · rintro ⟨⟨pc, j⟩, hj, hv⟩
      obtain ⟨p, hp, hname⟩ := createBrick_proc' hcb (List.mem_zipIdx_iff_getElem?.1 hj)
      exact ⟨j, p, hp, (List.mem_append.1 hv).imp_left (auto_iff hname v).1⟩
    · rintro ⟨j, p, hp, hv⟩
      obtain ⟨pc, hpc, hname⟩ := createBrick_proc hcb hp
      exact ⟨(pc, j), List.mem_zipIdx_iff_getElem?.2 hpc, List.mem_append.2 (hv.imp_left (auto_iff hname v).2)⟩
  · intro pj _ s r hr
    split at hr
    · exact attach_mem hr
    · cases hr

theorem connectSplit_mem {x : UnitX K} {e : Split × ℕ} {s r : List Var} (h : connectSplit x s e = .ok r) {v : Var} :
    v ∈ r ↔ v ∈ s ∨ v ∈ x.splitF e.2 := by
  unfold connectSplit at h
  split at h
  · simp only [bind_ok] at h
    obtain ⟨s', h1, h2⟩ := h
    split at h2
    · cases h2
    · cases h2
      exact attach_mem h1
  · cases h

theorem connectUnit_mem {un : UnitIn K} {bu : BuiltUnit} (hU : UnitOK un bu) {x : UnitX K} {l : List Var}
    (h : connectUnit x un bu = .ok l) {v : Var} : v ∈ l ↔ Spec.Asked x un v := by
  simp only [connectUnit, bind_ok] at h
  obtain ⟨s, h1, h2⟩ := h
  rw [chain_mem (Q := fun e : Split × ℕ => v ∈ x.splitF e.2) (fun e _ s r hr => connectSplit_mem hr) h2,
    chain_mem (Q := fun e : ℕ × BuiltBrick => v ∈ x.brickF e.1 ∨ ∃ b, un.str.unitBricks[e.1]? = some b ∧
      ∃ j p, b.procs[j]? = some p ∧ (Spec.Driven p.type v ∨ v ∈ x.procF e.1 j)) ?_ h1]
  · unfold Spec.Asked
    simp only [List.not_mem_nil, false_or]
    rw [← or_assoc]
    refine or_congr ⟨?_, ?_⟩ ⟨?_, ?_⟩
    · rintro ⟨e, he, hv | ⟨b, hb, j, p, hp, hv⟩⟩
      · obtain ⟨b, hb, -⟩ := hU.mem.1 he
        exact .inl ⟨e.1, (List.getElem?_eq_some_iff.1 hb).1, hv⟩
      · exact .inr ⟨e.1, b, j, p, hb, hp, hv⟩
    · rintro (⟨i, hi, hv⟩ | ⟨i, b, j, p, hb, hp, hv⟩)
      · have hg := List.getElem?_eq_getElem hi
        obtain ⟨bb, hbb, hcb⟩ := hU.get hg
        exact ⟨(i, bb), hU.mem.2 ⟨_, hg, hcb⟩, .inl hv⟩
      · obtain ⟨bb, hbb, hcb⟩ := hU.get hb
        exact ⟨(i, bb), hU.mem.2 ⟨_, hb, hcb⟩, .inr ⟨b, hb, j, p, hp, hv⟩⟩
    · rintro ⟨e, he, hv⟩
      exact ⟨e.2, (List.getElem?_eq_some_iff.1 (List.mem_zipIdx_iff_getElem?.1 he)).1, hv⟩
    · rintro ⟨k, hk, hv⟩
      exact ⟨(_, k), List.mem_zipIdx_iff_getElem?.2 (List.getElem?_eq_getElem hk), hv⟩
  · intro e he s r hr
    obtain ⟨b, hb, hcb⟩ := hU.mem.1 he
    rw [connectBrick_mem hcb hr]
    simp [hb]

/-- **C62 (forcings of a unit).**  A prepared unit has exactly the forcings asked for by its components. -/
theorem c62_forcings {xi : InputX K} (hd : Spec.Distinct xi.base) {m : Wire.Model K} {fs : List (List Var)}
    (h : prepare xi = .ok (m, fs)) {u : ℕ} {un : UnitIn K} (hu : xi.base.units[u]? = some un) :
    ∃ l, fs[u]? = some l ∧ ∀ v, v ∈ l ↔ Spec.Asked (xi.ext u) un v := by
  obtain ⟨hm, -, hc⟩ := prepare_parts h
  obtain ⟨bu, hbu, hU⟩ := (create_ok hd (build_create hm)).unit hu
  obtain ⟨l, hl, hcl⟩ := hc u un hu bu hbu
  exact ⟨l, hl, fun v => connectUnit_mem hU hcl⟩

theorem wireLateral_dst {bt : Built K} {un : UnitIn K} {src : Comp} {j : ℕ} {p : ProcClass} {o : Out} {n : Net K}
    (h : wireLateral bt un src j p o = .ok n) : ∀ x ∈ n.outs, ∃ v i, x.dst = .comp (.unitBrick v i) := by
  intro x hx
  obtain ⟨cn, _, m, hm, hx⟩ := (concatM_mem h).1 hx
  split at hm
  · cases hm
  · split at hm
    · obtain ⟨i, _, m', hm', hx⟩ := (concatM_mem hm).1 hx
      split at hm'
      · obtain ⟨rfl, _⟩ := toBrick_outs hm'
        simp only [List.mem_singleton] at hx
        subst hx
        exact ⟨_, _, rfl⟩
      · cases hm'
    · cases hm

theorem denotes_unit {inp : Input K} {v : ℕ} {un : UnitIn K} {t : String} {u k : ℕ}
    (h : Spec.Denotes inp v un t (.comp (.unitSplit u k))) : v = u := by
  cases h with
  | brick _ hb => cases hb
  | split _ _ hs => cases hs; rfl

theorem denotes_basin {inp : Input K} {t : String} {u k : ℕ} : ¬ Spec.DenotesBasin inp t (.comp (.unitSplit u k)) := by
  intro h
  cases h

theorem basin_flux_dst {inp : Input K} {m : Wire.Model K} (hd : Spec.Distinct inp) (h : build inp = .ok m) {i : ℕ} {b : Brick}
    (hb : inp.basin.basinBricks[i]? = some b) {j : ℕ} {p : Proc} (hp : b.procs[j]? = some p) {f : Wire.Flux K}
    (hf : f ∈ m.net.outputs (.basinBrick i) j) {u k : ℕ} : f.dst ≠ .comp (.unitSplit u k) := by
  obtain ⟨h1, h2⟩ := c57_basin_outputs hd h hb hp
  by_cases hat : p.type ∈ Spec.atmosphereNames
  · obtain ⟨g, hg, hdst⟩ := h1 hat
    rw [hg, List.mem_singleton] at hf
    subst hf
    simp [hdst.dest]
  · obtain ⟨k', hk'⟩ := List.getElem?_of_mem hf
    obtain ⟨hl, hg⟩ := List.forall₂_iff_get.1 (h2 hat)
    obtain ⟨hlt, he⟩ := List.getElem?_eq_some_iff.1 hk'
    have hw := hg k' hlt (hl ▸ hlt)
    intro hdst
    have := hw.dest
    simp only [List.get_eq_getElem, he, hdst] at this
    exact denotes_basin this

/-- What a dividing splitter receives. -/
theorem inputs_iff {inp : Input K} {m : Wire.Model K} (hd : Spec.Distinct inp) (h : build inp = .ok m) {u : ℕ}
    {un : UnitIn K} (hu : inp.units[u]? = some un) (k : ℕ) : m.net.inputs (.unitSplit u k) ≠ [] ↔ Spec.Fed inp u un k := by
  rw [(c57_attached h).1]
  constructor
  · intro hne
    obtain ⟨f, hf⟩ := List.exists_mem_of_ne_nil _ hne
    obtain ⟨hf, hdst⟩ := List.mem_filter.1 hf
    have hdst : f.dst = .comp (.unitSplit u k) := by simpa using hdst
    rcases c57_only_declared hd h f hf with ⟨v, un', i, b, p, hs, hv, hb, hp⟩ | ⟨v, un', i, s, hs, hpr, hv, hsp⟩ |
      ⟨i, b, p, hs, hb, hp⟩ | ⟨i, s, hs, hpr, hsp⟩
    · have hfo : f ∈ m.net.outputs (.unitBrick v i) f.proc := List.mem_filter.2 ⟨hf, by simp [hs]⟩
      obtain ⟨bu, bb, n, hok, hU, hcb, hn, he⟩ := unit_outputs_eq hd h hv hb hp
      obtain ⟨pc, hpc, hname⟩ := createBrick_proc hcb hp
      rw [he] at hfo
      unfold wireUnitProc at hn
      simp only [hpc] at hn
      split at hn
      · cases hn
        rw [List.mem_singleton] at hfo
        rw [hfo] at hdst
        simp at hdst
      · rename_i hat
        obtain ⟨o, ho, d, hd', hfd⟩ := (concatM_mem hn).1 hfo
        have hlat : o.target ≠ "lateral" := by
          intro hl
          unfold wireUnitOut at hd'
          rw [if_neg (by rw [hl]; decide), if_pos hl] at hd'
          obtain ⟨_, _, hx⟩ := wireLateral_dst hd' f hfd
          rw [hx] at hdst
          simp at hdst
        obtain ⟨g, hg, hw⟩ := wireUnitOut_ok hd hok (List.mem_of_getElem? hv) hU hcb hlat hd'
        rw [hg, List.mem_singleton] at hfd
        subst hfd
        have hden := hw.dest
        rw [hdst] at hden
        have := denotes_unit hden
        subst this
        rw [hu] at hv
        cases hv
        exact .inl ⟨b, List.mem_of_getElem? hb, p, List.mem_of_getElem? hp, fun hh => hat ((toAtmosphere_iff hname).2 hh), o, ho,
          hlat, hden⟩
    · have hfo : f ∈ m.net.outputs (.unitSplit v i) 0 := List.mem_filter.2 ⟨hf, by simp [hs, hpr]⟩
      have hF := c57_splitter_outputs hd h hv hsp
      obtain ⟨k', hk'⟩ := List.getElem?_of_mem hfo
      obtain ⟨hl, hg⟩ := List.forall₂_iff_get.1 hF
      obtain ⟨hlt, he⟩ := List.getElem?_eq_some_iff.1 hk'
      have hw := (hg k' hlt (hl ▸ hlt)).dest
      simp only [List.get_eq_getElem, he, hdst] at hw
      have := denotes_unit hw
      subst this
      rw [hu] at hv
      cases hv
      exact .inr ⟨s, List.mem_of_getElem? hsp, _, List.getElem_mem _, hw⟩
    · have hfo : f ∈ m.net.outputs (.basinBrick i) f.proc := List.mem_filter.2 ⟨hf, by simp [hs]⟩
      exact absurd hdst (basin_flux_dst hd h hb hp hfo)
    · have hfo : f ∈ m.net.outputs (.basinSplit i) 0 := List.mem_filter.2 ⟨hf, by simp [hs, hpr]⟩
      have hF := c57_basin_splitter_outputs hd h hsp
      obtain ⟨k', hk'⟩ := List.getElem?_of_mem hfo
      obtain ⟨hl, hg⟩ := List.forall₂_iff_get.1 hF
      obtain ⟨hlt, he⟩ := List.getElem?_eq_some_iff.1 hk'
      have hw := (hg k' hlt (hl ▸ hlt)).dest
      simp only [List.get_eq_getElem, he, hdst] at hw
      exact absurd hw denotes_basin
  · have huniq : ∀ {t : String} {d : Dest}, Spec.Denotes inp u un t (.comp (.unitSplit u k)) → Spec.Denotes inp u un t d →
        d = .comp (.unitSplit u k) := by
      intro t d h1 h2
      have hnd := (hd.1 un (List.mem_of_getElem? hu)).2.2
      cases h1 with
      | brick _ hb => cases hb
      | split hne hnb hs =>
        cases hs with
        | own hs1 hs2 =>
          cases h2 with
          | outlet ho => exact absurd ho hne
          | brick _ hb => exact absurd hb (hnb _ _)
          | split _ _ hs' =>
            cases hs' with
            | own hs1' hs2' =>
              rename_i i' s'
              have e1 : (un.str.unitSplits.map (·.name))[k]? = some t := by simp [hs1, hs2]
              have e2 : (un.str.unitSplits.map (·.name))[i']? = some t := by simp [hs1', hs2']
              obtain ⟨l1, e1⟩ := List.getElem?_eq_some_iff.1 e1
              obtain ⟨l2, e2⟩ := List.getElem?_eq_some_iff.1 e2
              rw [(hnd.getElem_inj_iff).1 (e1.trans e2.symm)]
            | basin hno _ _ => exact absurd hs2 (hno _ (List.mem_of_getElem? hs1))
    rintro (⟨b, hbm, p, hpm, hat, o, ho, hlat, hden⟩ | ⟨s, hsm, o, ho, hden⟩)
    · obtain ⟨i, hb⟩ := List.getElem?_of_mem hbm
      obtain ⟨j, hp⟩ := List.getElem?_of_mem hpm
      obtain ⟨bu, bb, n, hok, hU, hcb, hn, he⟩ := unit_outputs_eq hd h hu hb hp
      obtain ⟨pc, hpc, hname⟩ := createBrick_proc hcb hp
      unfold wireUnitProc at hn
      simp only [hpc] at hn
      rw [if_neg fun hh => hat ((toAtmosphere_iff hname).1 hh)] at hn
      obtain ⟨d, hd'⟩ := concatM_isOk.1 ⟨n, hn⟩ o ho
      obtain ⟨g, hg, hw⟩ := wireUnitOut_ok hd hok (List.mem_of_getElem? hu) hU hcb hlat hd'
      have hgm : g ∈ m.net.outputs (.unitBrick u i) j := by
        rw [he]
        exact (concatM_mem hn).2 ⟨o, ho, d, hd', by rw [hg]; simp⟩
      exact List.ne_nil_of_mem (List.mem_filter.2 ⟨(List.mem_filter.1 hgm).1, by simp [huniq hden hw.dest]⟩)
    · obtain ⟨i, hs⟩ := List.getElem?_of_mem hsm
      have hF := c57_splitter_outputs hd h hu hs
      obtain ⟨k', hk'⟩ := List.getElem?_of_mem ho
      obtain ⟨hl, hg⟩ := List.forall₂_iff_get.1 hF
      obtain ⟨hlt, he⟩ := List.getElem?_eq_some_iff.1 hk'
      have hw := (hg k' (hl ▸ hlt) hlt).dest
      simp only [List.get_eq_getElem, he] at hw
      have hgm := List.getElem_mem (l := m.net.outputs (.unitSplit u i) 0) (n := k') (hl ▸ hlt)
      exact List.ne_nil_of_mem (List.mem_filter.2 ⟨(List.mem_filter.1 hgm).1, by simp [huniq hden hw]⟩)

theorem withData_mem {loaded fs : List Var} {v : Var} : v ∈ withData loaded fs ↔ v ∈ fs ∧ v ∈ loaded := by
  simp [withData]

/-- **C62 (what a step reads).**  After preparation, the components of a unit follow only attached forcings that have data, and
no process computes more or fewer rates than it has outputs — exactly if everything is supplied.  For the processes this is
only a matter of the loaded series; for the splitters it also depends on the forcings and inputs given to them, which the
checks at initialisation do not look at. -/
theorem c62_safe_iff {xi : InputX K} (hd : Spec.Distinct xi.base) {m : Wire.Model K} {fs : List (List Var)}
    (h : prepare xi = .ok (m, fs)) {u : ℕ} {un : UnitIn K} (hu : xi.base.units[u]? = some un) (loaded : List Var) :
    ∃ bu l, m.built.units[u]? = some bu ∧ fs[u]? = some l ∧
      (Safe xi m u un bu l loaded ↔ Spec.Supplied xi.base (xi.ext u) u un loaded) := by
  obtain ⟨hm, hv, hc⟩ := prepare_parts h
  obtain ⟨bu, hbu, hU⟩ := (create_ok hd (build_create hm)).unit hu
  obtain ⟨l, hl, hcl⟩ := hc u un hu bu hbu
  have hmem : ∀ v, v ∈ l ↔ Spec.Asked (xi.ext u) un v := fun v => connectUnit_mem hU hcl
  have hW := ((c57_builds_iff hd).1 ⟨m, hm⟩).units u un hu
  have hC := ((valid_iff hd hm).1 hv).2.1 u un hu
  have hCon := (connectUnit_isOk hU hW.splits (xi.ext u)).1 ⟨l, hcl⟩
  have hask : ∀ {k v}, k < un.str.unitSplits.length → v ∈ (xi.ext u).splitF k → v ∈ l := fun hk hv => (hmem _).2 (.inr (.inr ⟨_, hk, hv⟩))
  refine ⟨bu, l, hbu, hl, ?_, ?_⟩
  · intro hS
    have hsp : ∀ (k : ℕ) (s : Split) (sc : SplitClass), un.str.unitSplits[k]? = some s → s.type ∈ Spec.splitterNames sc →
        ∀ v ∈ splitReads sc (xi.ext u).elevation, v ∈ (xi.ext u).splitF k ∧ v ∈ loaded := by
      intro k s sc hk hsc v hv
      obtain ⟨h1, h2⟩ := hS.splits k s sc hk (buildSplitter_class hsc) v hv
      exact ⟨h1, (withData_mem.1 h2).2⟩
    refine ⟨fun b hb p hp v hv => ?_, fun k s hk ht => ?_, fun k s hk ht => ?_, fun s hs ht => ?_, fun k s hk ht => ?_⟩
    · obtain ⟨i, hi⟩ := List.getElem?_of_mem hb
      obtain ⟨j, hj⟩ := List.getElem?_of_mem hp
      obtain ⟨bb, hbb, hcb⟩ := hU.get hi
      obtain ⟨pc, hpc, hname⟩ := createBrick_proc hcb hj
      have := hS.procs (i, bb) (hU.mem.2 ⟨b, hi, hcb⟩) j pc hpc v (by rw [procReads_eq]; exact (auto_iff hname v).2 hv)
      exact (withData_mem.1 this.2).2
    · exact hsp k s .rain hk (by rw [ht]; decide) .precipitation (by simp [splitReads])
    · simp only [List.mem_cons, List.not_mem_nil, or_false] at ht
      rcases ht with ht | ht
      · exact ⟨hsp k s .snowRainThreshold hk (by rw [ht]; decide) .precipitation (by simp [splitReads]),
          hsp k s .snowRainThreshold hk (by rw [ht]; decide) .temperature (by simp [splitReads])⟩
      · exact ⟨hsp k s .snowRainLinear hk (by rw [ht]; decide) .precipitation (by simp [splitReads]),
          hsp k s .snowRainLinear hk (by rw [ht]; decide) .temperature (by simp [splitReads])⟩
    · obtain ⟨k, hk⟩ := List.getElem?_of_mem hs
      have hsc : s.type ∈ Spec.splitterNames .snowRainCemaNeige := by rw [ht]; decide
      refine ⟨(hsp k s _ hk hsc .precipitation (by simp [splitReads])).2, fun e he => ⟨fun hle => ?_, fun hlt => ⟨?_, ?_⟩⟩⟩
      · exact (hsp k s _ hk hsc .temperature (by simp [splitReads, he, hle])).2
      · exact (hsp k s _ hk hsc .temperatureMin (by simp [splitReads, he, not_le.2 hlt])).2
      · exact (hsp k s _ hk hsc .temperatureMax (by simp [splitReads, he, not_le.2 hlt])).2
    · exact (inputs_iff hd hm hu k).1 (hS.divided k s hk (buildSplitter_class (by rw [ht]; decide)))
  · intro hS
    refine ⟨?_, ?_, ?_, ?_⟩
    · rintro ⟨i, bb⟩ he j pc hpc v hv
      obtain ⟨b, hb, hcb⟩ := hU.mem.1 he
      obtain ⟨p, hp, hname⟩ := createBrick_proc' hcb hpc
      rw [procReads_eq] at hv
      have hdr := (auto_iff hname v).1 hv
      exact ⟨List.mem_append_left _ hv, withData_mem.2 ⟨(hmem v).2 (.inr (.inl ⟨i, b, j, p, hb, hp, .inl hdr⟩)),
        hS.procs b (List.mem_of_getElem? hb) p (List.mem_of_getElem? hp) v hdr⟩⟩
    · rintro ⟨i, bb⟩ he j pc hpc
      obtain ⟨b, hb, hcb⟩ := hU.mem.1 he
      have hbv := (brickValid_unit hd hm hu hb hcb (xi.ext u)).2 (hC.bricks b (List.mem_of_getElem? hb))
      simp only [brickValid, Bool.and_eq_true, List.all_eq_true] at hbv
      have hpv := (procValid_iff _).1 (hbv.1.2 (pc, j) (List.mem_zipIdx_iff_getElem?.2 hpc))
      simp only [Wire.Model.view] at hpv
      obtain ⟨a1, -, a3, -⟩ := hpv
      by_cases hlat : isLateral pc = true
      · cases pc <;> first | (simp [isLateral] at hlat; done) | rfl
      · by_cases hcap : pc = .capillaryHBV
        · have := (a3 hcap).2.1
          subst hcap
          exact this
        · have h1 := a1 (Bool.eq_false_iff.2 hlat) hcap
          simp only [Wire.Model.view]
          rw [h1]
          clear h1 a1 a3 hpc
          cases pc <;> first | rfl | exact absurd rfl hcap | exact absurd rfl hlat
    · intro k s sc hk hsc v hv
      have hkl := (List.getElem?_eq_some_iff.1 hk).1
      obtain ⟨sc', hsc'⟩ := hW.splits s (List.mem_of_getElem? hk)
      rw [buildSplitter_class hsc'] at hsc
      cases hsc
      have key : v ∈ (xi.ext u).splitF k ∧ v ∈ loaded := by
        cases sc <;> simp only [Spec.splitterNames, List.mem_cons, List.not_mem_nil, or_false] at hsc'
        · simp only [splitReads, List.mem_cons, List.not_mem_nil, or_false] at hv
          have := hS.snowRain k s hk (by simp [hsc'])
          rcases hv with rfl | rfl
          · exact this.1
          · exact this.2
        · simp only [splitReads, List.mem_cons, List.not_mem_nil, or_false] at hv
          have := hS.snowRain k s hk (by simp [hsc'])
          rcases hv with rfl | rfl
          · exact this.1
          · exact this.2
        · simp only [splitReads, List.mem_cons, List.not_mem_nil, or_false, List.mem_append] at hv
          obtain ⟨c1, c2, e, he, c3⟩ := hC.cemaneige k s hk hsc'
          obtain ⟨d1, d2⟩ := hS.cemaneige s (List.mem_of_getElem? hk) hsc'
          rcases hv with hv | rfl
          · rw [he] at hv
            by_cases hle : 1500 ≤ e
            · simp only [hle, if_true, List.mem_singleton] at hv
              subst hv
              exact ⟨c2, (d2 e he).1 hle⟩
            · have hlt := not_le.1 hle
              simp only [hle, if_false, List.mem_cons, List.not_mem_nil, or_false] at hv
              rcases hv with rfl | rfl
              · exact ⟨(c3 hlt).1, ((d2 e he).2 hlt).1⟩
              · exact ⟨(c3 hlt).2, ((d2 e he).2 hlt).2⟩
          · exact ⟨c1, d1⟩
        · simp only [splitReads, List.mem_cons, List.not_mem_nil, or_false] at hv
          subst hv
          exact hS.rain k s hk hsc'
        · simp only [splitReads, List.not_mem_nil] at hv
      exact ⟨key.1, withData_mem.2 ⟨hask hkl key.1, key.2⟩⟩
    · intro k s hk hsc
      obtain ⟨sc', hsc'⟩ := hW.splits s (List.mem_of_getElem? hk)
      rw [buildSplitter_class hsc'] at hsc
      cases hsc
      exact (inputs_iff hd hm hu k).2 (hS.divided k s hk ((splitName_iff hsc').1.1 rfl))

/-- **C62 (the sub-basin).**  In an accepted model no process of the sub-basin is driven by a forcing. -/
theorem c62_basin_undriven {xi : InputX K} (hd : Spec.Distinct xi.base) {r : Wire.Model K × List (List Var)}
    (h : prepare xi = .ok r) : ∀ b ∈ xi.base.basin.basinBricks, ∀ p ∈ b.procs, ∀ v, ¬ Spec.Driven p.type v :=
  ((c62_accepts_iff hd).1 ⟨r, h⟩).2.basin.undriven

/-- **C62 (generated structures).**  With the splitters and forcings of a generated base structure, and no brick called like a
splitter, a unit is supplied exactly if the series are loaded: those driving its processes, the precipitation, and with snow
the temperature (for the CemaNeige separation below 1500 m the daily extremes instead). -/
theorem c62_generated {inp : Input K} {x : UnitX K} {u : ℕ} {un : UnitIn K} {g : BaseArgs}
    (hsp : un.str.unitSplits = (Spec.base g).unitSplits) (hx : x.splitF = genForcings g.withSnow g.splitter)
    (hty : g.withSnow = true → g.splitter ∈ ["snow_rain:threshold", "snow_rain:linear", "snow_rain:cemaneige"])
    (hb : ∀ b ∈ un.str.unitBricks ++ inp.basin.basinBricks, b.name ∉ ["rain_splitter", "snow_splitter"]) (loaded : List Var) :
    Spec.Supplied inp x u un loaded ↔
      (∀ b ∈ un.str.unitBricks, ∀ p ∈ b.procs, ∀ v, Spec.Driven p.type v → v ∈ loaded) ∧ .precipitation ∈ loaded ∧
      (g.withSnow = true → (g.splitter ≠ "snow_rain:cemaneige" → .temperature ∈ loaded) ∧
        (g.splitter = "snow_rain:cemaneige" → ∀ e, x.elevation = some e → (1500 ≤ e → .temperature ∈ loaded) ∧
          (e < 1500 → .temperatureMin ∈ loaded ∧ .temperatureMax ∈ loaded))) := by
  have hnob : ∀ t ∈ ["rain_splitter", "snow_splitter"], ∀ c b, ¬ Spec.BrickNamed inp u un t c b := by
    intro t ht c b hbn
    cases hbn with
    | own h1 h2 => exact hb b (List.mem_append_left _ (List.mem_of_getElem? h1)) (h2 ▸ ht)
    | basin _ h1 h2 => exact hb b (List.mem_append_right _ (List.mem_of_getElem? h1)) (h2 ▸ ht)
  have hden : ∀ (k : ℕ) (s : Split), un.str.unitSplits[k]? = some s → s.name ∈ ["rain_splitter", "snow_splitter"] →
      Spec.Denotes inp u un s.name (.comp (.unitSplit u k)) := by
    intro k s hk hn
    refine .split ?_ (hnob _ hn) (.own hk rfl)
    intro ho
    rw [ho] at hn
    exact absurd hn (by decide)
  cases hw : g.withSnow with
  | false =>
    have hsp' : un.str.unitSplits = [⟨"rain", "rain", [{ target := "rain_splitter" }]⟩, Spec.rainSplitter g] := by
      rw [hsp]; simp [Spec.base, hw]
    rw [hw] at hx
    constructor
    · intro hS
      exact ⟨hS.procs, (hS.rain 0 _ (by rw [hsp']; rfl) rfl).2, by simp⟩
    · rintro ⟨h1, h2, -⟩
      have hcase : ∀ (k : ℕ) (s : Split), un.str.unitSplits[k]? = some s →
          (k = 0 ∧ s.type = "rain") ∨ (k = 1 ∧ s.type = "multi_fluxes") := by
        intro k s hk
        rw [hsp'] at hk
        match k, hk with
        | 0, hk => cases hk; exact .inl ⟨rfl, rfl⟩
        | 1, hk => cases hk; exact .inr ⟨rfl, rfl⟩
        | k + 2, hk => simp at hk
      refine ⟨h1, fun k s hk ht => ?_, fun k s hk ht => ?_, fun s hs ht => ?_, fun k s hk ht => ?_⟩
      · rcases hcase k s hk with ⟨rfl, -⟩ | ⟨-, h⟩
        · exact ⟨by rw [hx]; simp [genForcings], h2⟩
        · rw [h] at ht; exact absurd ht (by decide)
      · rcases hcase k s hk with ⟨-, h⟩ | ⟨-, h⟩ <;> (rw [h] at ht; exact absurd ht (by decide))
      · obtain ⟨k, hk⟩ := List.getElem?_of_mem hs
        rcases hcase k s hk with ⟨-, h⟩ | ⟨-, h⟩ <;> (rw [h] at ht; exact absurd ht (by decide))
      · rcases hcase k s hk with ⟨-, h⟩ | ⟨rfl, -⟩
        · rw [h] at ht; exact absurd ht (by decide)
        · refine .inr ⟨⟨"rain", "rain", [{ target := "rain_splitter" }]⟩, by rw [hsp']; simp, { target := "rain_splitter" }, by simp, ?_⟩
          have hs : s = Spec.rainSplitter g := by rw [hsp'] at hk; cases hk; rfl
          have := hden 1 s hk (by rw [hs]; simp [Spec.rainSplitter])
          rw [hs] at this
          exact this
  | true =>
    have hsp' : un.str.unitSplits =
        [⟨"snow_rain_transition", g.splitter, [{ target := "rain_splitter" }, { target := "snow_splitter", content := .snow }]⟩,
          Spec.snowSplitter g, Spec.rainSplitter g] := by
      rw [hsp]; simp [Spec.base, hw]
    have hty := hty hw
    rw [hw] at hx
    constructor
    · intro hS
      have h0 : un.str.unitSplits[0]? = some
          ⟨"snow_rain_transition", g.splitter, [{ target := "rain_splitter" }, { target := "snow_splitter", content := .snow }]⟩ := by
        rw [hsp']; rfl
      by_cases hc : g.splitter = "snow_rain:cemaneige"
      · have := hS.cemaneige _ (List.mem_of_getElem? h0) hc
        exact ⟨hS.procs, this.1, fun _ => ⟨fun h => absurd hc h, fun _ => this.2⟩⟩
      · have := hS.snowRain 0 _ h0 (by
          simp only [List.mem_cons, List.not_mem_nil, or_false] at hty ⊢
          rcases hty with h | h | h
          · exact .inl h
          · exact .inr h
          · exact absurd h hc)
        exact ⟨hS.procs, this.1.2, fun _ => ⟨fun _ => this.2.2, fun h => absurd h hc⟩⟩
    · rintro ⟨h1, h2, h3⟩
      obtain ⟨h3, h4⟩ := h3 rfl
      have hcase : ∀ (k : ℕ) (s : Split), un.str.unitSplits[k]? = some s →
          (k = 0 ∧ s.type = g.splitter) ∨ (s.type = "multi_fluxes" ∧ s.name ∈ ["rain_splitter", "snow_splitter"]) := by
        intro k s hk
        rw [hsp'] at hk
        match k, hk with
        | 0, hk => cases hk; exact .inl ⟨rfl, rfl⟩
        | 1, hk => cases hk; exact .inr ⟨rfl, by simp [Spec.snowSplitter]⟩
        | 2, hk => cases hk; exact .inr ⟨rfl, by simp [Spec.rainSplitter]⟩
        | k + 3, hk => simp at hk
      refine ⟨h1, fun k s hk ht => ?_, fun k s hk ht => ?_, fun s hs ht => ?_, fun k s hk ht => ?_⟩
      · rcases hcase k s hk with ⟨-, h⟩ | ⟨h, -⟩
        · rw [← h, ht] at hty; exact absurd hty (by decide)
        · rw [h] at ht; exact absurd ht (by decide)
      · rcases hcase k s hk with ⟨rfl, h⟩ | ⟨h, -⟩
        · refine ⟨⟨by rw [hx]; simp [genForcings], h2⟩, by rw [hx]; simp [genForcings], h3 ?_⟩
          rw [← h]
          rintro hc
          rw [hc] at ht
          exact absurd ht (by decide)
        · rw [h] at ht; exact absurd ht (by decide)
      · obtain ⟨k, hk⟩ := List.getElem?_of_mem hs
        rcases hcase k s hk with ⟨-, h⟩ | ⟨h, -⟩
        · exact ⟨h2, h4 (by rw [← h, ht])⟩
        · rw [h] at ht; exact absurd ht (by decide)
      · rcases hcase k s hk with ⟨-, h⟩ | ⟨-, h⟩
        · rw [← h, ht] at hty; exact absurd hty (by decide)
        · refine .inr ⟨⟨"snow_rain_transition", g.splitter,
            [{ target := "rain_splitter" }, { target := "snow_splitter", content := .snow }]⟩, by rw [hsp']; simp, ?_⟩
          have hd := hden k s hk h
          simp only [List.mem_cons, List.not_mem_nil, or_false] at h
          rcases h with h | h
          · exact ⟨{ target := "rain_splitter" }, by simp, by rw [h] at hd; exact hd⟩
          · exact ⟨{ target := "snow_splitter", content := .snow }, by simp, by rw [h] at hd; exact hd⟩

end

/-! ### Example and findings -/

namespace ValidDemo

/-- The forcings given by the generators to the precipitation splitters, a slope and an elevation. -/
def ext : UnitX ℚ :=
  { brickF := fun _ => [], procF := fun _ _ => [], splitF := genForcings true "snow_rain:linear",
    slope := true, aspect := none, elevation := some 2000 }

/-- The two units of C57's example. -/
def xi : InputX ℚ := ⟨WireDemo.inp, fun _ => ext⟩

theorem accepted : ∃ r, prepare xi = .ok r := WireDemo.isOk (by decide +kernel)

/-- The example is well formed and complete. -/
theorem complete : Spec.WellFormed xi.base ∧ Spec.Complete xi := (c62_accepts_iff WireDemo.distinct).1 accepted

/-- The forcings of the first unit: those of its processes, then of its splitters. -/
theorem forcings : ((prepare xi).map fun r => r.2).toOption =
    some [[.temperature, .pet, .precipitation], [.temperature, .pet, .precipitation]] := by decide +kernel

/-- With precipitation, temperature and potential evapotranspiration loaded, the first unit is supplied and safe. -/
theorem safe : ∃ m fs un bu l, prepare xi = .ok (m, fs) ∧ xi.base.units[0]? = some un ∧ m.built.units[0]? = some bu ∧
    fs[0]? = some l ∧ Safe xi m 0 un bu l [.precipitation, .temperature, .pet] := by
  obtain ⟨⟨m, fs⟩, h⟩ := accepted
  have hu : xi.base.units[0]? = some ⟨WireDemo.str, 3, [(1, 1)]⟩ := rfl
  obtain ⟨bu, l, hbu, hl, hiff⟩ := c62_safe_iff WireDemo.distinct h hu [.precipitation, .temperature, .pet]
  refine ⟨m, fs, _, bu, l, h, hu, hbu, hl, hiff.2 ?_⟩
  refine (c62_generated (g := { covers := [⟨"ground", "ground", false⟩, ⟨"ice", "glacier", false⟩], splitter := "snow_rain:linear" })
    (by decide +kernel) rfl (by decide) (by decide +kernel) _).2 ⟨?_, by decide, fun _ => ⟨fun _ => by decide, fun hc => absurd hc (by decide)⟩⟩
  have hno : ∀ b ∈ WireDemo.str.unitBricks, ∀ p ∈ b.procs, p.type ≠ "melt:temperature_index" := by decide +kernel
  rintro b hb p hp v (⟨rfl, -⟩ | ⟨rfl, -⟩ | ⟨rfl, ht⟩)
  · decide
  · decide
  · exact absurd ht (hno b hb p hp)

/-- The same without forcings for the splitters. -/
def unfed : InputX ℚ := ⟨WireDemo.inp, fun _ => { ext with splitF := fun _ => [] }⟩

/-- **Finding.**  A snow-rain splitter that was given no forcing is accepted, and no loaded series makes it safe to run: the
first step follows its null pointers. -/
theorem c62_unfed_splitter_accepted : ∃ m fs, prepare unfed = .ok (m, fs) ∧ ∀ loaded un, unfed.base.units[0]? = some un →
    ∃ bu l, m.built.units[0]? = some bu ∧ fs[0]? = some l ∧ ¬ Safe unfed m 0 un bu l loaded := by
  obtain ⟨⟨m, fs⟩, h⟩ : ∃ r, prepare unfed = .ok r := WireDemo.isOk (by decide +kernel)
  refine ⟨m, fs, h, fun loaded un hu => ?_⟩
  obtain ⟨bu, l, hbu, hl, hiff⟩ := c62_safe_iff WireDemo.distinct h hu loaded
  refine ⟨bu, l, hbu, hl, fun hs => ?_⟩
  have hst : un = ⟨WireDemo.str, 3, [(1, 1)]⟩ := by
    have : unfed.base.units[0]? = some ⟨WireDemo.str, 3, [(1, 1)]⟩ := rfl
    rw [this] at hu
    cases hu
    rfl
  subst hst
  have h0 : (WireDemo.str.unitSplits[0]?.map (·.type)) = some "snow_rain:linear" := by decide +kernel
  obtain ⟨s, hs0, hty⟩ := Option.map_eq_some_iff.1 h0
  have := ((hiff.1 hs).snowRain 0 s hs0 (by rw [hty]; simp)).1.1
  exact absurd this (by simp [unfed])

/-- A missing series is not noticed when the model is prepared or the series are attached: with only the precipitation loaded,
the snow processes follow a null pointer. -/
theorem c62_missing_series {m : Wire.Model ℚ} {fs : List (List Var)} (h : prepare xi = .ok (m, fs)) (un : UnitIn ℚ)
    (hu : xi.base.units[0]? = some un) : ∃ bu l, m.built.units[0]? = some bu ∧ fs[0]? = some l ∧
      ¬ Safe xi m 0 un bu l [.precipitation] := by
  obtain ⟨bu, l, hbu, hl, hiff⟩ := c62_safe_iff WireDemo.distinct h hu [.precipitation]
  refine ⟨bu, l, hbu, hl, fun hs => ?_⟩
  have hst : un = ⟨WireDemo.str, 3, [(1, 1)]⟩ := by
    have : xi.base.units[0]? = some ⟨WireDemo.str, 3, [(1, 1)]⟩ := rfl
    rw [this] at hu
    cases hu
    rfl
  subst hst
  have h0 : (WireDemo.str.unitSplits[0]?.map (·.type)) = some "snow_rain:linear" := by decide +kernel
  obtain ⟨s, hs0, hty⟩ := Option.map_eq_some_iff.1 h0
  have := ((hiff.1 hs).snowRain 0 s hs0 (by rw [hty]; simp)).2.2
  simp at this

/-- A unit whose only splitter divides what nothing sends. -/
def idle : InputX ℚ :=
  ⟨⟨{}, [⟨{ unitBricks := [⟨"soil", "storage", "", [⟨"p", "outflow:linear", [{ target := "outlet" }]⟩], false⟩],
            unitSplits := [⟨"divide", "multi_fluxes", [{ target := "soil" }]⟩] }, 1, []⟩]⟩, fun _ => ext⟩

/-- **Finding.**  A dividing splitter without input is accepted, although its step reads its first input. -/
theorem c62_divider_without_input : ((prepare { idle with ext := fun _ => { ext with splitF := fun _ => [] } }).map fun r =>
    (r.1.net.inputs (.unitSplit 0 0)).length).toOption = some 0 := by decide +kernel

/-- A sub-basin brick with evapotranspiration. -/
def lake : InputX ℚ :=
  ⟨⟨{ basinBricks := [⟨"lake", "storage", "", [⟨"et", "et:open_water", []⟩], false⟩] },
    [⟨{ unitBricks := [⟨"soil", "storage", "", [⟨"p", "outflow:linear", [{ target := "lake" }]⟩], false⟩] }, 1, []⟩]⟩,
    fun _ => ext⟩

/-- **Finding.**  A process of the sub-basin that needs a forcing is never accepted: it is built, but cannot be connected. -/
theorem c62_basin_forcing_refused : (∃ m, build lake.base = .ok m) ∧ ¬ ∃ r, prepare lake = .ok r := by
  refine ⟨WireDemo.isOk (by decide +kernel), fun ⟨r, hr⟩ => ?_⟩
  have hd : Spec.Distinct lake.base := by unfold Spec.Distinct Spec.DistinctUnit Spec.Indexed; decide +kernel
  refine c62_basin_undriven hd hr _ (List.mem_singleton.2 rfl) _ (List.mem_singleton.2 rfl) .pet (.inl ⟨rfl, ?_⟩)
  decide

end ValidDemo

end HB
