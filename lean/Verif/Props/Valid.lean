import Verif.Model.ValidLemmas

/-!
# C62: a prepared model has everything its components read

Connecting forcings and the check made at the end of initialisation.
-/

set_option linter.unusedSectionVars false

namespace HB

open Names Wire

theorem createBrick_proc' {b : Brick} {bb : BuiltBrick} (h : createBrick b = .ok bb) {j : ℕ} {pc : ProcClass}
    (hj : bb.procs[j]? = some pc) : ∃ p, b.procs[j]? = some p ∧ p.type ∈ Spec.processNames pc := by
  have hl : bb.procs.length = b.procs.length := by
    have h' := h
    simp only [createBrick, bind_ok] at h'
    obtain ⟨c, hc, ps, hps, h'⟩ := h'
    cases h'
    exact createAll_length hps
  have hlt : j < b.procs.length := hl ▸ (List.getElem?_eq_some_iff.1 hj).1
  obtain ⟨pc', hpc', hn⟩ := createBrick_proc h (List.getElem?_eq_getElem hlt)
  rw [hj] at hpc'
  cases hpc'
  exact ⟨_, List.getElem?_eq_getElem hlt, hn⟩

section
variable {K : Type} [Field K] [LinearOrder K]

theorem links_facts {inp : Input K} {m : Wire.Model K} (hd : Spec.Distinct inp) (h : build inp = .ok m) {u : ℕ}
    {un : UnitIn K} (hu : inp.units[u]? = some un) {i : ℕ} {b : Brick} (hb : un.str.unitBricks[i]? = some b) {j : ℕ}
    {p : Proc} (hp : b.procs[j]? = some p) :
    (p.type ∈ Spec.infiltrationNames → m.linksAt (.unitBrick u i) j ≠ []) ∧
    (p.type = "capillary:hbv" → (m.linksAt (.unitBrick u i) j).length = p.outs.length ∧
      ((∀ l ∈ m.linksAt (.unitBrick u i) j, l.covers ≠ []) ↔ ∀ o ∈ p.outs, ∃ b' ∈ un.str.unitBricks, Spec.IsCover b' ∧
        ∃ p' ∈ b'.procs, ∃ o' ∈ p'.outs, o'.target = o.target)) := by
  constructor
  · intro hinf
    obtain ⟨bu, bb, pc, l, hok, hU, hcb, hpc, hname, hl, he⟩ := links_eq hd h hu hb hp
    change m.linksOf _ _ ≠ []
    rw [he]
    have hone := (linksOne_iff hname).2 hinf
    have hmany : linksMany pc = false := by cases pc <;> simp_all [linksOne, linksMany]
    unfold linkUnitProc at hl
    simp only [hmany, Bool.false_eq_true, if_false, hone, if_true] at hl
    split at hl
    · split at hl
      · cases hl; simp
      · cases hl
    · cases hl
  · intro hcap
    obtain ⟨bu, bb, pc, l, hok, hU, hcb, hpc, hname, hl, he⟩ := links_eq hd h hu hb hp
    change (m.linksOf _ _).length = _ ∧ ((∀ l ∈ m.linksOf _ _, _) ↔ _)
    rw [he]
    have hmany := (linksMany_iff hname).2 hcap
    unfold linkUnitProc at hl
    simp only [hmany, if_true] at hl
    refine ⟨createAll_length hl, ?_⟩
    have hF := createAll_ok.1 hl
    have hcov : ∀ t : String, coversFeeding un bu t ≠ [] ↔ ∃ b' ∈ un.str.unitBricks, Spec.IsCover b' ∧
        ∃ p' ∈ b'.procs, ∃ o' ∈ p'.outs, o'.target = t := by
      intro t
      constructor
      · intro hne
        obtain ⟨k, hk⟩ := List.exists_mem_of_ne_nil _ hne
        unfold coversFeeding at hk
        obtain ⟨b', hb', hk⟩ := List.mem_flatMap.1 hk
        split at hk
        · cases hk
        · rename_i i' hfi
          split at hk
          · cases hk
          · rename_i bb' hgi
            split at hk
            · rename_i hcls
              obtain ⟨b2, hb2, hn2⟩ := hU.find.1 hfi
              obtain ⟨bb2, hbb2, hcb2⟩ := hU.get hb2
              rw [hgi] at hbb2
              cases hbb2
              -- the brick found by name is the brick itself
              obtain ⟨k', hk'⟩ := List.getElem?_of_mem hb'
              have hnd := (hd.1 un (List.mem_of_getElem? hu)).2.1
              have hsame : k' = i' := by
                have h1 : (un.str.unitBricks.map (·.name))[k']? = some b'.name := by simp [hk']
                have h2 : (un.str.unitBricks.map (·.name))[i']? = some b'.name := by simp [hb2, hn2]
                obtain ⟨l1, e1⟩ := List.getElem?_eq_some_iff.1 h1
                obtain ⟨l2, e2⟩ := List.getElem?_eq_some_iff.1 h2
                exact (hnd.getElem_inj_iff).1 (e1.trans e2.symm)
              subst hsame
              rw [hk'] at hb2
              cases hb2
              obtain ⟨p', hp', hk⟩ := List.mem_flatMap.1 hk
              obtain ⟨o', ho', hk⟩ := List.mem_flatMap.1 hk
              refine ⟨b', hb', (cover_iff (createBrick_class hcb2)).1 hcls, p', hp', o', ho', ?_⟩
              by_contra hne'
              rw [if_neg hne'] at hk
              cases hk
            · cases hk
      · rintro ⟨b', hb', hc, p', hp', o', ho', ht⟩
        obtain ⟨k, hk⟩ := List.getElem?_of_mem hb'
        obtain ⟨bb', hbb', hcb'⟩ := hU.get hk
        have hfi : bu.find b'.name = some k := hU.find.2 ⟨b', hk, rfl⟩
        refine List.ne_nil_of_mem (a := k) ?_
        unfold coversFeeding
        refine List.mem_flatMap.2 ⟨b', hb', ?_⟩
        simp only [hfi, hbb']
        rw [if_pos ((cover_iff (createBrick_class hcb')).2 hc)]
        refine List.mem_flatMap.2 ⟨p', hp', List.mem_flatMap.2 ⟨o', ho', ?_⟩⟩
        rw [if_pos ht]
        simp
    have hF' : List.Forall₂ (fun (o : Out) (l : Link) => l.covers = coversFeeding un bu o.target) p.outs l := by
      refine hF.imp fun o l hol => ?_
      split at hol
      · cases hol; rfl
      · cases hol
    simp only [← hcov]
    clear hl he hF hp
    generalize p.outs = os at hF'
    induction hF' with
    | nil => simp
    | cons hab _ ih => simp only [List.mem_cons, forall_eq_or_imp, hab, ih]

theorem brickValid_unit {inp : Input K} {m : Wire.Model K} (hd : Spec.Distinct inp) (h : build inp = .ok m) {u : ℕ}
    {un : UnitIn K} (hu : inp.units[u]? = some un) {i : ℕ} {b : Brick} (hb : un.str.unitBricks[i]? = some b) {bb : BuiltBrick}
    (hcb : createBrick b = .ok bb) (x : UnitX K) :
    brickValid m (.unitBrick u i) bb (listed x i) = true ↔ Spec.BrickComplete inp un b := by
  have hcls := createBrick_class hcb
  have hproc : ∀ (j : ℕ) (p : Proc) (pc : ProcClass), b.procs[j]? = some p → bb.procs[j]? = some pc → p.type ∈ Spec.processNames pc →
      (procValid (m.view (.unitBrick u i) bb (listed x i) (pc, j)) = true ↔ Spec.ProcComplete inp un b j p) := by
    intro j p pc hj hpc hname
    obtain ⟨n1, n2, n3, n4, n5, -⟩ := name_iff hname
    obtain ⟨hl1, hl2⟩ := links_facts hd h hu hb hj
    rw [procValid_iff]
    have hlen := unit_outputs_length hd h hu hb hj
    simp only [Wire.Model.view]
    rw [hlen]
    constructor
    · rintro ⟨a1, -, a3, a4, a5, a6, -⟩
      refine ⟨fun h1 h2 => a1 (Bool.eq_false_iff.2 fun hh => h1 ((isLateral_iff hname).1 hh)) fun hh => h2 (n1.1 hh), ?_, ?_, ?_, ?_⟩
      · intro hc
        obtain ⟨b1, b2, b3⟩ := a3 (n1.2 hc)
        obtain ⟨c1, c2⟩ := hl2 hc
        refine ⟨fun hne => b1 ?_, by rw [← b2, c1], fun hlt => c2.1 (b3 (by rw [c1]; exact hlt))⟩
        rw [hne, List.length_nil] at c1
        exact List.length_eq_zero_iff.1 c1
      · intro hdir k p' hk hne hw
        obtain ⟨pc', hpc', hname'⟩ := createBrick_proc hcb hk
        exact a4 (n2.2 hdir) k pc' hpc' hne ((worksOn_iff hname' hcls).1 hw)
      · intro hr
        obtain ⟨k, hk⟩ := List.getElem?_of_mem (a5 (n3.2 hr))
        obtain ⟨p', hp', hn'⟩ := createBrick_proc' hcb hk
        exact ⟨p', List.mem_of_getElem? hp', ((name_iff hn').2.2.2.2.1).1 rfl⟩
      · intro hh
        exact (snowpack_iff hcls).1 (a6 (n4.2 hh))
    · intro hC
      refine ⟨fun h1 h2 => hC.single (fun hh => ?_) fun hh => h2 (n1.2 hh), fun v hv => List.mem_append_left _ hv, ?_, ?_, ?_, ?_, ?_⟩
      · rw [(isLateral_iff hname).2 hh] at h1
        cases h1
      · intro hc
        obtain ⟨b1, b2, b3⟩ := hC.capillary (n1.1 hc)
        obtain ⟨c1, c2⟩ := hl2 (n1.1 hc)
        refine ⟨fun hne => b1 ?_, by rw [c1, b2], fun hlt => c2.2 (b3 (by rw [← c1]; exact hlt))⟩
        rw [hne, List.length_nil] at c1
        exact List.length_eq_zero_iff.1 c1.symm
      · intro hdir k pc' hk hne hw
        obtain ⟨p', hp', hn'⟩ := createBrick_proc' hcb hk
        exact hC.alone (n2.1 hdir) k p' hp' hne ((worksOn_iff hn' hcls).2 hw)
      · intro hr
        obtain ⟨p', hp', ht⟩ := hC.refreeze (n3.1 hr)
        obtain ⟨k, hk⟩ := List.getElem?_of_mem hp'
        obtain ⟨pc', hpc', hname'⟩ := createBrick_proc hcb hk
        rw [← ((name_iff hname').2.2.2.2.1).2 ht]
        exact List.mem_of_getElem? hpc'
      · intro hh
        exact (snowpack_iff hcls).2 (hC.holding (n4.1 hh))
      · intro hone
        exact hl1 ((linksOne_iff hname).1 hone)
  simp only [brickValid, Bool.and_eq_true, Bool.not_eq_true', List.isEmpty_eq_false_iff, List.all_eq_true, List.any_eq_true, beq_iff_eq]
  constructor
  · rintro ⟨⟨-, h2⟩, h3⟩
    refine ⟨?_, fun j p hj => ?_⟩
    · obtain ⟨pc, hpc, hst⟩ := h3
      obtain ⟨k, hk⟩ := List.getElem?_of_mem hpc
      obtain ⟨p, hp, hn⟩ := createBrick_proc' hcb hk
      exact ⟨p, List.mem_of_getElem? hp, (worksOn_iff hn hcls).2 (by rw [hst, mainStore_eq hcls])⟩
    · obtain ⟨pc, hpc, hname⟩ := createBrick_proc hcb hj
      exact (hproc j p pc hj hpc hname).1 (h2 (pc, j) (List.mem_zipIdx_iff_getElem?.2 hpc))
  · rintro ⟨⟨p, hp, hw⟩, h2⟩
    obtain ⟨k, hk⟩ := List.getElem?_of_mem hp
    obtain ⟨pc, hpc, hname⟩ := createBrick_proc hcb hk
    refine ⟨⟨List.ne_nil_of_mem (List.mem_of_getElem? hpc), ?_⟩, pc, List.mem_of_getElem? hpc, ?_⟩
    · rintro ⟨pc', j⟩ hj
      have hj := List.mem_zipIdx_iff_getElem?.1 hj
      obtain ⟨p', hp', hn'⟩ := createBrick_proc' hcb hj
      exact (hproc j p' pc' hp' hj hn').2 (h2 j p' hp')
    · rw [(worksOn_iff hname hcls).1 hw, mainStore_eq hcls]

theorem splitValid_iff {s : Split} {sc : SplitClass} (hs : s.type ∈ Spec.splitterNames sc) {n : ℕ} (hn : n = s.outs.length)
    (fs : List Var) (e : Option K) : splitValid sc n fs e = true ↔
      Spec.SplitCount s ∧ (s.type = "snow_rain:cemaneige" → Spec.CemaNeigeFed fs e) := by
  subst hn
  obtain ⟨h1, h2, h3, h4⟩ := splitName_iff hs
  unfold Spec.SplitCount
  rw [← h1, ← h2, ← h3, ← h4]
  have hl : s.outs ≠ [] ↔ s.outs.length ≠ 0 := by rw [ne_eq, ne_eq, List.length_eq_zero_iff]
  rw [hl]
  cases sc
  · simp [splitValid]
  · simp [splitValid]
  · unfold Spec.CemaNeigeFed
    cases e with
    | none => simp [splitValid]
    | some e =>
      simp [splitValid, and_assoc]
      intro _ _ _
      rw [← not_lt, or_iff_not_imp_left, not_not]
  · simp [splitValid]
  · simp [splitValid]

theorem basin_link {inp : Input K} {m : Wire.Model K} (hd : Spec.Distinct inp) (h : build inp = .ok m) {i : ℕ} {b : Brick}
    (hb : inp.basin.basinBricks[i]? = some b) {j : ℕ} {p : Proc} (hp : b.procs[j]? = some p)
    (hinf : p.type ∈ Spec.infiltrationNames) : m.linksAt (.basinBrick i) j ≠ [] := by
  simp only [build, bind_ok] at h
  obtain ⟨bt, hbt, lb, hlb, nb, hnb, ns, hns, us, hus, h⟩ := h
  cases h
  have hok := create_ok hd hbt
  obtain ⟨bb, hbb, hcb⟩ := hok.get hb
  obtain ⟨pc, hpc, hname⟩ := createBrick_proc hcb hp
  have hone := (linksOne_iff hname).2 hinf
  have hmany : linksMany pc = false := by cases pc <;> simp_all [linksOne, linksMany]
  simp only [linkBasin, bind_ok] at hlb
  obtain ⟨ll, hll, hlb⟩ := hlb
  cases hlb
  have hz : inp.basin.basinBricks.zipIdx[i]? = some (b, i) := by simp [hb]
  obtain ⟨l1, hl1, hw1⟩ := createAll_get hll hz
  simp only [hbb, bind_ok] at hw1
  obtain ⟨l2, hl2, hw1⟩ := hw1
  cases hw1
  have hz2 : b.procs.zipIdx[j]? = some (p, j) := by simp [hp]
  obtain ⟨l3, hl3, hw3⟩ := createAll_get hl2 hz2
  simp only [hpc, hmany, Bool.false_eq_true, if_false, hone, if_true] at hw3
  split at hw3
  · split at hw3
    · cases hw3
      refine List.ne_nil_of_mem (List.mem_filter.2 ⟨List.mem_append_left _ (List.mem_flatten.2 ⟨_, List.mem_of_getElem? hl1,
        List.mem_flatten.2 ⟨_, List.mem_of_getElem? hl3, List.mem_singleton.2 rfl⟩⟩), ?_⟩)
      simp
    · cases hw3
  · cases hw3

theorem connectBasin_isOk {inp : Input K} {bt : Built K} (hok : BuiltOK inp bt)
    (hlen : bt.basinBricks.length = inp.basin.basinBricks.length) :
    (∃ r, connectBasin bt = .ok r) ↔ ∀ b ∈ inp.basin.basinBricks, ∀ p ∈ b.procs, p.type ≠ "melt:degree_day_aspect" := by
  unfold connectBasin
  have : (bt.basinBricks.all fun b => b.procs.all fun pc => pc != .meltDegreeDayAspect) = true ↔
      ∀ b ∈ inp.basin.basinBricks, ∀ p ∈ b.procs, p.type ≠ "melt:degree_day_aspect" := by
    simp only [List.all_eq_true, bne_iff_ne]
    constructor
    · intro h b hb p hp ht
      obtain ⟨i, hi⟩ := List.getElem?_of_mem hb
      obtain ⟨bb, hbb, hcb⟩ := hok.get hi
      obtain ⟨j, hj⟩ := List.getElem?_of_mem hp
      obtain ⟨pc, hpc, hname⟩ := createBrick_proc hcb hj
      exact h bb (List.mem_of_getElem? hbb) pc (List.mem_of_getElem? hpc) ((name_iff hname).2.2.2.2.2.2 ht)
    · intro h bb hbb pc hpc hc
      obtain ⟨i, hi⟩ := List.getElem?_of_mem hbb
      have hlt : i < inp.basin.basinBricks.length := hlen ▸ (List.getElem?_eq_some_iff.1 hi).1
      obtain ⟨bb', hbb', hcb⟩ := hok.get (List.getElem?_eq_getElem hlt)
      rw [hi] at hbb'
      cases hbb'
      obtain ⟨j, hj⟩ := List.getElem?_of_mem hpc
      obtain ⟨p, hp, hname⟩ := createBrick_proc' hcb hj
      exact h _ (List.getElem_mem hlt) p (List.mem_of_getElem? hp) ((name_iff hname).2.2.2.2.2.1 hc)
  rw [← this]
  by_cases hall : (bt.basinBricks.all fun b => b.procs.all fun pc => pc != .meltDegreeDayAspect) = true
  · rw [if_pos hall]
    exact ⟨fun _ => hall, fun _ => ⟨_, rfl⟩⟩
  · rw [if_neg hall]
    refine ⟨?_, fun hh => absurd hh hall⟩
    rintro ⟨_, hh⟩
    cases hh

theorem brickValid_basin {inp : Input K} {m : Wire.Model K} (hd : Spec.Distinct inp) (h : build inp = .ok m) {i : ℕ} {b : Brick}
    (hb : inp.basin.basinBricks[i]? = some b) {bb : BuiltBrick} (hcb : createBrick b = .ok bb) :
    brickValid m (.basinBrick i) bb (fun _ _ => []) = true ↔
      (∃ p ∈ b.procs, Spec.WorksOn p.type b.type (Spec.ownStore b.type)) ∧ (∀ p ∈ b.procs, ∀ v, ¬ Spec.Driven p.type v) ∧
      (∀ p ∈ b.procs, p.type ∉ Spec.lateralNames → p.type ∉ Spec.atmosphereNames → p.outs.length = 1) ∧
      (∀ (j : ℕ) (p : Proc), b.procs[j]? = some p → p.type = "outflow:direct" →
        ∀ (k : ℕ) (p' : Proc), b.procs[k]? = some p' → k ≠ j → ¬ Spec.WorksOn p'.type b.type .water) ∧
      (∀ p ∈ b.procs, p.type = "outflow:snow_holding" → b.type = "snowpack") := by
  have hW := (c57_builds_iff hd).1 ⟨m, h⟩
  have hbm := List.mem_of_getElem? hb
  have hcls := createBrick_class hcb
  have hproc : ∀ (j : ℕ) (p : Proc) (pc : ProcClass), b.procs[j]? = some p → bb.procs[j]? = some pc → p.type ∈ Spec.processNames pc →
      (procValid (m.view (.basinBrick i) bb (fun _ _ => []) (pc, j)) = true ↔ (∀ v, ¬ Spec.Driven p.type v) ∧
        (p.type ∉ Spec.lateralNames → p.type ∉ Spec.atmosphereNames → p.outs.length = 1) ∧
        (p.type = "outflow:direct" → ∀ (k : ℕ) (p' : Proc), b.procs[k]? = some p' → k ≠ j → ¬ Spec.WorksOn p'.type b.type .water) ∧
        (p.type = "outflow:snow_holding" → b.type = "snowpack")) := by
    intro j p pc hj hpc hname
    have hpm := List.mem_of_getElem? hj
    obtain ⟨n1, n2, n3, n4, n5, -⟩ := name_iff hname
    rw [procValid_iff]
    have hlen := basin_outputs_length hd h hb hj
    simp only [Wire.Model.view]
    rw [hlen]
    have hncap : pc ≠ .capillaryHBV := fun hh => hW.noCapillary b hbm p hpm (n1.1 hh)
    constructor
    · rintro ⟨a1, a2, -, a4, a5, a6, -⟩
      refine ⟨fun v hv => ?_, fun h1 h2 => ?_, ?_, ?_⟩
      · have := a2 v ((auto_iff hname v).2 hv)
        cases this
      · have := a1 (Bool.eq_false_iff.2 fun hh => h1 ((isLateral_iff hname).1 hh)) hncap
        rwa [if_neg h2] at this
      · intro hdir k p' hk hne hw
        obtain ⟨pc', hpc', hname'⟩ := createBrick_proc hcb hk
        exact a4 (n2.2 hdir) k pc' hpc' hne ((worksOn_iff hname' hcls).1 hw)
      · intro hh
        exact (snowpack_iff hcls).1 (a6 (n4.2 hh))
    · rintro ⟨c1, c2, c3, c4⟩
      refine ⟨fun h1 _ => ?_, fun v hv => absurd ((auto_iff hname v).1 hv) (c1 v), fun hh => absurd hh hncap, ?_, ?_, ?_, ?_⟩
      · split
        · rfl
        · refine c2 (fun hh => ?_) ‹_›
          rw [(isLateral_iff hname).2 hh] at h1
          cases h1
      · intro hdir k pc' hk hne hw
        obtain ⟨p', hp', hn'⟩ := createBrick_proc' hcb hk
        exact c3 (n2.1 hdir) k p' hp' hne ((worksOn_iff hn' hcls).2 hw)
      · intro hr
        exfalso
        refine c1 .temperature ((auto_iff hname _).1 ?_)
        rw [hr]
        decide
      · intro hh
        exact (snowpack_iff hcls).2 (c4 (n4.1 hh))
      · intro hone
        exact basin_link hd h hb hj ((linksOne_iff hname).1 hone)
  simp only [brickValid, Bool.and_eq_true, Bool.not_eq_true', List.isEmpty_eq_false_iff, List.all_eq_true, List.any_eq_true, beq_iff_eq]
  constructor
  · rintro ⟨⟨-, h2⟩, h3⟩
    have hall : ∀ (j : ℕ) (p : Proc), b.procs[j]? = some p → (∀ v, ¬ Spec.Driven p.type v) ∧
        (p.type ∉ Spec.lateralNames → p.type ∉ Spec.atmosphereNames → p.outs.length = 1) ∧
        (p.type = "outflow:direct" → ∀ (k : ℕ) (p' : Proc), b.procs[k]? = some p' → k ≠ j → ¬ Spec.WorksOn p'.type b.type .water) ∧
        (p.type = "outflow:snow_holding" → b.type = "snowpack") := fun j p hj => by
      obtain ⟨pc, hpc, hname⟩ := createBrick_proc hcb hj
      exact (hproc j p pc hj hpc hname).1 (h2 (pc, j) (List.mem_zipIdx_iff_getElem?.2 hpc))
    refine ⟨?_, fun p hp => ?_, fun p hp => ?_, fun j p hj => (hall j p hj).2.2.1, fun p hp => ?_⟩
    · obtain ⟨pc, hpc, hst⟩ := h3
      obtain ⟨k, hk⟩ := List.getElem?_of_mem hpc
      obtain ⟨p, hp, hn⟩ := createBrick_proc' hcb hk
      exact ⟨p, List.mem_of_getElem? hp, (worksOn_iff hn hcls).2 (by rw [hst, mainStore_eq hcls])⟩
    all_goals obtain ⟨j, hj⟩ := List.getElem?_of_mem hp
    · exact (hall j p hj).1
    · exact (hall j p hj).2.1
    · exact (hall j p hj).2.2.2
  · rintro ⟨⟨p, hp, hw⟩, c1, c2, c3, c4⟩
    obtain ⟨k, hk⟩ := List.getElem?_of_mem hp
    obtain ⟨pc, hpc, hname⟩ := createBrick_proc hcb hk
    refine ⟨⟨List.ne_nil_of_mem (List.mem_of_getElem? hpc), ?_⟩, pc, List.mem_of_getElem? hpc, ?_⟩
    · rintro ⟨pc', j⟩ hj
      have hj := List.mem_zipIdx_iff_getElem?.1 hj
      obtain ⟨p', hp', hn'⟩ := createBrick_proc' hcb hj
      have hm := List.mem_of_getElem? hp'
      exact (hproc j p' pc' hp' hj hn').2 ⟨c1 p' hm, c2 p' hm, c3 j p' hp', c4 p' hm⟩
    · rw [(worksOn_iff hname hcls).1 hw, mainStore_eq hcls]

/-! ### Connecting -/

theorem buildSplitter_class {t : String} {sc : SplitClass} (h : t ∈ Spec.splitterNames sc) : buildSplitter t = .ok sc := by
  cases sc <;> simp only [Spec.splitterNames, List.mem_cons, List.not_mem_nil, or_false] at h <;> (subst h; decide)

theorem connectBrick_isOk {b : Brick} {bb : BuiltBrick} (hcb : createBrick b = .ok bb) (x : UnitX K) (i : ℕ) (fs : List Var) :
    (∃ r, connectBrick x fs (i, bb) = .ok r) ↔ (∀ p ∈ b.procs, Spec.PropsFor x p.type) ∧
      ∀ (j : ℕ) (p : Proc), b.procs[j]? = some p → ∀ v ∈ x.procF i j, Spec.Usable p.type v := by
  simp only [connectBrick, bind_ok]
  have hc : ∀ s : List Var, (∃ r, chain (fun fs (pj : ProcClass × ℕ) => if hasProps x pj.1 = true then
      attachForcings (takes pj.1) (listed x i pj.2 pj.1) fs else .error .thrown) bb.procs.zipIdx s = .ok r) ↔
      ∀ pj ∈ bb.procs.zipIdx, hasProps x pj.1 = true ∧ ∀ v ∈ listed x i pj.2 pj.1, takes pj.1 v = true := by
    intro s
    refine chain_isOk fun pj _ s => ?_
    by_cases hh : hasProps x pj.1 = true
    · rw [if_pos hh, attach_isOk]
      simp [hh]
    · simp [hh]
  have hpt : (∀ pj ∈ bb.procs.zipIdx, hasProps x pj.1 = true ∧ ∀ v ∈ listed x i pj.2 pj.1, takes pj.1 v = true) ↔
      (∀ p ∈ b.procs, Spec.PropsFor x p.type) ∧
      ∀ (j : ℕ) (p : Proc), b.procs[j]? = some p → ∀ v ∈ x.procF i j, Spec.Usable p.type v := by
    constructor
    · intro h
      refine ⟨fun p hp => ?_, fun j p hj v hv => ?_⟩
      · obtain ⟨j, hj⟩ := List.getElem?_of_mem hp
        obtain ⟨pc, hpc, hname⟩ := createBrick_proc hcb hj
        exact (hasProps_iff hname x).1 (h (pc, j) (List.mem_zipIdx_iff_getElem?.2 hpc)).1
      · obtain ⟨pc, hpc, hname⟩ := createBrick_proc hcb hj
        exact (takes_iff hname v).1 ((h (pc, j) (List.mem_zipIdx_iff_getElem?.2 hpc)).2 v (List.mem_append_right _ hv))
    · rintro ⟨h1, h2⟩ ⟨pc, j⟩ hj
      have hj := List.mem_zipIdx_iff_getElem?.1 hj
      obtain ⟨p, hp, hname⟩ := createBrick_proc' hcb hj
      refine ⟨(hasProps_iff hname x).2 (h1 p (List.mem_of_getElem? hp)), fun v hv => (takes_iff hname v).2 ?_⟩
      rcases List.mem_append.1 hv with hv | hv
      · exact .inl ((auto_iff hname v).1 hv)
      · exact h2 j p hp v hv
  rw [← hpt]
  constructor
  · rintro ⟨r, s, -, hr⟩
    exact (hc s).1 ⟨r, hr⟩
  · intro h
    obtain ⟨s, hs⟩ := (attach_isOk (keeps := fun _ => true) (vs := x.brickF i) (fs := fs)).2 (by simp)
    obtain ⟨r, hr⟩ := (hc s).2 h
    exact ⟨r, s, hs, hr⟩

theorem connectSplit_isOk {s : Split} {sc : SplitClass} (hs : s.type ∈ Spec.splitterNames sc) (x : UnitX K) (k : ℕ) (fs : List Var) :
    (∃ r, connectSplit x fs (s, k) = .ok r) ↔ (∀ v ∈ x.splitF k, Spec.SplitUsable s.type v) ∧
      (s.type = "snow_rain:cemaneige" → x.elevation ≠ none) := by
  simp only [connectSplit, buildSplitter_class hs, bind_ok]
  have hn := (splitName_iff hs).2.2.1
  rw [← hn]
  constructor
  · rintro ⟨r, s', h1, h2⟩
    split at h2
    · cases h2
    · rename_i hne
      exact ⟨fun v hv => (splitTakes_iff hs v).1 (attach_isOk.1 ⟨_, h1⟩ v hv), fun hc he => hne ⟨hc, he⟩⟩
  · rintro ⟨h1, h2⟩
    obtain ⟨s', hs'⟩ := (attach_isOk (fs := fs)).2 fun v hv => (splitTakes_iff hs v).2 (h1 v hv)
    exact ⟨s', s', hs', if_neg fun hh => h2 hh.1 hh.2⟩

theorem connectUnit_isOk {un : UnitIn K} {bu : BuiltUnit} (hU : UnitOK un bu)
    (hsp : ∀ s ∈ un.str.unitSplits, ∃ c, s.type ∈ Spec.splitterNames c) (x : UnitX K) :
    (∃ r, connectUnit x un bu = .ok r) ↔ Spec.UnitConnected x un := by
  simp only [connectUnit, bind_ok]
  have h1 : (∃ r, chain (connectBrick x) bu.bricks [] = .ok r) ↔ ∀ e ∈ bu.bricks, ∀ b, un.str.unitBricks[e.1]? = some b →
      (∀ p ∈ b.procs, Spec.PropsFor x p.type) ∧
      ∀ (j : ℕ) (p : Proc), b.procs[j]? = some p → ∀ v ∈ x.procF e.1 j, Spec.Usable p.type v := by
    refine chain_isOk fun e he s => ?_
    obtain ⟨b, hb, hcb⟩ := hU.mem.1 he
    rw [connectBrick_isOk hcb]
    simp [hb]
  have h2 : ∀ s, (∃ r, chain (connectSplit x) un.str.unitSplits.zipIdx s = .ok r) ↔ ∀ e ∈ un.str.unitSplits.zipIdx,
      (∀ v ∈ x.splitF e.2, Spec.SplitUsable e.1.type v) ∧ (e.1.type = "snow_rain:cemaneige" → x.elevation ≠ none) := by
    intro s
    refine chain_isOk fun e he s => ?_
    obtain ⟨sc, hsc⟩ := hsp e.1 (List.mem_of_getElem? (List.mem_zipIdx_iff_getElem?.1 he))
    exact connectSplit_isOk hsc x e.2 s
  constructor
  · rintro ⟨r, s, hs, hr⟩
    have a1 := h1.1 ⟨s, hs⟩
    have a2 := (h2 s).1 ⟨r, hr⟩
    refine ⟨fun b hb p hp => ?_, fun i b hb j p hp => ?_, fun k s hk => ?_, fun s hs => ?_⟩
    · obtain ⟨i, hi⟩ := List.getElem?_of_mem hb
      obtain ⟨bb, hbb, hcb⟩ := hU.get hi
      exact (a1 (i, bb) (hU.mem.2 ⟨b, hi, hcb⟩) b hi).1 p hp
    · obtain ⟨bb, hbb, hcb⟩ := hU.get hb
      exact (a1 (i, bb) (hU.mem.2 ⟨b, hb, hcb⟩) b hb).2 j p hp
    · exact (a2 (s, k) (List.mem_zipIdx_iff_getElem?.2 hk)).1
    · obtain ⟨k, hk⟩ := List.getElem?_of_mem hs
      exact (a2 (s, k) (List.mem_zipIdx_iff_getElem?.2 hk)).2
  · intro hC
    obtain ⟨s, hs⟩ := h1.2 fun e he b hb => ⟨fun p hp => hC.props b (List.mem_of_getElem? hb) p hp, fun j p hp => hC.procs e.1 b hb j p hp⟩
    obtain ⟨r, hr⟩ := (h2 s).2 fun e he => by
      have hk := List.mem_zipIdx_iff_getElem?.1 he
      exact ⟨hC.splits e.2 e.1 hk, hC.elevation e.1 (List.mem_of_getElem? hk)⟩
    exact ⟨r, s, hs, hr⟩

theorem build_create {inp : Input K} {m : Wire.Model K} (h : build inp = .ok m) : create inp = .ok m.built := by
  simp only [build, bind_ok] at h
  obtain ⟨bt, hbt, lb, hlb, nb, hnb, ns, hns, us, hus, h⟩ := h
  cases h
  exact hbt

theorem basinBricks_length {inp : Input K} {bt : Built K} (h : create inp = .ok bt) :
    bt.basinBricks.length = inp.basin.basinBricks.length := by
  simp only [create, bind_ok] at h
  obtain ⟨bb, hbb, bs, hbs, us, hus, h⟩ := h
  cases h
  exact createAll_length hbb

theorem unitValid_iff {inp : Input K} {m : Wire.Model K} (hd : Spec.Distinct inp) (h : build inp = .ok m) {u : ℕ}
    {un : UnitIn K} (hu : inp.units[u]? = some un) {bu : BuiltUnit} (hU : UnitOK un bu) (x : UnitX K) :
    unitValid m u x un bu = true ↔ Spec.UnitComplete inp x un := by
  have hW := ((c57_builds_iff hd).1 ⟨m, h⟩).units u un hu
  have hs : ∀ (k : ℕ) (s : Split), un.str.unitSplits[k]? = some s →
      ((match buildSplitter s.type with
      | .ok sc => splitValid sc (m.net.outputs (.unitSplit u k) 0).length (x.splitF k) x.elevation
      | _ => false) = true ↔ Spec.SplitCount s ∧ (s.type = "snow_rain:cemaneige" → Spec.CemaNeigeFed (x.splitF k) x.elevation)) := by
    intro k s hk
    obtain ⟨sc, hsc⟩ := hW.splits s (List.mem_of_getElem? hk)
    simp only [buildSplitter_class hsc]
    exact splitValid_iff hsc (c57_splitter_outputs hd h hu hk).length_eq _ _
  simp only [unitValid, Bool.and_eq_true, List.all_eq_true, decide_eq_true_eq]
  constructor
  · rintro ⟨⟨h1, h2⟩, h3⟩
    refine ⟨h3, fun b hb => ?_, fun s hsm => ?_, fun k s hk => ?_⟩
    · obtain ⟨i, hi⟩ := List.getElem?_of_mem hb
      obtain ⟨bb, hbb, hcb⟩ := hU.get hi
      exact (brickValid_unit hd h hu hi hcb x).1 (h1 (i, bb) (hU.mem.2 ⟨b, hi, hcb⟩))
    · obtain ⟨k, hk⟩ := List.getElem?_of_mem hsm
      exact ((hs k s hk).1 (h2 (s, k) (List.mem_zipIdx_iff_getElem?.2 hk))).1
    · exact ((hs k s hk).1 (h2 (s, k) (List.mem_zipIdx_iff_getElem?.2 hk))).2
  · intro hC
    refine ⟨⟨fun e he => ?_, fun e he => ?_⟩, hC.area⟩
    · obtain ⟨b, hb, hcb⟩ := hU.mem.1 he
      exact (brickValid_unit hd h hu hb hcb x).2 (hC.bricks b (List.mem_of_getElem? hb))
    · have hk := List.mem_zipIdx_iff_getElem?.1 he
      exact (hs e.2 e.1 hk).2 ⟨hC.splits e.1 (List.mem_of_getElem? hk), hC.cemaneige e.2 e.1 hk⟩

theorem valid_iff {xi : InputX K} {m : Wire.Model K} (hd : Spec.Distinct xi.base) (h : build xi.base = .ok m) :
    valid xi m = true ↔ xi.base.units ≠ [] ∧
      (∀ u un, xi.base.units[u]? = some un → Spec.UnitComplete xi.base (xi.ext u) un) ∧ Spec.BasinComplete xi.base := by
  have hW := (c57_builds_iff hd).1 ⟨m, h⟩
  have hc := build_create h
  have hok := create_ok hd hc
  have hlen := basinBricks_length hc
  have hs : ∀ (k : ℕ) (s : Split), xi.base.basin.basinSplits[k]? = some s →
      ((match buildSplitter s.type with
      | .ok sc => splitValid (K := K) sc (m.net.outputs (.basinSplit k) 0).length [] none
      | _ => false) = true ↔ Spec.SplitCount s ∧ s.type ≠ "snow_rain:cemaneige") := by
    intro k s hk
    obtain ⟨sc, hsc⟩ := hW.splits s (List.mem_of_getElem? hk)
    simp only [buildSplitter_class hsc]
    refine (splitValid_iff hsc (c57_basin_splitter_outputs hd h hk).length_eq _ _).trans ?_
    simp [Spec.CemaNeigeFed]
  simp only [valid, Bool.and_eq_true, List.all_eq_true, Bool.not_eq_true', List.isEmpty_eq_false_iff]
  constructor
  · rintro ⟨⟨⟨h0, h1⟩, h2⟩, h3⟩
    have hbs : ∀ b ∈ xi.base.basin.basinBricks,
        (∃ p ∈ b.procs, Spec.WorksOn p.type b.type (Spec.ownStore b.type)) ∧ (∀ p ∈ b.procs, ∀ v, ¬ Spec.Driven p.type v) ∧
        (∀ p ∈ b.procs, p.type ∉ Spec.lateralNames → p.type ∉ Spec.atmosphereNames → p.outs.length = 1) ∧
        (∀ (j : ℕ) (p : Proc), b.procs[j]? = some p → p.type = "outflow:direct" →
          ∀ (k : ℕ) (p' : Proc), b.procs[k]? = some p' → k ≠ j → ¬ Spec.WorksOn p'.type b.type .water) ∧
        (∀ p ∈ b.procs, p.type = "outflow:snow_holding" → b.type = "snowpack") := fun b hb => by
      obtain ⟨i, hi⟩ := List.getElem?_of_mem hb
      obtain ⟨bb, hbb, hcb⟩ := hok.get hi
      exact (brickValid_basin hd h hi hcb).1 (h2 (bb, i) (List.mem_zipIdx_iff_getElem?.2 hbb))
    refine ⟨h0, fun u un hu => ?_, fun b hb => (hbs b hb).1, fun b hb => (hbs b hb).2.1, fun b hb => (hbs b hb).2.2.1,
      fun b hb => (hbs b hb).2.2.2.1, fun b hb => (hbs b hb).2.2.2.2, fun s hsm => ?_⟩
    · obtain ⟨bu, hbu, hU⟩ := hok.unit hu
      have := h1 (un, u) (List.mem_zipIdx_iff_getElem?.2 hu)
      simp only [hbu] at this
      exact (unitValid_iff hd h hu hU _).1 this
    · obtain ⟨k, hk⟩ := List.getElem?_of_mem hsm
      exact (hs k s hk).1 (h3 (s, k) (List.mem_zipIdx_iff_getElem?.2 hk))
  · rintro ⟨h0, h1, hB⟩
    refine ⟨⟨⟨h0, ?_⟩, ?_⟩, ?_⟩
    · rintro ⟨un, u⟩ he
      have hu := List.mem_zipIdx_iff_getElem?.1 he
      obtain ⟨bu, hbu, hU⟩ := hok.unit hu
      simp only [hbu]
      exact (unitValid_iff hd h hu hU _).2 (h1 u un hu)
    · rintro ⟨bb, i⟩ he
      have hi := List.mem_zipIdx_iff_getElem?.1 he
      have hlt : i < xi.base.basin.basinBricks.length := hlen ▸ (List.getElem?_eq_some_iff.1 hi).1
      have hg := List.getElem?_eq_getElem hlt
      obtain ⟨bb', hbb', hcb⟩ := hok.get hg
      rw [hi] at hbb'
      cases hbb'
      have hm := List.mem_of_getElem? hg
      exact (brickValid_basin hd h hg hcb).2 ⟨hB.used _ hm, hB.undriven _ hm, hB.single _ hm, hB.alone _ hm, hB.holding _ hm⟩
    · rintro ⟨s, k⟩ he
      have hk := List.mem_zipIdx_iff_getElem?.1 he
      exact (hs k s hk).2 (hB.splits s (List.mem_of_getElem? hk))

/-- **C62 (what is accepted).**  A model without repeated names is built, connected and accepted exactly if its structure is
well formed and complete: every process and splitter has the number of outputs it needs, the forcings and properties it needs,
and the companions it needs; every brick has a process on its own store. -/
theorem c62_accepts_iff {xi : InputX K} (hd : Spec.Distinct xi.base) :
    (∃ r, prepare xi = .ok r) ↔ Spec.WellFormed xi.base ∧ Spec.Complete xi := by
  have hcon : ∀ m, build xi.base = .ok m → ((∃ fs, createAll (fun un : UnitIn K × ℕ =>
      match m.built.units[un.2]? with
      | some bu => connectUnit (xi.ext un.2) un.1 bu
      | none => .error .undefined) xi.base.units.zipIdx = .ok fs) ↔
      ∀ u un, xi.base.units[u]? = some un → Spec.UnitConnected (xi.ext u) un) := by
    intro m h
    have hok := create_ok hd (build_create h)
    have hW := (c57_builds_iff hd).1 ⟨m, h⟩
    rw [createAll_isOk]
    constructor
    · intro hh u un hu
      obtain ⟨bu, hbu, hU⟩ := hok.unit hu
      have := hh (un, u) (List.mem_zipIdx_iff_getElem?.2 hu)
      simp only [hbu] at this
      exact (connectUnit_isOk hU (hW.units u un hu).splits _).1 this
    · rintro hh ⟨un, u⟩ he
      have hu := List.mem_zipIdx_iff_getElem?.1 he
      obtain ⟨bu, hbu, hU⟩ := hok.unit hu
      simp only [hbu]
      exact (connectUnit_isOk hU (hW.units u un hu).splits _).2 (hh u un hu)
  constructor
  · rintro ⟨r, hr⟩
    simp only [prepare, bind_ok] at hr
    obtain ⟨m, hm, -, hcb, fs, hfs, hr⟩ := hr
    split at hr
    · obtain ⟨v0, v1, v2⟩ := (valid_iff hd hm).1 ‹_›
      exact ⟨(c57_builds_iff hd).1 ⟨m, hm⟩, v0, (hcon m hm).1 ⟨fs, hfs⟩, v1, v2⟩
    · cases hr
  · rintro ⟨hW, hC⟩
    obtain ⟨m, hm⟩ := (c57_builds_iff hd).2 hW
    obtain ⟨fs, hfs⟩ := (hcon m hm).2 hC.connected
    have hc := build_create hm
    obtain ⟨w, hw⟩ := (connectBasin_isOk (create_ok hd hc) (basinBricks_length hc)).2 fun b hb p hp ht =>
      hC.basin.undriven b hb p hp .temperature (.inr (.inl ⟨rfl, by rw [ht]; decide⟩))
    simp only [prepare, bind_ok]
    exact ⟨(m, fs), m, hm, w, hw, fs, hfs, if_pos ((valid_iff hd hm).2 ⟨hC.exists_unit, hC.units, hC.basin⟩)⟩

end

end HB
