import Verif.Props.Wiring

/-!
# C57, continued: splitters, sub-basin, lateral outputs, attachment, links, when building succeeds
-/

set_option linter.unusedSectionVars false

namespace HB

open Names Wire

variable {K : Type} [Field K]

/-! ### Splitters and sub-basin -/

/-- **C57 (unit splitters).**  The outputs of a splitter of a unit are, in order, exactly the declared ones. -/
theorem c57_splitter_outputs {inp : Input K} {m : Wire.Model K} (hd : Spec.Distinct inp) (h : build inp = .ok m) {u : ℕ}
    {un : UnitIn K} (hu : inp.units[u]? = some un) {i : ℕ} {s : Split} (hs : un.str.unitSplits[i]? = some s) :
    List.Forall₂ (fun f o => Spec.WiredSplit inp u un o f) (m.net.outputs (.unitSplit u i) 0) s.outs := by
  obtain ⟨nb, ns, us, hP⟩ := build_parts h
  have hok := create_ok hd hP.created
  obtain ⟨bu, hbu, hU⟩ := hok.unit hu
  obtain ⟨a, b, ha, hb, hout⟩ := hP.unit hu hbu
  rw [hout _ 0 (.inr ⟨i, rfl⟩), List.filter_append]
  have h0 : a.outs.filter (fun f => decide (f.src = .unitSplit u i ∧ f.proc = 0)) = [] := by
    rw [List.filter_eq_nil_iff]
    intro x hx
    obtain ⟨_, h1, _⟩ := wireUnitBricks_src ha x hx
    simp [h1]
  rw [h0, List.nil_append]
  have hz : un.str.unitSplits.zipIdx[i]? = some (s, i) := by simp [hs]
  have hsrc : ∀ {i' : ℕ} {l : List Out} {n : Net K}, concatM (wireUnitSplitOut m.built u un bu (.unitSplit u i')) l = .ok n →
      ∀ x ∈ n.outs, x.src = .unitSplit u i' ∧ x.proc = 0 := by
    intro i' l n hn x hx
    obtain ⟨o, _, n', hn', hx⟩ := (concatM_mem hn).1 hx
    exact wireUnitSplitOut_src hn' x hx
  obtain ⟨n, hn, he⟩ := concatM_filter (P := fun f => decide (f.src = .unitSplit u i ∧ f.proc = 0)) hb hz (by
    rintro k' ⟨s', i'⟩ hk' hne n' hn' x hx
    have hj : i' = k' := by
      rw [List.getElem?_zipIdx, Option.map_eq_some_iff] at hk'
      obtain ⟨_, _, h2⟩ := hk'
      simp only [Prod.mk.injEq] at h2
      omega
    simp [(hsrc hn' x hx).1, hj, hne])
  rw [he, filter_all (hsrc hn)]
  exact concatM_forall₂ hn fun o _ m' hm' => wireUnitSplitOut_ok hok hU hm'

/-- The outputs of the sub-basin come from the wiring of the sub-basin. -/
theorem Parts.inBasin {inp : Input K} {m : Wire.Model K} {nb ns : Net K} {us : List (List Link × Net K)}
    (h : Parts inp m nb ns us) (c : Comp) (j : ℕ) (hc : (∃ i, c = .basinBrick i) ∨ (∃ i, c = .basinSplit i)) :
    m.net.outputs c j = (nb.outs ++ ns.outs).filter fun f => decide (f.src = c ∧ f.proc = j) := by
  rw [Net.outputs, h.outs, List.filter_append]
  have h0 : (us.flatMap (·.2.outs)).filter (fun f => decide (f.src = c ∧ f.proc = j)) = [] := by
    rw [List.filter_eq_nil_iff]
    intro x hx
    obtain ⟨r, hr, hx⟩ := List.mem_flatMap.1 hx
    obtain ⟨k, hk⟩ := List.getElem?_of_mem hr
    obtain ⟨⟨un', u'⟩, hz', hw'⟩ := createAll_get' h.units hk
    simp only [wireUnit] at hw'
    split at hw'
    · cases hw'
    · simp only [bind_ok] at hw'
      obtain ⟨l', _, a', ha', b', hb', he'⟩ := hw'
      cases he'
      rcases List.mem_append.1 hx with hx | hx
      · obtain ⟨i, h1, _⟩ := wireUnitBricks_src ha' x hx
        rcases hc with ⟨_, rfl⟩ | ⟨_, rfl⟩ <;> simp [h1]
      · obtain ⟨i, _, h1, _⟩ := wireUnitSplits_src hb' x hx
        rcases hc with ⟨_, rfl⟩ | ⟨_, rfl⟩ <;> simp [h1]
  rw [h0, List.append_nil]

/-- **C57 (sub-basin processes).**  The same for the processes of the sub-basin. -/
theorem c57_basin_outputs {inp : Input K} {m : Wire.Model K} (hd : Spec.Distinct inp) (h : build inp = .ok m)
    {i : ℕ} {b : Brick} (hb : inp.basin.basinBricks[i]? = some b) {j : ℕ} {p : Proc} (hp : b.procs[j]? = some p) :
    (p.type ∈ Spec.atmosphereNames → ∃ f, m.net.outputs (.basinBrick i) j = [f] ∧ Spec.ToAir f) ∧
    (p.type ∉ Spec.atmosphereNames →
      List.Forall₂ (fun f o => Spec.WiredBasin inp o f) (m.net.outputs (.basinBrick i) j) p.outs) := by
  obtain ⟨nb, ns, us, hP⟩ := build_parts h
  have hok := create_ok hd hP.created
  rw [hP.inBasin _ j (.inl ⟨i, rfl⟩), List.filter_append]
  have h0 : ns.outs.filter (fun f => decide (f.src = .basinBrick i ∧ f.proc = j)) = [] := by
    rw [List.filter_eq_nil_iff]
    intro x hx
    obtain ⟨_, _, h1, _⟩ := wireBasinSplits_src hP.basinSplit x hx
    simp [h1]
  rw [h0, List.append_nil]
  obtain ⟨bb, hbb, hcb⟩ := hok.get hb
  obtain ⟨pc, hpc, hname⟩ := createBrick_proc hcb hp
  have hz : inp.basin.basinBricks.zipIdx[i]? = some (b, i) := by simp [hb]
  obtain ⟨n1, hn1, he1⟩ := concatM_filter (P := fun f => decide (f.src = .basinBrick i ∧ f.proc = j)) hP.basin hz (by
    rintro k' ⟨b', i'⟩ hk' hne n' hn' x hx
    have hj : i' = k' := by
      rw [List.getElem?_zipIdx, Option.map_eq_some_iff] at hk'
      obtain ⟨_, _, h2⟩ := hk'
      simp only [Prod.mk.injEq] at h2
      omega
    split at hn'
    · cases hn'
    · obtain ⟨⟨p', j'⟩, hp', m', hm', hx⟩ := (concatM_mem hn').1 hx
      split at hm'
      · cases hm'
      · obtain ⟨h1, _⟩ := wireBasinProc_src hm' x hx
        simp [h1, hj, hne])
  rw [he1]
  simp only [hbb] at hn1
  have hz : b.procs.zipIdx[j]? = some (p, j) := by simp [hp]
  obtain ⟨n2, hn2, he2⟩ := concatM_filter (P := fun f => decide (f.src = .basinBrick i ∧ f.proc = j)) hn1 hz (by
    rintro k' ⟨p2, j2⟩ hk' hne n2 hn2 x hx
    have hj : j2 = k' := by
      rw [List.getElem?_zipIdx, Option.map_eq_some_iff] at hk'
      obtain ⟨_, _, h2⟩ := hk'
      simp only [Prod.mk.injEq] at h2
      omega
    split at hn2
    · cases hn2
    · have hs := (wireBasinProc_src hn2 x hx).2
      simp [hs, hj, hne])
  rw [he2]
  simp only [hpc] at hn2
  rw [filter_all (wireBasinProc_src hn2)]
  constructor
  · intro hat
    rw [if_pos ((toAtmosphere_iff hname).2 hat)] at hn2
    cases hn2
    exact ⟨_, rfl, rfl, rfl, ⟨rfl, rfl⟩, rfl⟩
  · intro hat
    rw [if_neg fun hh => hat ((toAtmosphere_iff hname).1 hh)] at hn2
    refine concatM_forall₂ hn2 fun o _ m' hm' => ?_
    obtain ⟨f, h1, _, _, h2⟩ := wireBasinOut_ok hok hm'
    exact ⟨f, h1, h2⟩

/-- **C57 (sub-basin splitters).** -/
theorem c57_basin_splitter_outputs {inp : Input K} {m : Wire.Model K} (hd : Spec.Distinct inp) (h : build inp = .ok m)
    {i : ℕ} {s : Split} (hs : inp.basin.basinSplits[i]? = some s) :
    List.Forall₂ (fun f o => Spec.WiredBasin inp o f) (m.net.outputs (.basinSplit i) 0) s.outs := by
  obtain ⟨nb, ns, us, hP⟩ := build_parts h
  have hok := create_ok hd hP.created
  rw [hP.inBasin _ 0 (.inr ⟨i, rfl⟩), List.filter_append]
  have h0 : nb.outs.filter (fun f => decide (f.src = .basinSplit i ∧ f.proc = 0)) = [] := by
    rw [List.filter_eq_nil_iff]
    intro x hx
    obtain ⟨_, _, _, _, h1, _⟩ := wireBasinBricks_src hP.basin x hx
    simp [h1]
  rw [h0, List.nil_append]
  have hz : inp.basin.basinSplits.zipIdx[i]? = some (s, i) := by simp [hs]
  have hsrc : ∀ {i' : ℕ} {l : List Out} {n : Net K}, concatM (wireBasinSplitOut m.built (.basinSplit i')) l = .ok n →
      ∀ x ∈ n.outs, x.src = .basinSplit i' ∧ x.proc = 0 := by
    intro i' l n hn x hx
    obtain ⟨o, _, n', hn', hx⟩ := (concatM_mem hn).1 hx
    exact wireBasinSplitOut_src hn' x hx
  obtain ⟨n, hn, he⟩ := concatM_filter (P := fun f => decide (f.src = .basinSplit i ∧ f.proc = 0)) hP.basinSplit hz (by
    rintro k' ⟨s', i'⟩ hk' hne n' hn' x hx
    have hj : i' = k' := by
      rw [List.getElem?_zipIdx, Option.map_eq_some_iff] at hk'
      obtain ⟨_, _, h2⟩ := hk'
      simp only [Prod.mk.injEq] at h2
      omega
    simp [(hsrc hn' x hx).1, hj, hne])
  rw [he, filter_all (hsrc hn)]
  refine concatM_forall₂ hn fun o _ m' hm' => ?_
  obtain ⟨f, h1, _, _, h2⟩ := wireBasinSplitOut_ok hok hm'
  exact ⟨f, h1, h2⟩

/-- **C57 (nothing else).**  Every flux of the built model is an output of a declared process or splitter. -/
theorem c57_only_declared {inp : Input K} {m : Wire.Model K} (hd : Spec.Distinct inp) (h : build inp = .ok m) :
    ∀ f ∈ m.net.outs,
      (∃ u un i b p, f.src = .unitBrick u i ∧ inp.units[u]? = some un ∧ un.str.unitBricks[i]? = some b ∧
        b.procs[f.proc]? = some p) ∨
      (∃ u un i s, f.src = .unitSplit u i ∧ f.proc = 0 ∧ inp.units[u]? = some un ∧ un.str.unitSplits[i]? = some s) ∨
      (∃ i b p, f.src = .basinBrick i ∧ inp.basin.basinBricks[i]? = some b ∧ b.procs[f.proc]? = some p) ∨
      (∃ i s, f.src = .basinSplit i ∧ f.proc = 0 ∧ inp.basin.basinSplits[i]? = some s) := by
  obtain ⟨nb, ns, us, hP⟩ := build_parts h
  have hok := create_ok hd hP.created
  intro f hf
  rw [hP.outs] at hf
  rcases List.mem_append.1 hf with hf | hf
  · rcases List.mem_append.1 hf with hf | hf
    · obtain ⟨i, j, b, p, h1, h2, h3, h4⟩ := wireBasinBricks_src hP.basin f hf
      exact .inr (.inr (.inl ⟨i, b, p, h1, h3, by rw [h2]; exact h4⟩))
    · obtain ⟨i, s, h1, h2, h3⟩ := wireBasinSplits_src hP.basinSplit f hf
      exact .inr (.inr (.inr ⟨i, s, h1, h2, h3⟩))
  · obtain ⟨r, hr, hx⟩ := List.mem_flatMap.1 hf
    obtain ⟨k, hk⟩ := List.getElem?_of_mem hr
    obtain ⟨⟨un, u⟩, hz, hw⟩ := createAll_get' hP.units hk
    have hu : inp.units[u]? = some un := List.mem_zipIdx_iff_getElem?.1 (List.mem_of_getElem? hz)
    obtain ⟨bu, hbu, hU⟩ := hok.unit hu
    simp only [wireUnit, hbu, bind_ok] at hw
    obtain ⟨l', _, a', ha', b', hb', he'⟩ := hw
    cases he'
    rcases List.mem_append.1 hx with hx | hx
    · obtain ⟨i, h1, b, _, p, hp, hi⟩ := wireUnitBricks_src ha' f hx
      obtain ⟨b2, hb2, hn⟩ := hU.find.1 hi
      rename_i hbm
      obtain ⟨k2, hk2⟩ := List.getElem?_of_mem hbm
      have : bu.find b.name = some k2 := hU.find.2 ⟨b, hk2, rfl⟩
      rw [this] at hi
      cases hi
      exact .inl ⟨u, un, i, b, p, h1, hu, hk2, hp⟩
    · obtain ⟨i, s, h1, h2, h3⟩ := wireUnitSplits_src hb' f hx
      exact .inr (.inl ⟨u, un, i, s, h1, h2, hu, h3⟩)

/-! ### Attachment -/

theorem agrees_toBrick {cls : BrickClass} {c : Comp} {f : Wire.Flux K} {n : Net K} (hf : f.dst = .comp c)
    (h : toBrick cls c f = .ok n) : n.Agrees := by
  obtain ⟨rfl, _⟩ := toBrick_outs h
  constructor <;> simp [hf]

theorem wireUnitOut_agrees {bt : Built K} {u : ℕ} {un : UnitIn K} {bu : BuiltUnit} {cls : BrickClass} {src : Comp} {j : ℕ}
    {p : ProcClass} {o : Out} {n : Net K} (h : wireUnitOut bt u un bu cls src j p o = .ok n) : n.Agrees := by
  unfold wireUnitOut at h
  split at h
  · cases h; exact ⟨rfl, rfl⟩
  · split at h
    · refine concatM_agrees h fun cn _ m hm => ?_
      split at hm
      · cases hm
      · split at hm
        · refine concatM_agrees hm fun i _ m' hm' => ?_
          split at hm'
          · exact agrees_toBrick rfl hm'
          · cases hm'
        · cases hm
    · split at h
      · exact agrees_toBrick rfl h
      · split at h
        · cases h; exact ⟨rfl, rfl⟩
        · cases h

theorem wireUnitSplitOut_agrees {bt : Built K} {u : ℕ} {un : UnitIn K} {bu : BuiltUnit} {src : Comp} {o : Out} {n : Net K}
    (h : wireUnitSplitOut bt u un bu src o = .ok n) : n.Agrees := by
  unfold wireUnitSplitOut at h
  split at h
  · cases h; exact ⟨rfl, rfl⟩
  · split at h
    · exact agrees_toBrick rfl h
    · split at h
      · cases h; exact ⟨rfl, rfl⟩
      · cases h

theorem wireBasinOut_agrees {bt : Built K} {src : Comp} {j : ℕ} {o : Out} {n : Net K}
    (h : wireBasinOut bt src j o = .ok n) : n.Agrees := by
  unfold wireBasinOut at h
  split at h
  · cases h; exact ⟨rfl, rfl⟩
  · split at h
    · split at h
      · cases h
      · exact agrees_toBrick rfl h
    · split at h
      · cases h; exact ⟨rfl, rfl⟩
      · cases h

theorem wireBasinSplitOut_agrees {bt : Built K} {src : Comp} {o : Out} {n : Net K}
    (h : wireBasinSplitOut bt src o = .ok n) : n.Agrees := by
  unfold wireBasinSplitOut at h
  split at h
  · cases h; exact ⟨rfl, rfl⟩
  · split at h
    · split at h
      · cases h
      · exact agrees_toBrick rfl h
    · split at h
      · cases h; exact ⟨rfl, rfl⟩
      · cases h

theorem build_agrees {inp : Input K} {m : Wire.Model K} (h : build inp = .ok m) : m.net.Agrees := by
  obtain ⟨nb, ns, us, hP⟩ := build_parts h
  rw [hP.net]
  have hnb : nb.Agrees := concatM_agrees hP.basin fun a _ n hn => by
    split at hn
    · cases hn
    · refine concatM_agrees hn fun a _ n hn => ?_
      split at hn
      · cases hn
      · split at hn
        · cases hn; exact ⟨rfl, rfl⟩
        · exact concatM_agrees hn fun o _ n hn => wireBasinOut_agrees hn
  have hns : ns.Agrees := concatM_agrees hP.basinSplit fun a _ n hn =>
    concatM_agrees hn fun o _ n hn => wireBasinSplitOut_agrees hn
  refine (hnb.append hns).append ?_
  have hus : ∀ r ∈ us, r.2.Agrees := by
    intro r hr
    obtain ⟨k, hk⟩ := List.getElem?_of_mem hr
    obtain ⟨⟨un, u⟩, hz, hw⟩ := createAll_get' hP.units hk
    simp only [wireUnit] at hw
    split at hw
    · cases hw
    · simp only [bind_ok] at hw
      obtain ⟨l', _, a', ha', b', hb', he'⟩ := hw
      cases he'
      refine Net.Agrees.append ?_ ?_
      · refine concatM_agrees ha' fun b _ n hn => ?_
        split at hn
        · cases hn
        · split at hn
          · cases hn
          · refine concatM_agrees hn fun pj _ n hn => ?_
            unfold wireUnitProc at hn
            split at hn
            · cases hn
            · split at hn
              · cases hn; exact ⟨rfl, rfl⟩
              · exact concatM_agrees hn fun o _ n hn => wireUnitOut_agrees hn
      · exact concatM_agrees hb' fun s _ n hn => concatM_agrees hn fun o _ n hn => wireUnitSplitOut_agrees hn
  clear hP
  induction us with
  | nil => exact agrees_empty
  | cons a l ih => exact (hus a (by simp)).append (ih fun r hr => hus r (by simp [hr]))

/-- **C57 (both ends).**  Every flux is attached at both ends: the inputs of a component are exactly, in order, the fluxes of
the model that go to it, and the outlet list is exactly the fluxes that go to the outlet. -/
theorem c57_attached {inp : Input K} {m : Wire.Model K} (h : build inp = .ok m) :
    (∀ c, m.net.inputs c = m.net.outs.filter fun f => decide (f.dst = .comp c)) ∧
    m.net.outlet = m.net.outs.filter fun f => decide (f.dst = .outlet) := by
  obtain ⟨h1, h2⟩ := build_agrees h
  constructor
  · intro c
    rw [Net.inputs, h1]
    generalize m.net.outs = l
    induction l with
    | nil => rfl
    | cons f l ih =>
      rw [List.filterMap_cons, List.filter_cons]
      cases hf : f.dst with
      | outlet => simpa [hf] using ih
      | atmosphere => simpa [hf] using ih
      | comp c' =>
        simp only [List.filter_cons]
        by_cases hc : c' = c
        · simp [hc, ih]
        · simp [hc, ih]
  · rw [h2]
    refine List.filter_congr fun f _ => ?_
    cases hf : f.dst <;> simp

/-! ### Lateral outputs -/

theorem concatM_flatMap {α : Type} {f : α → Except Err (Net K)} {g : α → List (Wire.Flux K)} {l : List α} {n : Net K}
    (h : concatM f l = .ok n) (h1 : ∀ a ∈ l, ∀ m, f a = .ok m → m.outs = g a) : n.outs = l.flatMap g := by
  induction l generalizing n with
  | nil => simp only [concatM] at h; cases h; rfl
  | cons b l ih =>
    simp only [concatM, bind_ok] at h
    obtain ⟨d, hd, r, hr, h⟩ := h
    cases h
    simp only [Net.append, List.flatMap_cons, h1 b (by simp) d hd, ih hr fun a ha => h1 a (by simp [ha])]

theorem mem_snowpacks {un : UnitIn K} {bu : BuiltUnit} (hU : UnitOK un bu) {i : ℕ} :
    i ∈ bu.snowpacks ↔ i ∈ Spec.snowpacksOf un.str := by
  simp only [BuiltUnit.snowpacks, List.mem_map, List.mem_filter, Spec.snowpacksOf, List.mem_range, decide_eq_true_eq]
  constructor
  · rintro ⟨⟨i', bb⟩, ⟨hm, hc⟩, rfl⟩
    obtain ⟨b, hb, hcb⟩ := hU.mem.1 hm
    have := (snowpack_iff (createBrick_class hcb)).1 (by simpa using hc)
    exact ⟨(List.getElem?_eq_some_iff.1 hb).1, by simp [hb, this]⟩
  · rintro ⟨hl, ht⟩
    have hb : un.str.unitBricks[i]? = some un.str.unitBricks[i] := List.getElem?_eq_getElem hl
    obtain ⟨bb, hbb, hcb⟩ := hU.get hb
    refine ⟨(i, bb), ⟨hU.mem.2 ⟨_, hb, hcb⟩, ?_⟩, rfl⟩
    rw [hb] at ht
    simp only [Option.map_some, Option.some.injEq] at ht
    simpa using (snowpack_iff (createBrick_class hcb)).2 ht

theorem snowpacks_perm {un : UnitIn K} {bu : BuiltUnit} (hU : UnitOK un bu) :
    List.Perm bu.snowpacks (Spec.snowpacksOf un.str) := by
  rw [List.perm_ext_iff_of_nodup]
  · exact fun i => mem_snowpacks hU
  · have := hU.nodup
    rw [BuiltUnit.snowpacks]
    exact List.Nodup.sublist (List.filter_sublist.map _) this
  · exact List.nodup_range.filter _

/-- **C57 (lateral outputs).**  A lateral output of a snow process becomes one flux to each snowpack of each unit connected
downslope, carrying the share of the connection. -/
theorem c57_lateral_outputs {inp : Input K} {m : Wire.Model K} (hd : Spec.Distinct inp) (h : build inp = .ok m) {u : ℕ}
    {un : UnitIn K} (hu : inp.units[u]? = some un) {i : ℕ} {b : Brick} (hb : un.str.unitBricks[i]? = some b) {j : ℕ}
    {p : Proc} (hp : b.procs[j]? = some p) (hat : p.type ∈ Spec.lateralNames) {o : Out} (ho : p.outs = [o])
    (hlat : o.target = "lateral") :
    List.Perm ((m.net.outputs (.unitBrick u i) j).map fun f => (f.dst, f.share))
      (un.lateral.flatMap fun cn => (inp.units[cn.1]?.elim [] fun r => Spec.snowpacksOf r.str).map fun k =>
        (.comp (.unitBrick cn.1 k), cn.2)) ∧
    ∀ f ∈ m.net.outputs (.unitBrick u i) j, f.content = .snow ∧ f.weighted = true ∧ f.inst = o.inst ∧
      f.static = o.static ∧ f.unitFrac = 1 := by
  obtain ⟨bu, bb, n, hok, hU, hcb, hn, he⟩ := unit_outputs_eq hd h hu hb hp
  obtain ⟨pc, hpc, hname⟩ := createBrick_proc hcb hp
  rw [he]
  unfold wireUnitProc at hn
  simp only [hpc] at hn
  have hna : toAtmosphere pc ≠ true := fun hh => by
    have h1 := (isLateral_iff hname).2 hat
    cases pc <;> simp_all [toAtmosphere, isLateral]
  rw [if_neg hna, ho] at hn
  have hn' : n.outs = (un.lateral.flatMap fun cn => (m.built.units[cn.1]?.elim [] fun r => r.snowpacks).map fun k =>
        ⟨.unitBrick u i, j, .comp (.unitBrick cn.1 k), o.content, o.inst, o.static, true, 1, cn.2⟩) ∧
      ((n.outs ≠ []) → o.content = .snow) := by
    simp only [concatM, bind_ok] at hn
    obtain ⟨d, hd', r, hr, hn⟩ := hn
    cases hr
    cases hn
    simp only [Net.append, Net.empty, List.append_nil]
    unfold wireUnitOut at hd'
    rw [if_neg (by simp [hlat]), if_pos hlat] at hd'
    refine ⟨concatM_flatMap hd' fun cn _ m' hm' => ?_, fun hne => ?_⟩
    · split at hm'
      · cases hm'
      · rename_i rcv hrcv
        split at hm'
        · rename_i hc
          simp only [hrcv, Option.elim_some]
          rw [concatM_flatMap (g := fun k => [⟨.unitBrick u i, j, .comp (.unitBrick cn.1 k), o.content, o.inst, o.static, true, 1, cn.2⟩]) hm']
          · rw [← List.map_eq_flatMap]
          · intro k _ m2 hm2
            split at hm2
            · obtain ⟨rfl, _⟩ := toBrick_outs hm2
              rfl
            · cases hm2
        · cases hm'
    · obtain ⟨x, hx⟩ := List.exists_mem_of_ne_nil _ hne
      obtain ⟨cn, _, m', hm', hx⟩ := (concatM_mem hd').1 hx
      split at hm'
      · cases hm'
      · split at hm'
        · assumption
        · cases hm'
  obtain ⟨h1, h2⟩ := hn'
  constructor
  · rw [h1, List.map_flatMap]
    refine List.Perm.flatMap_left _ fun cn hcn => ?_
    rw [List.map_map]
    cases hr : inp.units[cn.1]? with
    | none =>
      have : m.built.units[cn.1]? = none := by
        rw [List.getElem?_eq_none_iff] at hr ⊢
        rw [hok.len]
        exact hr
      simp [this]
    | some r =>
      obtain ⟨rcv, hrcv, hR⟩ := hok.unit hr
      simp only [hrcv, Option.elim_some]
      exact (snowpacks_perm hR).map _
  · intro f hf
    have hs := h2 (List.ne_nil_of_mem hf)
    rw [h1] at hf
    obtain ⟨cn, _, hf⟩ := List.mem_flatMap.1 hf
    obtain ⟨k, _, rfl⟩ := List.mem_map.1 hf
    exact ⟨hs, rfl, rfl, rfl, rfl⟩

/-! ### Links -/

theorem zipIdx_snd {α : Type} {l : List α} {k : ℕ} {e : α × ℕ} (h : l.zipIdx[k]? = some e) : e.2 = k ∧ l[k]? = some e.1 := by
  rw [List.getElem?_zipIdx, Option.map_eq_some_iff] at h
  obtain ⟨a, ha, h2⟩ := h
  subst h2
  exact ⟨by simp, ha⟩

theorem linkUnitProc_src {bt : Built K} {u : ℕ} {un : UnitIn K} {bu : BuiltUnit} {i j : ℕ} {pc : ProcClass} {p : Proc}
    {l : List Link} (h : linkUnitProc bt u un bu i j pc p = .ok l) : ∀ x ∈ l, x.src = .unitBrick u i ∧ x.proc = j := by
  intro x hx
  unfold linkUnitProc at h
  split at h
  · obtain ⟨k, hk⟩ := List.getElem?_of_mem hx
    obtain ⟨o, _, ho⟩ := createAll_get' h hk
    split at ho
    · cases ho; exact ⟨rfl, rfl⟩
    · cases ho
  · split at h
    · split at h
      · split at h
        · cases h; simp only [List.mem_singleton] at hx; subst hx; exact ⟨rfl, rfl⟩
        · cases h
      · cases h
    · cases h; cases hx

theorem linkBasin_src {inp : Input K} {bt : Built K} {l : List Link} (h : linkBasin inp bt = .ok l) :
    ∀ x ∈ l, ∃ i, x.src = .basinBrick i := by
  intro x hx
  simp only [linkBasin, bind_ok] at h
  obtain ⟨r, hr, h⟩ := h
  cases h
  obtain ⟨y, hy, hx⟩ := List.mem_flatten.1 hx
  obtain ⟨k, hk⟩ := List.getElem?_of_mem hy
  obtain ⟨⟨b, i⟩, _, ho⟩ := createAll_get' hr hk
  split at ho
  · cases ho
  · simp only [bind_ok] at ho
    obtain ⟨r2, hr2, ho⟩ := ho
    cases ho
    obtain ⟨z, hz, hx⟩ := List.mem_flatten.1 hx
    obtain ⟨k2, hk2⟩ := List.getElem?_of_mem hz
    obtain ⟨⟨p, j⟩, _, ho2⟩ := createAll_get' hr2 hk2
    split at ho2
    · cases ho2
    · split at ho2
      · cases ho2
      · split at ho2
        · split at ho2
          · split at ho2
            · cases ho2; simp only [List.mem_singleton] at hx; subst hx; exact ⟨_, rfl⟩
            · cases ho2
          · cases ho2
        · cases ho2; cases hx

/-- The links of a process. -/
def Wire.Model.linksOf (m : Wire.Model K) (c : Comp) (j : ℕ) : List Link :=
  m.links.filter fun l => decide (l.src = c ∧ l.proc = j)

theorem links_eq {inp : Input K} {m : Wire.Model K} (hd : Spec.Distinct inp) (h : build inp = .ok m) {u : ℕ}
    {un : UnitIn K} (hu : inp.units[u]? = some un) {i : ℕ} {b : Brick} (hb : un.str.unitBricks[i]? = some b) {j : ℕ}
    {p : Proc} (hp : b.procs[j]? = some p) :
    ∃ bu bb pc l, BuiltOK inp m.built ∧ UnitOK un bu ∧ createBrick b = .ok bb ∧ bb.procs[j]? = some pc ∧
      p.type ∈ Spec.processNames pc ∧ linkUnitProc m.built u un bu i j pc p = .ok l ∧ m.linksOf (.unitBrick u i) j = l := by
  have h' := h
  simp only [build, bind_ok] at h
  obtain ⟨bt, hbt, lb, hlb, nb, hnb, ns, hns, us, hus, h⟩ := h
  cases h
  have hok := create_ok hd hbt
  obtain ⟨bu, hbu, hU⟩ := hok.unit hu
  obtain ⟨bb, hbb, hcb⟩ := hU.get hb
  obtain ⟨pc, hpc, hname⟩ := createBrick_proc hcb hp
  have hfind : bu.find b.name = some i := hU.find.2 ⟨b, hb, rfl⟩
  have hz : inp.units.zipIdx[u]? = some (un, u) := by simp [hu]
  obtain ⟨r, hr, hw⟩ := createAll_get hus hz
  simp only [wireUnit, hbu, bind_ok] at hw
  obtain ⟨l, hl, a, ha, b', hb', he⟩ := hw
  simp only [linkUnit, bind_ok] at hl
  obtain ⟨ll, hll, hl⟩ := hl
  cases hl
  obtain ⟨l1, hl1, hw1⟩ := createAll_get hll hb
  simp only [hfind, hbb, bind_ok] at hw1
  obtain ⟨l2, hl2, hw1⟩ := hw1
  cases hw1
  have hz2 : b.procs.zipIdx[j]? = some (p, j) := by simp [hp]
  obtain ⟨l3, hl3, hw3⟩ := createAll_get hl2 hz2
  simp only [hpc] at hw3
  refine ⟨bu, bb, pc, l3, hok, hU, hcb, hpc, hname, hw3, ?_⟩
  simp only [Wire.Model.linksOf, List.filter_append]
  have h0 : lb.filter (fun l => decide (l.src = .unitBrick u i ∧ l.proc = j)) = [] := by
    rw [List.filter_eq_nil_iff]
    intro x hx
    obtain ⟨_, h1⟩ := linkBasin_src hlb x hx
    simp [h1]
  -- sources of the links of a brick
  have hsrcB : ∀ {u' : ℕ} {un' : UnitIn K} {bu' : BuiltUnit} {i' : ℕ} {bb' : BuiltBrick} {ps : List Proc} {lps : List (List Link)},
      createAll (fun pj : Proc × ℕ => match bb'.procs[pj.2]? with
        | none => .error .undefined
        | some pc => linkUnitProc bt u' un' bu' i' pj.2 pc pj.1) ps.zipIdx = .ok lps →
      ∀ (k : ℕ) (y : List Link), lps[k]? = some y → ∀ x ∈ y, x.src = .unitBrick u' i' ∧ x.proc = k := by
    intro u' un' bu' i' bb' ps lps hlps k y hk x hx
    obtain ⟨⟨p', j'⟩, hz', ho⟩ := createAll_get' hlps hk
    obtain ⟨rfl, _⟩ := zipIdx_snd hz'
    split at ho
    · cases ho
    · exact linkUnitProc_src ho x hx
  rw [h0, List.nil_append, List.flatten_eq_flatMap,
    flatMap_filter_one (k := u) (a := ll.flatten) (by rw [List.getElem?_map, hr]; cases he; rfl)]
  · rw [id, List.flatten_eq_flatMap, flatMap_filter_one hl1]
    · rw [id, List.flatten_eq_flatMap, flatMap_filter_one hl3]
      · rw [id]
        exact List.filter_eq_self.2 fun x hx => by simp [linkUnitProc_src hw3 x hx]
      · intro k' y hk' hne x hx
        obtain ⟨_, h2⟩ := hsrcB hl2 k' y hk' x hx
        simp [h2, hne]
    · intro k' y hk' hne x hx
      obtain ⟨b2, hb2, ho⟩ := createAll_get' hll hk'
      have hf2 : bu.find b2.name = some k' := hU.find.2 ⟨b2, hb2, rfl⟩
      obtain ⟨bb2, hbb2, _⟩ := hU.get hb2
      simp only [hf2, hbb2, bind_ok] at ho
      obtain ⟨lps, hlps, ho⟩ := ho
      cases ho
      obtain ⟨z, hz, hx⟩ := List.mem_flatten.1 hx
      obtain ⟨k2, hk2⟩ := List.getElem?_of_mem hz
      obtain ⟨h1, _⟩ := hsrcB hlps k2 z hk2 x hx
      simp [h1, hne]
  · intro k' y hk' hne x hx
    rw [List.getElem?_map, Option.map_eq_some_iff] at hk'
    obtain ⟨r', hr', rfl⟩ := hk'
    obtain ⟨⟨un', u'⟩, hz', hw'⟩ := createAll_get' hus hr'
    obtain ⟨rfl, _⟩ := zipIdx_snd hz'
    simp only [wireUnit] at hw'
    split at hw'
    · cases hw'
    · simp only [bind_ok] at hw'
      obtain ⟨l', hl', a', ha', b', hb', he'⟩ := hw'
      cases he'
      simp only [linkUnit, bind_ok] at hl'
      obtain ⟨ll', hll', hl'⟩ := hl'
      cases hl'
      obtain ⟨z, hz, hx⟩ := List.mem_flatten.1 hx
      obtain ⟨k2, hk2⟩ := List.getElem?_of_mem hz
      obtain ⟨b2, _, ho⟩ := createAll_get' hll' hk2
      split at ho
      · cases ho
      · split at ho
        · cases ho
        · simp only [bind_ok] at ho
          obtain ⟨lps, hlps, ho⟩ := ho
          cases ho
          obtain ⟨z, hz, hx⟩ := List.mem_flatten.1 hx
          obtain ⟨k2, hk2⟩ := List.getElem?_of_mem hz
          obtain ⟨h1, _⟩ := hsrcB hlps k2 z hk2 x hx
          simp [h1]
          intro h; exact (hne h).elim

/-- **C57 (infiltration).**  An infiltration process is given exactly one brick to look at, and it is the brick its water
goes to. -/
theorem c57_links {inp : Input K} {m : Wire.Model K} (hd : Spec.Distinct inp) (h : build inp = .ok m) {u : ℕ}
    {un : UnitIn K} (hu : inp.units[u]? = some un) {i : ℕ} {b : Brick} (hb : un.str.unitBricks[i]? = some b) {j : ℕ}
    {p : Proc} (hp : b.procs[j]? = some p) (hinf : p.type ∈ Spec.infiltrationNames)
    (ht : ∀ o ∈ p.outs, o.target ≠ "outlet" ∧ o.target ≠ "lateral") :
    ∃ f c, m.net.outputs (.unitBrick u i) j = [f] ∧ f.dst = .comp c ∧
      (m.linksOf (.unitBrick u i) j).map (·.target) = [c] := by
  obtain ⟨bu, bb, pc, l, hok, hU, hcb, hpc, hname, hl, he⟩ := links_eq hd h hu hb hp
  have hone := (linksOne_iff hname).2 hinf
  have hmany : linksMany pc = false := by cases pc <;> simp_all [linksOne, linksMany]
  have hatm : p.type ∉ Spec.atmosphereNames := fun hh => by
    have := (toAtmosphere_iff hname).2 hh
    cases pc <;> simp_all [linksOne, toAtmosphere]
  unfold linkUnitProc at hl
  simp only [hmany, Bool.false_eq_true, if_false, hone, if_true] at hl
  split at hl
  · rename_i o ho
    split at hl
    · rename_i c cls out hbt
      cases hl
      have hF := c57_unit_outputs hd h hu hb hp hatm fun o ho => (ht o ho).2
      rw [ho] at hF
      obtain ⟨f, rest, hW, hrest, hfs⟩ := List.forall₂_cons_right_iff.1 hF
      cases hrest
      obtain ⟨b', tb, hbn, _⟩ := brickTarget_some hok hU hbt
      refine ⟨f, c, hfs, ?_, by rw [he]; rfl⟩
      have hdst := hW.dest
      generalize f.dst = d at hdst
      cases hdst with
      | outlet hh => exact ((ht o (by simp [ho])).1 hh).elim
      | brick _ hb2 => rw [(brickNamed_unique hd (List.mem_of_getElem? hu) hbn hb2).1]
      | split _ hno _ => exact (hno _ _ hbn).elim
    · cases hl
  · cases hl

/-- The number of outputs of a brick towards a name. -/
def Spec.outputsTo (b : Brick) (t : String) : ℕ := (b.procs.flatMap (·.outs)).countP fun o => decide (o.target = t)

theorem coversFeeding_count {un : UnitIn K} {bu : BuiltUnit} (hd : Spec.DistinctUnit un.str) (hU : UnitOK un bu) (t : String)
    {k : ℕ} {b : Brick} (hk : un.str.unitBricks[k]? = some b) :
    (coversFeeding un bu t).count k =
      if b.type ∈ Spec.brickNames .genericLandCover ∨ b.type = "glacier" then Spec.outputsTo b t else 0 := by
  have key : ∀ (l : List Brick) (s : ℕ), (∀ (i : ℕ) (b : Brick), l[i]? = some b → un.str.unitBricks[s + i]? = some b) →
      (l.flatMap fun b =>
        match bu.find b.name with
        | none => []
        | some i =>
          match bu.get i with
          | none => []
          | some bb =>
            if bb.cls = .genericLandCover ∨ bb.cls = .glacier then
              b.procs.flatMap fun p => p.outs.flatMap fun o => if o.target = t then [i] else []
            else []).count k =
      if k < s ∨ s + l.length ≤ k then 0 else
        if b.type ∈ Spec.brickNames .genericLandCover ∨ b.type = "glacier" then Spec.outputsTo b t else 0 := by
    intro l
    induction l with
    | nil => intro s _; simp
    | cons a l ih =>
      intro s hs
      have ha : un.str.unitBricks[s]? = some a := hs 0 a (by simp)
      obtain ⟨bb, hbb, hcb⟩ := hU.get ha
      have hf : bu.find a.name = some s := hU.find.2 ⟨a, ha, rfl⟩
      have ih' := ih (s + 1) (fun i b hi => by
        have := hs (i + 1) b (by simpa using hi)
        rw [show s + 1 + i = s + (i + 1) by omega]
        exact this)
      rw [List.flatMap_cons, List.count_append, ih']
      simp only [hf, hbb]
      have hcls := createBrick_class hcb
      have hiff : (bb.cls = .genericLandCover ∨ bb.cls = .glacier) ↔
          (a.type ∈ Spec.brickNames .genericLandCover ∨ a.type = "glacier") := by
        generalize bb.cls = c at hcls
        cases c <;> simp only [Spec.brickNames, List.mem_cons, List.not_mem_nil, or_false] at hcls <;>
          first
          | (rw [hcls]; decide)
          | (rcases hcls with h | h | h | h <;> rw [h] <;> decide)
      have hcnt : ∀ (ps : List Proc), (ps.flatMap fun p => p.outs.flatMap fun o => if o.target = t then [s] else []).count k
          = if k = s then (ps.flatMap (·.outs)).countP (fun o => decide (o.target = t)) else 0 := by
        have hout : ∀ (os : List Out), (os.flatMap fun o => if o.target = t then [s] else []).count k
          = if k = s then os.countP (fun o => decide (o.target = t)) else 0 := by
          intro os
          induction os with
          | nil => simp
          | cons o os ih =>
            rw [List.flatMap_cons, List.count_append, ih, List.countP_cons]
            by_cases h1 : o.target = t <;> by_cases h2 : k = s
            · simp [h1, h2]; omega
            · have : s ≠ k := fun h => h2 h.symm
              simp [h1, h2, this]
            · simp [h1, h2]
            · simp [h1, h2]
        intro ps
        induction ps with
        | nil => simp
        | cons q ps ih =>
          rw [List.flatMap_cons, List.count_append, ih, hout, List.flatMap_cons, List.countP_append]
          split_ifs <;> rfl
      by_cases hks : k = s
      · subst hks
        rw [ha] at hk
        cases hk
        have h1 : ¬ (k < k ∨ k + (b :: l).length ≤ k) := by simp
        have h2 : k < k + 1 ∨ k + 1 + l.length ≤ k := .inl (by omega)
        rw [if_neg h1, if_pos h2, Nat.add_zero]
        by_cases hc : bb.cls = .genericLandCover ∨ bb.cls = .glacier
        · rw [if_pos hc, if_pos (hiff.1 hc), hcnt, if_pos rfl]; rfl
        · rw [if_neg hc, if_neg fun hh => hc (hiff.2 hh)]; rfl
      · have h0 : (if bb.cls = .genericLandCover ∨ bb.cls = .glacier then
              a.procs.flatMap fun p => p.outs.flatMap fun o => if o.target = t then [s] else []
            else []).count k = 0 := by
          split
          · rw [hcnt, if_neg hks]
          · rfl
        rw [h0, Nat.zero_add]
        have : (k < s + 1 ∨ s + 1 + l.length ≤ k) ↔ (k < s ∨ s + (a :: l).length ≤ k) := by
          simp only [List.length_cons]; omega
        simp only [this]
  have := key un.str.unitBricks 0 (by simp)
  refine Eq.trans this (if_neg ?_)
  have := (List.getElem?_eq_some_iff.1 hk).1
  omega

/-- **C57 (capillary rise).**  A capillary process of a unit is given one brick per declared output, the one named, with the
land covers that feed it, each as many times as it has outputs towards it. -/
theorem c57_capillary_links {inp : Input K} {m : Wire.Model K} (hd : Spec.Distinct inp) (h : build inp = .ok m) {u : ℕ}
    {un : UnitIn K} (hu : inp.units[u]? = some un) {i : ℕ} {b : Brick} (hb : un.str.unitBricks[i]? = some b) {j : ℕ}
    {p : Proc} (hp : b.procs[j]? = some p) (hcap : p.type = "capillary:hbv") :
    List.Forall₂ (fun l o => (∃ b', Spec.BrickNamed inp u un o.target l.target b') ∧
      ∀ k b', un.str.unitBricks[k]? = some b' → l.covers.count k =
        if b'.type ∈ Spec.brickNames .genericLandCover ∨ b'.type = "glacier" then Spec.outputsTo b' o.target else 0)
      (m.linksOf (.unitBrick u i) j) p.outs := by
  obtain ⟨bu, bb, pc, l, hok, hU, hcb, hpc, hname, hl, he⟩ := links_eq hd h hu hb hp
  have hmany := (linksMany_iff hname).2 hcap
  rw [he]
  unfold linkUnitProc at hl
  simp only [hmany, if_true] at hl
  have hF := createAll_ok.1 hl
  refine List.Forall₂.flip (hF.imp fun o l hol => ?_)
  split at hol
  · rename_i c cls out hbt
    cases hol
    obtain ⟨b', _, hbn, _⟩ := brickTarget_some hok hU hbt
    exact ⟨⟨b', hbn⟩, fun k b' hk => coversFeeding_count (hd.1 un (List.mem_of_getElem? hu)) hU _ hk⟩
  · cases hol

end HB
