import Verif.Props.Wiring2

/-!
# C57, continued: exactly the well-formed structures can be built
-/

set_option linter.unusedSectionVars false

namespace HB

open Names Wire

variable {K : Type} [Field K]

theorem ofRes_isOk {α : Type} {r : Res α} : (∃ a, ofRes r = .ok a) ↔ ∃ a, r = .ok a := by
  cases r <;> simp [ofRes]

theorem ofRes_ok {α : Type} {r : Res α} {a : α} : ofRes r = .ok a ↔ r = .ok a := by
  cases r <;> simp [ofRes]

theorem categoryOf_spec {s : String} {c : BrickClass} (h : s ∈ Spec.brickNames c) : categoryOf c = Spec.kindOf s := by
  cases c <;> simp only [Spec.brickNames, List.mem_cons, List.not_mem_nil, or_false] at h <;>
    first
    | (subst h; decide)
    | (rcases h with h | h | h | h <;> subst h <;> decide)

theorem buildProcess_isOk {s : String} {c : Category} :
    (∃ r, buildProcess s c = .ok r) ↔ ∃ pc st, s ∈ Spec.processNames pc ∧ Spec.storeFor pc c = some st := by
  constructor
  · rintro ⟨r, h⟩
    unfold buildProcess at h
    split at h
    · rename_i p hp
      exact ⟨p.1, p.2, ((c52_processes s).1 c p.1 p.2).1 hp⟩
    · cases h
    · cases h
  · rintro ⟨pc, st, h⟩
    have := ((c52_processes s).1 c pc st).2 h
    exact ⟨_, by unfold buildProcess; rw [this]⟩

theorem createBrick_isOk {b : Brick} : (∃ bb, createBrick b = .ok bb) ↔ Spec.BrickOK b := by
  constructor
  · rintro ⟨bb, h⟩
    have hc := createBrick_class h
    refine ⟨⟨_, hc⟩, fun p hp => ?_⟩
    simp only [createBrick, bind_ok] at h
    obtain ⟨c, hcb, ps, hps, h⟩ := h
    cases h
    obtain ⟨pc, hpc⟩ := createAll_isOk.1 ⟨ps, hps⟩ p hp
    simp only [bind_ok] at hpc
    obtain ⟨r, hr, _⟩ := hpc
    obtain ⟨pc, st, h⟩ := buildProcess_isOk.1 ⟨r, ofRes_ok.1 hr⟩
    exact ⟨pc, st, h.1, by rw [← categoryOf_spec hc]; exact h.2⟩
  · rintro ⟨⟨c, hc⟩, hp⟩
    have hb : buildBrick b.type = .ok c := ((c52_bricks_splitters_partial b.type).1 c).2 hc
    obtain ⟨ps, hps⟩ := (createAll_isOk (f := fun p : Proc => do
      let r ← ofRes (buildProcess p.type (categoryOf c))
      .ok r.1) (l := b.procs)).2 (fun p hpm => by
        obtain ⟨pc, st, h⟩ := hp p hpm
        rw [← categoryOf_spec hc] at h
        obtain ⟨r, hr⟩ := buildProcess_isOk.2 ⟨pc, st, h⟩
        exact ⟨r.1, by simp only [bind_ok]; exact ⟨r, ofRes_ok.2 hr, rfl⟩⟩)
    exact ⟨⟨b.name, c, ps⟩, by simp only [createBrick, bind_ok]; exact ⟨c, ofRes_ok.2 hb, ps, hps, rfl⟩⟩

theorem createSplit_isOk {s : Split} : (∃ r, createSplit s = .ok r) ↔ ∃ c, s.type ∈ Spec.splitterNames c := by
  constructor
  · rintro ⟨r, h⟩
    simp only [createSplit, bind_ok] at h
    obtain ⟨c, hc, _⟩ := h
    exact ⟨c, ((c52_bricks_splitters_partial s.type).2.2.1 c).1 (ofRes_ok.1 hc)⟩
  · rintro ⟨c, hc⟩
    exact ⟨s.name, by
      simp only [createSplit, bind_ok]
      exact ⟨c, ofRes_ok.2 (((c52_bricks_splitters_partial s.type).2.2.1 c).2 hc), trivial⟩⟩

theorem createUnit_isOk {un : UnitIn K} (hd : Spec.DistinctUnit un.str) : (∃ bu, createUnit un = .ok bu) ↔
    (∀ b ∈ un.str.unitBricks, Spec.BrickOK b) ∧ (∀ s ∈ un.str.unitSplits, ∃ c, s.type ∈ Spec.splitterNames c) ∧
    (∀ i ∈ un.str.surfaces, ∀ b, un.str.unitBricks[i]? = some b →
      b.parent = "" ∨ ∃ b' ∈ un.str.unitBricks, b'.name = b.parent) := by
  have hall : (∃ bs, createAll (fun i =>
      match un.str.unitBricks[i]? with
      | none => .error .undefined
      | some b => do
        let r ← createBrick b
        (.ok (i, r) : Except Err (ℕ × BuiltBrick))) (creationOrder un.str) = .ok bs) ↔
      ∀ b ∈ un.str.unitBricks, Spec.BrickOK b := by
    rw [createAll_isOk]
    constructor
    · intro h b hb
      obtain ⟨i, hi⟩ := List.getElem?_of_mem hb
      obtain ⟨r, hr⟩ := h i ((mem_creationOrder hd.1).2 (List.getElem?_eq_some_iff.1 hi).1)
      simp only [hi, bind_ok] at hr
      obtain ⟨bb, hbb, _⟩ := hr
      exact createBrick_isOk.1 ⟨bb, hbb⟩
    · intro h i hi
      have hl := (mem_creationOrder hd.1).1 hi
      have hb : un.str.unitBricks[i]? = some un.str.unitBricks[i] := List.getElem?_eq_getElem hl
      obtain ⟨bb, hbb⟩ := createBrick_isOk.2 (h _ (List.getElem_mem hl))
      exact ⟨(i, bb), by simp only [hb, bind_ok]; exact ⟨bb, hbb, rfl⟩⟩
  have hspl : (∃ ss, createAll createSplit un.str.unitSplits = .ok ss) ↔
      ∀ s ∈ un.str.unitSplits, ∃ c, s.type ∈ Spec.splitterNames c := by
    rw [createAll_isOk]
    exact forall₂_congr fun s _ => createSplit_isOk
  constructor
  · rintro ⟨bu, h⟩
    have hU := createUnit_ok hd h
    simp only [createUnit, bind_ok] at h
    obtain ⟨bs, hbs, ss, hss, w, hw, h⟩ := h
    cases h
    refine ⟨hall.1 ⟨bs, hbs⟩, hspl.1 ⟨ss, hss⟩, fun i hi b hb => ?_⟩
    unfold linkParents at hw
    split at hw
    · rename_i hpar
      have := List.all_eq_true.1 hpar i hi
      simp only [hb, Bool.or_eq_true, decide_eq_true_eq, Bool.and_eq_true] at this
      rcases this with h | h
      · exact .inl h
      · obtain ⟨i', hi'⟩ := Option.isSome_iff_exists.1 h.2
        obtain ⟨b', hb', hn⟩ := hU.find.1 hi'
        exact .inr ⟨b', List.mem_of_getElem? hb', hn⟩
    · cases hw
  · rintro ⟨h1, h2, h3⟩
    obtain ⟨bs, hbs⟩ := hall.2 h1
    obtain ⟨ss, hss⟩ := hspl.2 h2
    refine ⟨⟨bs, ss⟩, ?_⟩
    simp only [createUnit, bind_ok]
    refine ⟨bs, hbs, ss, hss, (), ?_, rfl⟩
    have hall' : (un.str.surfaces.all fun i =>
        match un.str.unitBricks[i]? with
        | none => false
        | some br => br.parent = "" || (((⟨bs, ss⟩ : BuiltUnit).find br.name).isSome && ((⟨bs, ss⟩ : BuiltUnit).find br.parent).isSome)) = true := by
      have hex : ∀ b ∈ un.str.unitBricks, ((⟨bs, ss⟩ : BuiltUnit).find b.name).isSome = true := by
        intro b hb
        rw [Option.isSome_iff_ne_none]
        intro hno
        rw [BuiltUnit.find, lookupLast_none] at hno
        obtain ⟨i, hi⟩ := List.getElem?_of_mem hb
        have hin := (mem_creationOrder hd.1).2 (List.getElem?_eq_some_iff.1 hi).1
        obtain ⟨k, hk⟩ := List.getElem?_of_mem hin
        obtain ⟨r, hr, hf⟩ := createAll_get hbs hk
        simp only [hi, bind_ok] at hf
        obtain ⟨bb, hbb, hf⟩ := hf
        cases hf
        exact hno (bb.name, i) (List.mem_map.2 ⟨(i, bb), List.mem_of_getElem? hr, rfl⟩) (createBrick_name hbb)
      rw [List.all_eq_true]
      intro i hi
      have hl := hd.1.2 i (by simp [hi])
      have hb : un.str.unitBricks[i]? = some un.str.unitBricks[i] := List.getElem?_eq_getElem hl
      simp only [hb, Bool.or_eq_true, decide_eq_true_eq, Bool.and_eq_true]
      rcases h3 i hi _ hb with h | ⟨b', hb', hn⟩
      · exact .inl h
      · exact .inr ⟨hex _ (List.getElem_mem hl), by rw [← hn]; exact hex _ hb'⟩
    exact if_pos hall'

theorem create_isOk {inp : Input K} (hd : Spec.Distinct inp) : (∃ bt, create inp = .ok bt) ↔
    (∀ b ∈ inp.basin.basinBricks, Spec.BrickOK b) ∧ (∀ s ∈ inp.basin.basinSplits, ∃ c, s.type ∈ Spec.splitterNames c) ∧
    ∀ un ∈ inp.units, (∀ b ∈ un.str.unitBricks, Spec.BrickOK b) ∧
      (∀ s ∈ un.str.unitSplits, ∃ c, s.type ∈ Spec.splitterNames c) ∧
      (∀ i ∈ un.str.surfaces, ∀ b, un.str.unitBricks[i]? = some b →
        b.parent = "" ∨ ∃ b' ∈ un.str.unitBricks, b'.name = b.parent) := by
  have h1 : (∃ bb, createAll createBrick inp.basin.basinBricks = .ok bb) ↔ ∀ b ∈ inp.basin.basinBricks, Spec.BrickOK b := by
    rw [createAll_isOk]; exact forall₂_congr fun b _ => createBrick_isOk
  have h2 : (∃ ss, createAll createSplit inp.basin.basinSplits = .ok ss) ↔
      ∀ s ∈ inp.basin.basinSplits, ∃ c, s.type ∈ Spec.splitterNames c := by
    rw [createAll_isOk]; exact forall₂_congr fun s _ => createSplit_isOk
  have h3 : (∃ us, createAll createUnit inp.units = .ok us) ↔ ∀ un ∈ inp.units, ∃ bu, createUnit un = .ok bu := createAll_isOk
  rw [← h1, ← h2, ← forall₂_congr (fun un hun => createUnit_isOk (hd.1 un hun)), ← h3]
  simp only [create, bind_ok]
  constructor
  · rintro ⟨_, bb, hbb, bs, hbs, us, hus, _⟩
    exact ⟨⟨bb, hbb⟩, ⟨bs, hbs⟩, us, hus⟩
  · rintro ⟨⟨bb, hbb⟩, ⟨bs, hbs⟩, us, hus⟩
    exact ⟨_, bb, hbb, bs, hbs, us, hus, rfl⟩

theorem toBrick_isOk {cls : BrickClass} {c : Comp} {f : Wire.Flux K} :
    (∃ n, toBrick cls c f = .ok n) ↔ attach (.brick cls) f.content = true := by
  constructor
  · rintro ⟨n, h⟩; exact (toBrick_outs h).2
  · intro h; exact ⟨_, if_pos h⟩

theorem named_isOk {inp : Input K} {bt : Built K} (hd : Spec.Distinct inp) (hbt : BuiltOK inp bt) {u : ℕ} {un : UnitIn K}
    (hun : un ∈ inp.units) {bu : BuiltUnit} (hbu : UnitOK un bu) {o : Out}
    (fb : Comp → BrickClass → Bool → Wire.Flux K) (fs : Comp → Bool → Wire.Flux K)
    (hfb : ∀ c t b, (fb c t b).content = o.content) :
    (∃ n, (match brickTarget bt u bu o.target with
      | some (c, tcls, out) => toBrick tcls c (fb c tcls out)
      | none =>
        match splitTarget bt u bu o.target with
        | some (c, out) => toSplitter c (fs c out)
        | none => .error .thrown) = .ok n) ↔ Spec.NamedOK inp u un o := by
  cases htar : brickTarget bt u bu o.target with
  | some x =>
    obtain ⟨c, tcls, out⟩ := x
    obtain ⟨b, tb, hbn, hcb, rfl, _⟩ := brickTarget_some hbt hbu htar
    simp only [toBrick_isOk, hfb, attach_iff (createBrick_class hcb)]
    constructor
    · intro h; exact .inl ⟨c, b, hbn, h⟩
    · rintro (⟨c', b', hbn', h⟩ | ⟨hno, _⟩)
      · obtain ⟨_, rfl⟩ := brickNamed_unique hd hun hbn hbn'
        exact h
      · exact (hno _ _ hbn).elim
  | none =>
    have hno := (brickTarget_none hbt hbu).1 htar
    cases hst : splitTarget bt u bu o.target with
    | some x =>
      obtain ⟨c, out⟩ := x
      obtain ⟨hsn, _⟩ := splitTarget_some hbt hbu hst
      exact ⟨fun _ => .inr ⟨hno, c, hsn⟩, fun _ => ⟨_, rfl⟩⟩
    | none =>
      have hns := (splitTarget_none hbt hbu).1 hst
      constructor
      · rintro ⟨n, h⟩; cases h
      · rintro (⟨c, b, hbn, _⟩ | ⟨_, c, hsn⟩)
        · exact (hno c b hbn).elim
        · exact (hns c hsn).elim

theorem lateral_isOk {inp : Input K} {bt : Built K} (hbt : BuiltOK inp bt) {un : UnitIn K} {src : Comp} {j : ℕ}
    {pc : ProcClass} {p : Proc} (hname : p.type ∈ Spec.processNames pc) {o : Out} :
    (∃ n, wireLateral bt un src j pc o = .ok n) ↔ Spec.LateralOK inp un p o := by
  unfold wireLateral Spec.LateralOK
  rw [concatM_isOk]
  refine forall₂_congr fun cn _ => ?_
  cases hr : inp.units[cn.1]? with
  | none =>
    have : bt.units[cn.1]? = none := by
      rw [List.getElem?_eq_none_iff] at hr ⊢
      rw [hbt.len]; exact hr
    simp [this]
  | some r =>
    obtain ⟨rcv, hrcv, hR⟩ := hbt.unit hr
    simp only [hrcv, Option.some.injEq, exists_eq_left']
    by_cases hc : o.content = .snow
    · simp only [hc, if_true, true_and]
      rw [concatM_isOk]
      constructor
      · intro h hne
        obtain ⟨i, hi⟩ := List.exists_mem_of_ne_nil _ hne
        obtain ⟨n, hn⟩ := h i ((mem_snowpacks hR).2 hi)
        split at hn
        · rename_i hl
          exact (isLateral_iff hname).1 hl
        · cases hn
      · intro h i hi
        have hl := (isLateral_iff hname).2 (h (List.ne_nil_of_mem ((mem_snowpacks hR).1 hi)))
        rw [if_pos hl]
        exact toBrick_isOk.2 rfl
    · simp [hc]

theorem unitOut_isOk {inp : Input K} {bt : Built K} (hd : Spec.Distinct inp) (hbt : BuiltOK inp bt) {u : ℕ} {un : UnitIn K}
    (hun : un ∈ inp.units) {bu : BuiltUnit} (hbu : UnitOK un bu) {cls : BrickClass} {src : Comp} {j : ℕ} {pc : ProcClass}
    {p : Proc} (hname : p.type ∈ Spec.processNames pc) {o : Out} :
    (∃ n, wireUnitOut bt u un bu cls src j pc o = .ok n) ↔
      o.target = "outlet" ∨ (o.target = "lateral" ∧ Spec.LateralOK inp un p o) ∨
        (o.target ≠ "lateral" ∧ Spec.NamedOK inp u un o) := by
  unfold wireUnitOut
  by_cases h1 : o.target = "outlet"
  · simp only [h1, if_true]
    exact ⟨fun _ => .inl trivial, fun _ => ⟨_, rfl⟩⟩
  · by_cases h2 : o.target = "lateral"
    · have h3 : ("lateral" : String) ≠ "outlet" := by decide
      rw [if_neg h1, if_pos h2, lateral_isOk hbt hname]
      exact ⟨fun h => .inr (.inl ⟨h2, h⟩), fun h => h.elim (fun h => (h1 h).elim)
        (fun h => h.elim (fun h => h.2) (fun h => (h.1 h2).elim))⟩
    · rw [if_neg h1, if_neg h2]
      refine (named_isOk hd hbt hun hbu (u := u) (o := o)
        (fun c tcls out => ⟨src, j, .comp c, o.content, o.inst, out || o.static, canHaveFraction cls && !canHaveFraction tcls,
          unitFraction bt un out, 1⟩)
        (fun c out => ⟨src, j, .comp c, o.content, false, true, canHaveFraction cls, unitFraction bt un out, 1⟩)
        (fun _ _ _ => rfl)).trans ?_
      exact ⟨fun h => .inr (.inr ⟨h2, h⟩), fun h => h.elim (fun h => (h1 h).elim)
        (fun h => h.elim (fun h => (h2 h.1).elim) (fun h => h.2))⟩

theorem unitSplitOut_isOk {inp : Input K} {bt : Built K} (hd : Spec.Distinct inp) (hbt : BuiltOK inp bt) {u : ℕ}
    {un : UnitIn K} (hun : un ∈ inp.units) {bu : BuiltUnit} (hbu : UnitOK un bu) {src : Comp} {o : Out} :
    (∃ n, wireUnitSplitOut bt u un bu src o = .ok n) ↔ o.target = "outlet" ∨ Spec.NamedOK inp u un o := by
  unfold wireUnitSplitOut
  by_cases h1 : o.target = "outlet"
  · simp only [h1, if_true]
    exact ⟨fun _ => .inl trivial, fun _ => ⟨_, rfl⟩⟩
  · rw [if_neg h1]
    refine (named_isOk hd hbt hun hbu (u := u) (o := o)
      (fun c tcls out => ⟨src, 0, .comp c, o.content, false, true, false, unitFraction bt un out, 1⟩)
      (fun c out => ⟨src, 0, .comp c, o.content, false, true, false, unitFraction bt un out, 1⟩)
      (fun _ _ _ => rfl)).trans ?_
    exact ⟨.inr, fun h => h.elim (fun h => (h1 h).elim) id⟩

theorem wireUnitBricks_isOk {inp : Input K} {bt : Built K} (hd : Spec.Distinct inp) (hbt : BuiltOK inp bt) {u : ℕ}
    {un : UnitIn K} (hun : un ∈ inp.units) {bu : BuiltUnit} (hbu : UnitOK un bu) :
    (∃ n, wireUnitBricks bt u un bu = .ok n) ↔
      ∀ b ∈ un.str.unitBricks, ∀ p ∈ b.procs, p.type ∉ Spec.atmosphereNames → ∀ o ∈ p.outs,
        o.target = "outlet" ∨ (o.target = "lateral" ∧ Spec.LateralOK inp un p o) ∨
          (o.target ≠ "lateral" ∧ Spec.NamedOK inp u un o) := by
  unfold wireUnitBricks
  rw [concatM_isOk]
  refine forall₂_congr fun b hb => ?_
  obtain ⟨i, hi⟩ := List.getElem?_of_mem hb
  obtain ⟨bb, hbb, hcb⟩ := hbu.get hi
  have hf : bu.find b.name = some i := hbu.find.2 ⟨b, hi, rfl⟩
  simp only [hf, hbb]
  rw [concatM_isOk]
  have hproc : ∀ (j : ℕ) (p : Proc), b.procs[j]? = some p → ((∃ n, wireUnitProc bt u un bu i bb j p = .ok n) ↔
      (p.type ∉ Spec.atmosphereNames → ∀ o ∈ p.outs,
        o.target = "outlet" ∨ (o.target = "lateral" ∧ Spec.LateralOK inp un p o) ∨
          (o.target ≠ "lateral" ∧ Spec.NamedOK inp u un o))) := by
    intro j p hp
    obtain ⟨pc, hpc, hname⟩ := createBrick_proc hcb hp
    unfold wireUnitProc
    simp only [hpc]
    by_cases hat : p.type ∈ Spec.atmosphereNames
    · rw [if_pos ((toAtmosphere_iff hname).2 hat)]
      exact ⟨fun _ h => (h hat).elim, fun _ => ⟨_, rfl⟩⟩
    · rw [if_neg fun hh => hat ((toAtmosphere_iff hname).1 hh), concatM_isOk]
      exact ⟨fun h _ o ho => (unitOut_isOk hd hbt hun hbu hname).1 (h o ho),
        fun h o ho => (unitOut_isOk hd hbt hun hbu hname).2 (h hat o ho)⟩
  constructor
  · intro h p hp
    obtain ⟨j, hj⟩ := List.getElem?_of_mem hp
    exact (hproc j p hj).1 (h (p, j) (List.mem_zipIdx_iff_getElem?.2 hj))
  · rintro h ⟨p, j⟩ hpj
    have hj : b.procs[j]? = some p := List.mem_zipIdx_iff_getElem?.1 hpj
    exact (hproc j p hj).2 (h p (List.mem_of_getElem? hj))

theorem wireUnitSplits_isOk {inp : Input K} {bt : Built K} (hd : Spec.Distinct inp) (hbt : BuiltOK inp bt) {u : ℕ}
    {un : UnitIn K} (hun : un ∈ inp.units) {bu : BuiltUnit} (hbu : UnitOK un bu) :
    (∃ n, wireUnitSplits bt u un bu = .ok n) ↔
      ∀ s ∈ un.str.unitSplits, ∀ o ∈ s.outs, o.target = "outlet" ∨ Spec.NamedOK inp u un o := by
  unfold wireUnitSplits
  rw [concatM_isOk]
  constructor
  · intro h s hs o ho
    obtain ⟨j, hj⟩ := List.getElem?_of_mem hs
    have := h (s, j) (List.mem_zipIdx_iff_getElem?.2 hj)
    exact (unitSplitOut_isOk hd hbt hun hbu).1 (concatM_isOk.1 this o ho)
  · rintro h ⟨s, j⟩ hsj
    have hj : un.str.unitSplits[j]? = some s := List.mem_zipIdx_iff_getElem?.1 hsj
    exact concatM_isOk.2 fun o ho => (unitSplitOut_isOk hd hbt hun hbu).2 (h s (List.mem_of_getElem? hj) o ho)

theorem linkUnit_isOk {inp : Input K} {bt : Built K} (hbt : BuiltOK inp bt) {u : ℕ}
    {un : UnitIn K} {bu : BuiltUnit} (hbu : UnitOK un bu) :
    (∃ l, linkUnit bt u un bu = .ok l) ↔
      (∀ b ∈ un.str.unitBricks, ∀ p ∈ b.procs, p.type ∈ Spec.infiltrationNames →
        ∃ o c b', p.outs = [o] ∧ Spec.BrickNamed inp u un o.target c b') ∧
      (∀ b ∈ un.str.unitBricks, ∀ p ∈ b.procs, p.type = "capillary:hbv" →
        ∀ o ∈ p.outs, ∃ c b', Spec.BrickNamed inp u un o.target c b') := by
  have hbn : ∀ t, (∃ x, brickTarget bt u bu t = some x) ↔ ∃ c b', Spec.BrickNamed inp u un t c b' := by
    intro t
    rw [← Option.isSome_iff_exists, Option.isSome_iff_ne_none, ne_eq, brickTarget_none hbt hbu]
    simp
  have hproc : ∀ (i j : ℕ) (pc : ProcClass) (p : Proc), p.type ∈ Spec.processNames pc →
      ((∃ l, linkUnitProc bt u un bu i j pc p = .ok l) ↔
        (p.type ∈ Spec.infiltrationNames → ∃ o c b', p.outs = [o] ∧ Spec.BrickNamed inp u un o.target c b') ∧
        (p.type = "capillary:hbv" → ∀ o ∈ p.outs, ∃ c b', Spec.BrickNamed inp u un o.target c b')) := by
    intro i j pc p hname
    unfold linkUnitProc
    by_cases hm : linksMany pc = true
    · have hcap := (linksMany_iff hname).1 hm
      have hnot : p.type ∉ Spec.infiltrationNames := by rw [hcap]; decide
      rw [if_pos hm, createAll_isOk]
      refine Iff.trans (forall₂_congr fun o _ => ?_) (⟨fun h => ⟨fun hh => (hnot hh).elim, fun _ => h⟩, fun h => h.2 hcap⟩ :
        (∀ o ∈ p.outs, ∃ c b', Spec.BrickNamed inp u un o.target c b') ↔ _)
      rw [← hbn]
      cases brickTarget bt u bu o.target <;> simp
    · have hcap : p.type ≠ "capillary:hbv" := fun h => hm ((linksMany_iff hname).2 h)
      rw [if_neg hm]
      by_cases ho : linksOne pc = true
      · have hinf := (linksOne_iff hname).1 ho
        rw [if_pos ho]
        simp only [hinf, forall_const, hcap, false_imp_iff, and_true]
        constructor
        · rintro ⟨l, hl⟩
          split at hl
          · rename_i o hpo
            split at hl
            · rename_i c cls out hb
              obtain ⟨c, b', h⟩ := (hbn o.target).1 ⟨_, hb⟩
              exact ⟨o, c, b', hpo, h⟩
            · cases hl
          · cases hl
        · rintro ⟨o, c, b', hpo, h⟩
          obtain ⟨x, hx⟩ := (hbn o.target).2 ⟨c, b', h⟩
          rw [hpo]
          simp only [hx]
          exact ⟨_, rfl⟩
      · have hinf : p.type ∉ Spec.infiltrationNames := fun h => ho ((linksOne_iff hname).2 h)
        rw [if_neg ho]
        simp [hinf, hcap]
  rw [← forall₂_and]
  have : (∃ l, linkUnit bt u un bu = .ok l) ↔ ∀ b ∈ un.str.unitBricks, ∃ l,
      (match bu.find b.name with
      | none => .error .thrown
      | some i =>
        match bu.get i with
        | none => .error .undefined
        | some bb => do
          let l ← createAll (fun pj : Proc × ℕ =>
            match bb.procs[pj.2]? with
            | none => .error .undefined
            | some pc => linkUnitProc bt u un bu i pj.2 pc pj.1) b.procs.zipIdx
          .ok l.flatten) = (.ok l : Except Err (List Link)) := by
    rw [← createAll_isOk]
    simp only [linkUnit, bind_ok]
    exact ⟨fun ⟨_, l, h, _⟩ => ⟨l, h⟩, fun ⟨l, h⟩ => ⟨_, l, h, rfl⟩⟩
  rw [this]
  refine forall₂_congr fun b hb => ?_
  obtain ⟨i, hi⟩ := List.getElem?_of_mem hb
  obtain ⟨bb, hbb, hcb⟩ := hbu.get hi
  have hf : bu.find b.name = some i := hbu.find.2 ⟨b, hi, rfl⟩
  simp only [hf, hbb, bind_ok]
  have h2 : (∃ l, ∃ a, createAll (fun pj : Proc × ℕ =>
            match bb.procs[pj.2]? with
            | none => .error .undefined
            | some pc => linkUnitProc bt u un bu i pj.2 pc pj.1) b.procs.zipIdx = .ok a ∧
            (Except.ok a.flatten : Except Err (List Link)) = .ok l) ↔
      ∃ a, createAll (fun pj : Proc × ℕ =>
            match bb.procs[pj.2]? with
            | none => .error .undefined
            | some pc => linkUnitProc bt u un bu i pj.2 pc pj.1) b.procs.zipIdx = .ok a :=
    ⟨fun ⟨_, a, h, _⟩ => ⟨a, h⟩, fun ⟨a, h⟩ => ⟨_, a, h, rfl⟩⟩
  rw [h2, createAll_isOk, ← forall₂_and]
  constructor
  · intro h p hp
    obtain ⟨j, hj⟩ := List.getElem?_of_mem hp
    obtain ⟨pc, hpc, hname⟩ := createBrick_proc hcb hj
    have := h (p, j) (List.mem_zipIdx_iff_getElem?.2 hj)
    simp only [hpc] at this
    exact (hproc i j pc p hname).1 this
  · rintro h ⟨p, j⟩ hpj
    have hj : b.procs[j]? = some p := List.mem_zipIdx_iff_getElem?.1 hpj
    obtain ⟨pc, hpc, hname⟩ := createBrick_proc hcb hj
    simp only [hpc]
    exact (hproc i j pc p hname).2 (h p (List.mem_of_getElem? hj))

theorem basinOut_isOk {inp : Input K} {bt : Built K} (hd : Spec.Distinct inp) (hbt : BuiltOK inp bt) {o : Out}
    (fo : Wire.Flux K) (fb fs : ℕ → Wire.Flux K) (hfb : ∀ i, (fb i).content = o.content) :
    (∃ n, (if o.target = "outlet" then toOutlet fo
      else
        match bt.find o.target with
        | some i =>
          (match bt.basinBricks[i]? with
          | none => .error .undefined
          | some tb => toBrick tb.cls (.basinBrick i) (fb i))
        | none =>
          match bt.findSplit o.target with
          | some i => toSplitter (.basinSplit i) (fs i)
          | none => .error .thrown) = .ok n) ↔ Spec.BasinOutOK inp o := by
  unfold Spec.BasinOutOK
  by_cases h1 : o.target = "outlet"
  · rw [if_pos h1]
    exact ⟨fun _ => .inl h1, fun _ => ⟨_, rfl⟩⟩
  · rw [if_neg h1]
    cases hf : bt.find o.target with
    | some i =>
      obtain ⟨b, hb, hn⟩ := hbt.find.1 hf
      obtain ⟨tb, htb, hcb⟩ := hbt.get hb
      simp only [htb, toBrick_isOk, hfb, attach_iff (createBrick_class hcb), h1, false_or]
      have huniq : ∀ b' ∈ inp.basin.basinBricks, b'.name = o.target → b' = b := by
        intro b' hb' hn'
        exact List.inj_on_of_nodup_map hd.2.1 hb' (List.mem_of_getElem? hb) (hn'.trans hn.symm)
      constructor
      · intro h; exact .inl ⟨b, List.mem_of_getElem? hb, hn, h⟩
      · rintro (⟨b', hb', hn', h⟩ | ⟨hno, _⟩)
        · rw [← huniq b' hb' hn']; exact h
        · exact (hno b (List.mem_of_getElem? hb) hn).elim
    | none =>
      have hno := hbt.find_none.1 hf
      have hno' : ¬ ∃ b ∈ inp.basin.basinBricks, b.name = o.target ∧ Spec.Takes b.type o.content :=
        fun ⟨b, hb, hn, _⟩ => hno b hb hn
      simp only [h1, false_or, hno']
      cases hs : bt.findSplit o.target with
      | some i =>
        obtain ⟨s, hs, hn⟩ := hbt.split.1 hs
        exact ⟨fun _ => ⟨hno, s, List.mem_of_getElem? hs, hn⟩, fun _ => ⟨_, rfl⟩⟩
      | none =>
        have hns := hbt.split_none.1 hs
        constructor
        · rintro ⟨n, h⟩; cases h
        · rintro ⟨_, s, hs, hn⟩; exact (hns s hs hn).elim

theorem wireBasinBricks_isOk {inp : Input K} {bt : Built K} (hd : Spec.Distinct inp) (hbt : BuiltOK inp bt) :
    (∃ n, wireBasinBricks inp bt = .ok n) ↔
      ∀ b ∈ inp.basin.basinBricks, ∀ p ∈ b.procs, p.type ∉ Spec.atmosphereNames → ∀ o ∈ p.outs, Spec.BasinOutOK inp o := by
  unfold wireBasinBricks
  rw [concatM_isOk]
  have hout : ∀ (src : Comp) (j : ℕ) (o : Out), (∃ n, wireBasinOut bt src j o = .ok n) ↔ Spec.BasinOutOK inp o := by
    intro src j o
    unfold wireBasinOut
    exact basinOut_isOk hd hbt _ _ _ (fun _ => rfl)
  have hbr : ∀ (i : ℕ) (b : Brick), inp.basin.basinBricks[i]? = some b →
      ((∃ n, (match bt.basinBricks[i]? with
        | none => .error .undefined
        | some bb => concatM (fun pj : Proc × ℕ =>
            match bb.procs[pj.2]? with
            | none => .error .undefined
            | some pc =>
              if toAtmosphere pc then
                .ok ⟨[⟨.basinBrick i, pj.2, .atmosphere, .water, false, false, false, 1, 1⟩], [], []⟩
              else concatM (wireBasinOut bt (.basinBrick i) pj.2) pj.1.outs) b.procs.zipIdx : Except Err (Net K)) = .ok n) ↔
        ∀ p ∈ b.procs, p.type ∉ Spec.atmosphereNames → ∀ o ∈ p.outs, Spec.BasinOutOK inp o) := by
    intro i b hb
    obtain ⟨bb, hbb, hcb⟩ := hbt.get hb
    simp only [hbb]
    rw [concatM_isOk]
    constructor
    · intro h p hp hat o ho
      obtain ⟨j, hj⟩ := List.getElem?_of_mem hp
      obtain ⟨pc, hpc, hname⟩ := createBrick_proc hcb hj
      have := h (p, j) (List.mem_zipIdx_iff_getElem?.2 hj)
      simp only [hpc] at this
      rw [if_neg fun hh => hat ((toAtmosphere_iff hname).1 hh), concatM_isOk] at this
      exact (hout _ _ _).1 (this o ho)
    · rintro h ⟨p, j⟩ hpj
      have hj : b.procs[j]? = some p := List.mem_zipIdx_iff_getElem?.1 hpj
      obtain ⟨pc, hpc, hname⟩ := createBrick_proc hcb hj
      simp only [hpc]
      by_cases hat : p.type ∈ Spec.atmosphereNames
      · rw [if_pos ((toAtmosphere_iff hname).2 hat)]
        exact ⟨_, rfl⟩
      · rw [if_neg fun hh => hat ((toAtmosphere_iff hname).1 hh), concatM_isOk]
        exact fun o ho => (hout _ _ _).2 (h p (List.mem_of_getElem? hj) hat o ho)
  constructor
  · intro h b hb
    obtain ⟨i, hi⟩ := List.getElem?_of_mem hb
    exact (hbr i b hi).1 (h (b, i) (List.mem_zipIdx_iff_getElem?.2 hi))
  · rintro h ⟨b, i⟩ hbi
    have hi : inp.basin.basinBricks[i]? = some b := List.mem_zipIdx_iff_getElem?.1 hbi
    exact (hbr i b hi).2 (h b (List.mem_of_getElem? hi))

theorem wireBasinSplits_isOk {inp : Input K} {bt : Built K} (hd : Spec.Distinct inp) (hbt : BuiltOK inp bt) :
    (∃ n, wireBasinSplits inp bt = .ok n) ↔ ∀ s ∈ inp.basin.basinSplits, ∀ o ∈ s.outs, Spec.BasinOutOK inp o := by
  unfold wireBasinSplits
  rw [concatM_isOk]
  have hout : ∀ (src : Comp) (o : Out), (∃ n, wireBasinSplitOut bt src o = .ok n) ↔ Spec.BasinOutOK inp o := by
    intro src o
    unfold wireBasinSplitOut
    exact basinOut_isOk hd hbt _ _ _ (fun _ => rfl)
  constructor
  · intro h s hs o ho
    obtain ⟨j, hj⟩ := List.getElem?_of_mem hs
    exact (hout _ _).1 (concatM_isOk.1 (h (s, j) (List.mem_zipIdx_iff_getElem?.2 hj)) o ho)
  · rintro h ⟨s, j⟩ hsj
    have hj : inp.basin.basinSplits[j]? = some s := List.mem_zipIdx_iff_getElem?.1 hsj
    exact concatM_isOk.2 fun o ho => (hout _ _).2 (h s (List.mem_of_getElem? hj) o ho)

theorem linkBasin_isOk {inp : Input K} {bt : Built K} (hbt : BuiltOK inp bt) :
    (∃ l, linkBasin inp bt = .ok l) ↔
      (∀ b ∈ inp.basin.basinBricks, ∀ p ∈ b.procs, p.type ∈ Spec.infiltrationNames →
        ∃ o, p.outs = [o] ∧ ∃ b' ∈ inp.basin.basinBricks, b'.name = o.target) ∧
      (∀ b ∈ inp.basin.basinBricks, ∀ p ∈ b.procs, p.type ≠ "capillary:hbv") := by
  let fp : BuiltBrick → ℕ → Proc × ℕ → Except Err (List Link) := fun bb i pj =>
        match bb.procs[pj.2]? with
        | none => .error .undefined
        | some pc =>
          if linksMany pc then .error .thrown
          else if linksOne pc then
            match pj.1.outs with
            | [o] =>
              (match bt.find o.target with
              | some t => .ok [⟨.basinBrick i, pj.2, .basinBrick t, []⟩]
              | none => .error .thrown)
            | _ => .error .thrown
          else .ok []
  have hfp : ∀ (bb : BuiltBrick) (i j : ℕ) (pc : ProcClass) (p : Proc), bb.procs[j]? = some pc → p.type ∈ Spec.processNames pc →
      ((∃ l, fp bb i (p, j) = .ok l) ↔ (p.type ∈ Spec.infiltrationNames →
        ∃ o, p.outs = [o] ∧ ∃ b' ∈ inp.basin.basinBricks, b'.name = o.target) ∧ p.type ≠ "capillary:hbv") := by
    intro bb i j pc p hpc hname
    simp only [fp, hpc]
    by_cases hm : linksMany pc = true
    · have hcap := (linksMany_iff hname).1 hm
      rw [if_pos hm]
      simp [hcap]
    · have hcap : p.type ≠ "capillary:hbv" := fun h => hm ((linksMany_iff hname).2 h)
      rw [if_neg hm]
      by_cases ho : linksOne pc = true
      · have hinf := (linksOne_iff hname).1 ho
        rw [if_pos ho]
        simp only [hinf, forall_const, hcap, ne_eq, not_false_eq_true, and_true]
        constructor
        · rintro ⟨l, hl⟩
          split at hl
          · rename_i o hpo
            split at hl
            · rename_i t ht
              obtain ⟨b, hb, hn⟩ := hbt.find.1 ht
              exact ⟨o, hpo, b, List.mem_of_getElem? hb, hn⟩
            · cases hl
          · cases hl
        · rintro ⟨o, hpo, b', hb', hn⟩
          obtain ⟨t, ht⟩ := List.getElem?_of_mem hb'
          have := hbt.find.2 ⟨b', ht, hn⟩
          rw [hpo]
          simp only [this]
          exact ⟨_, rfl⟩
      · have hinf : p.type ∉ Spec.infiltrationNames := fun h => ho ((linksOne_iff hname).2 h)
        rw [if_neg ho]
        simp [hinf, hcap]
  rw [← forall₂_and]
  have : (∃ l, linkBasin inp bt = .ok l) ↔ ∀ bi ∈ inp.basin.basinBricks.zipIdx, ∃ l,
      (match bt.basinBricks[bi.2]? with
      | none => .error .undefined
      | some bb => do
        let l ← createAll (fp bb bi.2) bi.1.procs.zipIdx
        .ok l.flatten) = (.ok l : Except Err (List Link)) := by
    rw [← createAll_isOk]
    simp only [linkBasin, bind_ok]
    exact ⟨fun ⟨_, l, h, _⟩ => ⟨l, h⟩, fun ⟨l, h⟩ => ⟨_, l, h, rfl⟩⟩
  rw [this]
  have hbr : ∀ (i : ℕ) (b : Brick), inp.basin.basinBricks[i]? = some b → ((∃ l,
      (match bt.basinBricks[i]? with
      | none => .error .undefined
      | some bb => do
        let l ← createAll (fp bb i) b.procs.zipIdx
        .ok l.flatten) = (.ok l : Except Err (List Link))) ↔ ∀ p ∈ b.procs, (p.type ∈ Spec.infiltrationNames →
        ∃ o, p.outs = [o] ∧ ∃ b' ∈ inp.basin.basinBricks, b'.name = o.target) ∧ p.type ≠ "capillary:hbv") := by
    intro i b hb
    obtain ⟨bb, hbb, hcb⟩ := hbt.get hb
    simp only [hbb, bind_ok]
    have h2 : (∃ l, ∃ a, createAll (fp bb i) b.procs.zipIdx = .ok a ∧
            (Except.ok a.flatten : Except Err (List Link)) = .ok l) ↔ ∃ a, createAll (fp bb i) b.procs.zipIdx = .ok a :=
      ⟨fun ⟨_, a, h, _⟩ => ⟨a, h⟩, fun ⟨a, h⟩ => ⟨_, a, h, rfl⟩⟩
    rw [h2, createAll_isOk]
    constructor
    · intro h p hp
      obtain ⟨j, hj⟩ := List.getElem?_of_mem hp
      obtain ⟨pc, hpc, hname⟩ := createBrick_proc hcb hj
      exact (hfp bb i j pc p hpc hname).1 (h (p, j) (List.mem_zipIdx_iff_getElem?.2 hj))
    · rintro h ⟨p, j⟩ hpj
      have hj : b.procs[j]? = some p := List.mem_zipIdx_iff_getElem?.1 hpj
      obtain ⟨pc, hpc, hname⟩ := createBrick_proc hcb hj
      exact (hfp bb i j pc p hpc hname).2 (h p (List.mem_of_getElem? hj))
  constructor
  · intro h b hb
    rw [← forall₂_and]
    obtain ⟨i, hi⟩ := List.getElem?_of_mem hb
    exact (hbr i b hi).1 (h (b, i) (List.mem_zipIdx_iff_getElem?.2 hi))
  · rintro h ⟨b, i⟩ hbi
    have hi : inp.basin.basinBricks[i]? = some b := List.mem_zipIdx_iff_getElem?.1 hbi
    exact (hbr i b hi).2 (forall₂_and.2 (h b (List.mem_of_getElem? hi)))

/-- **C57 (when building succeeds).**  A structure without repeated names builds exactly if it is well formed: every type is
known, every process works on a store its brick has, every parent and every target exists and takes the content. -/
theorem c57_builds_iff {inp : Input K} (hd : Spec.Distinct inp) :
    (∃ m, build inp = .ok m) ↔ Spec.WellFormed inp := by
  have hunit : ∀ bt, create inp = .ok bt → ((∃ us, createAll (fun ui : UnitIn K × ℕ => wireUnit bt ui.2 ui.1) inp.units.zipIdx = .ok us) ↔
      ∀ u un, inp.units[u]? = some un →
        (∀ b ∈ un.str.unitBricks, ∀ p ∈ b.procs, p.type ∉ Spec.atmosphereNames → ∀ o ∈ p.outs,
          o.target = "outlet" ∨ (o.target = "lateral" ∧ Spec.LateralOK inp un p o) ∨
            (o.target ≠ "lateral" ∧ Spec.NamedOK inp u un o)) ∧
        (∀ s ∈ un.str.unitSplits, ∀ o ∈ s.outs, o.target = "outlet" ∨ Spec.NamedOK inp u un o) ∧
        (∀ b ∈ un.str.unitBricks, ∀ p ∈ b.procs, p.type ∈ Spec.infiltrationNames →
          ∃ o c b', p.outs = [o] ∧ Spec.BrickNamed inp u un o.target c b') ∧
        (∀ b ∈ un.str.unitBricks, ∀ p ∈ b.procs, p.type = "capillary:hbv" →
          ∀ o ∈ p.outs, ∃ c b', Spec.BrickNamed inp u un o.target c b')) := by
    intro bt hbt
    have hok := create_ok hd hbt
    rw [createAll_isOk]
    have h1 : ∀ (u : ℕ) (un : UnitIn K), inp.units[u]? = some un → ((∃ r, wireUnit bt u un = .ok r) ↔
        (∀ b ∈ un.str.unitBricks, ∀ p ∈ b.procs, p.type ∉ Spec.atmosphereNames → ∀ o ∈ p.outs,
          o.target = "outlet" ∨ (o.target = "lateral" ∧ Spec.LateralOK inp un p o) ∨
            (o.target ≠ "lateral" ∧ Spec.NamedOK inp u un o)) ∧
        (∀ s ∈ un.str.unitSplits, ∀ o ∈ s.outs, o.target = "outlet" ∨ Spec.NamedOK inp u un o) ∧
        (∀ b ∈ un.str.unitBricks, ∀ p ∈ b.procs, p.type ∈ Spec.infiltrationNames →
          ∃ o c b', p.outs = [o] ∧ Spec.BrickNamed inp u un o.target c b') ∧
        (∀ b ∈ un.str.unitBricks, ∀ p ∈ b.procs, p.type = "capillary:hbv" →
          ∀ o ∈ p.outs, ∃ c b', Spec.BrickNamed inp u un o.target c b')) := by
      intro u un hu
      obtain ⟨bu, hbu, hU⟩ := hok.unit hu
      have hun := List.mem_of_getElem? hu
      rw [← linkUnit_isOk hok hU, ← wireUnitSplits_isOk hd hok hun hU, ← wireUnitBricks_isOk hd hok hun hU]
      simp only [wireUnit, hbu, bind_ok]
      constructor
      · rintro ⟨_, l, hl, a, ha, b, hb, _⟩
        exact ⟨⟨a, ha⟩, ⟨b, hb⟩, l, hl⟩
      · rintro ⟨⟨a, ha⟩, ⟨b, hb⟩, l, hl⟩
        exact ⟨_, l, hl, a, ha, b, hb, rfl⟩
    constructor
    · intro h u un hu
      exact (h1 u un hu).1 (h (un, u) (List.mem_zipIdx_iff_getElem?.2 hu))
    · rintro h ⟨un, u⟩ huz
      have hu : inp.units[u]? = some un := List.mem_zipIdx_iff_getElem?.1 huz
      exact (h1 u un hu).2 (h u un hu)
  constructor
  · rintro ⟨m, h⟩
    simp only [build, bind_ok] at h
    obtain ⟨bt, hbt, lb, hlb, nb, hnb, ns, hns, us, hus, h⟩ := h
    have hok := create_ok hd hbt
    obtain ⟨c1, c2, c3⟩ := (create_isOk hd).1 ⟨bt, hbt⟩
    have hu := (hunit bt hbt).1 ⟨us, hus⟩
    obtain ⟨l1, l2⟩ := (linkBasin_isOk hok).1 ⟨lb, hlb⟩
    refine ⟨fun u un hun => ?_, c1, c2, (wireBasinBricks_isOk hd hok).1 ⟨nb, hnb⟩, (wireBasinSplits_isOk hd hok).1 ⟨ns, hns⟩,
      l1, l2⟩
    obtain ⟨d1, d2, d3⟩ := c3 un (List.mem_of_getElem? hun)
    obtain ⟨e1, e2, e3, e4⟩ := hu u un hun
    exact ⟨d1, d2, d3, e1, e2, e3, e4⟩
  · intro w
    obtain ⟨bt, hbt⟩ := (create_isOk hd).2 ⟨w.bricks, w.splits, fun un hun => by
      obtain ⟨u, hu⟩ := List.getElem?_of_mem hun
      exact ⟨(w.units u un hu).bricks, (w.units u un hu).splits, (w.units u un hu).parents⟩⟩
    have hok := create_ok hd hbt
    obtain ⟨us, hus⟩ := (hunit bt hbt).2 fun u un hu =>
      ⟨(w.units u un hu).outs, (w.units u un hu).splitOuts, (w.units u un hu).linked, (w.units u un hu).fanned⟩
    obtain ⟨lb, hlb⟩ := (linkBasin_isOk hok).2 ⟨w.linked, w.noCapillary⟩
    obtain ⟨nb, hnb⟩ := (wireBasinBricks_isOk hd hok).2 w.outs
    obtain ⟨ns, hns⟩ := (wireBasinSplits_isOk hd hok).2 w.splitOuts
    simp only [build, bind_ok]
    exact ⟨_, bt, hbt, lb, hlb, nb, hnb, ns, hns, us, hus, rfl⟩

/-! ### Examples and findings -/

namespace WireDemo

/-- Ground and glacier with snowpacks, written with the generators; a soil store shared by the covers and a river store in the
sub-basin. -/
def auth : Except Err Auth := do
  let a ← genPrecipitation true "snow_rain:linear" {}
  let a ← addLandCover "ground" "ground" a
  let a ← addLandCover "ice" "glacier" a
  let a ← genSnowpacks "melt:degree_day" a
  let a ← addRedistribution "transport:snow_slide" false a
  let a ← selectBrick "ground" a
  let a ← addProcess "infiltration" "infiltration:socont" "soil" a
  let a ← addProcess "rest" "outflow:rest" "river" a
  let a ← selectBrick "ice" a
  let a ← addProcess "melt" "melt:degree_day" "outlet" a
  let a := addUnitBrick "soil" "storage" a
  let a ← addProcess "et" "et:socont" "river" a
  addProcess "outflow" "outflow:linear" "outlet" a

/-- The structure written. -/
def str : Struct := match auth with | .ok a => a.str | .error _ => {}

/-- Two units, the first draining snow to the second. -/
def inp : Input ℚ :=
  ⟨{ basinBricks := [⟨"river", "storage", "", [⟨"out", "outflow:linear", [{ target := "outlet" }]⟩], false⟩] },
   [⟨str, 3, [(1, 1)]⟩, ⟨str, 1, []⟩]⟩

theorem distinct : Spec.Distinct inp := by
  unfold Spec.Distinct Spec.DistinctUnit Spec.Indexed
  decide +kernel

theorem isOk {ε α : Type} {x : Except ε α} (h : x.toOption.isSome = true) : ∃ a, x = .ok a := by
  cases x with
  | ok a => exact ⟨a, rfl⟩
  | error e => cases h

theorem builds : ∃ m, build inp = .ok m := isOk (by decide +kernel)

/-- The example is well formed. -/
theorem wellFormed : Spec.WellFormed inp := (c57_builds_iff distinct).1 builds

/-- Destinations and fractions of the outputs of a process of the example. -/
def dests (i : Input ℚ) (c : Comp) (j : ℕ) : Option (List (Dest × ℚ × Bool)) :=
  ((build i).map fun m => (m.net.outputs c j).map fun f => (f.dst, f.unitFrac, f.weighted)).toOption

/-- The ground sends to the soil (weighted by its extent) and to the river (also spread over the basin); the slide goes to the
two snowpacks of the second unit; the evapotranspiration, declared towards the river, goes to the atmosphere. -/
theorem outputs : dests inp (.unitBrick 0 0) 0 = some [(.comp (.unitBrick 0 4), 1, true)] ∧
    dests inp (.unitBrick 0 0) 1 = some [(.comp (.basinBrick 0), 3 / 4, true)] ∧
    dests inp (.unitBrick 0 2) 1 = some [(.comp (.unitBrick 1 2), 1, true), (.comp (.unitBrick 1 3), 1, true)] ∧
    dests inp (.unitBrick 0 4) 0 = some [(.atmosphere, 1, false)] ∧
    dests inp (.unitBrick 0 4) 1 = some [(.outlet, 3 / 4, false)] :=
  ⟨by decide +kernel, by decide +kernel, by decide +kernel, by decide +kernel, by decide +kernel⟩

/-- The declared output of a process to the atmosphere is dropped: the river does not receive it. -/
theorem c57_declared_output_dropped :
    ((build inp).map fun m => (m.net.inputs (.basinBrick 0)).map (·.src)).toOption
      = some [.unitBrick 0 0, .unitBrick 1 0] := by decide +kernel

/-- A unit with two bricks of the same name. -/
def twice : Input ℚ :=
  ⟨{}, [⟨{ unitBricks := [⟨"a", "storage", "", [⟨"p", "outflow:linear", [{ target := "outlet" }]⟩], false⟩,
                          ⟨"a", "storage", "", [⟨"p", "outflow:linear", [{ target := "outlet" }]⟩], false⟩] }, 1, []⟩]⟩

/-- Two bricks of the same name: nothing is refused, the first is never connected and the second gets both outputs. -/
theorem c57_same_name_twice : dests twice (.unitBrick 0 0) 0 = some [] ∧
    dests twice (.unitBrick 0 1) 0 = some [(.outlet, 1, false), (.outlet, 1, false)] := by decide +kernel

/-- A unit that has a brick with the name of a sub-basin brick. -/
def shadow : Input ℚ :=
  ⟨{ basinBricks := [⟨"river", "storage", "", [], false⟩] },
   [⟨{ unitBricks := [⟨"soil", "storage", "", [⟨"p", "outflow:linear", [{ target := "river" }]⟩], false⟩,
                      ⟨"river", "storage", "", [], false⟩] }, 1, []⟩]⟩

/-- The unit's own brick hides the one of the sub-basin. -/
theorem c57_own_brick_hides : dests shadow (.unitBrick 0 0) 0 = some [(.comp (.unitBrick 0 1), 1, false)] := by decide +kernel

/-- A cover with two outputs to the soil, and a capillary process. -/
def capillary : Input ℚ :=
  ⟨{}, [⟨{ unitBricks := [⟨"g", "ground", "", [⟨"p", "infiltration:hbv", [{ target := "soil" }]⟩,
                            ⟨"q", "outflow:rest", [{ target := "soil" }]⟩], false⟩,
                          ⟨"f", "generic", "", [⟨"q", "outflow:rest", [{ target := "soil" }]⟩], false⟩,
                          ⟨"soil", "storage", "", [], false⟩,
                          ⟨"lower", "storage", "", [⟨"c", "capillary:hbv", [{ target := "soil" }]⟩], false⟩],
           covers := [0, 1] }, 1, []⟩]⟩

/-- A cover with two outputs towards the target counts twice in the weights of the capillary rise. -/
theorem c57_cover_counted_twice : ((build capillary).map fun m => (m.linksOf (.unitBrick 0 3) 0).map fun l =>
    (l.target, l.covers)).toOption = some [(.unitBrick 0 2, [0, 0, 1])] := by decide +kernel

end WireDemo

/-- A capillary process in the sub-basin can never be built. -/
theorem c57_basin_capillary_refused {inp : Input K} (hd : Spec.Distinct inp) {b : Brick} (hb : b ∈ inp.basin.basinBricks)
    {p : Proc} (hp : p ∈ b.procs) (hc : p.type = "capillary:hbv") : ∀ m, build inp ≠ .ok m := by
  intro m h
  exact ((c57_builds_iff hd).1 ⟨m, h⟩).noCapillary b hb p hp hc

end HB
