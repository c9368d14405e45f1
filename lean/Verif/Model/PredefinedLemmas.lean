import Verif.Spec.Predefined
import Verif.Props.BaseStructure2

/-! # Lemmas on writing the structure of a predefined model: the calls write what the description says. -/

set_option linter.unusedSectionVars false
set_option linter.unusedSimpArgs false

namespace HB.Wire

open HB.Names

theorem worksOn_isProcess {k t : String} (h : Spec.CanWork k t) : Spec.IsProcess k := by
  obtain ⟨pc, _, h, _⟩ := h
  exact ⟨pc, h⟩

theorem Yields.cast {r : Except Err Auth} {s s' : Struct} (h : s = s') (hr : Yields r s) : Yields r s' := h ▸ hr

theorem addOutputs_at {a : Auth} {pre : List Brick} {b : Brick} {post : List Brick} {ps : List Proc} {p : Proc}
    (hb : a.brick = some pre.length) (hs : a.str.unitBricks = pre ++ b :: post) (hp : a.proc = some ps.length)
    (hl : b.procs = ps ++ [p]) (ts : List String) :
    ts.foldlM (fun a t => addProcessOutput t .water a) a =
      .ok { a with str := { a.str with unitBricks := pre ++
        { b with procs := ps ++ [{ p with outs := p.outs ++ ts.map fun t => ({ target := t } : Out) }] } :: post } } := by
  induction ts generalizing a b p with
  | nil =>
    simp only [List.foldlM_nil, List.map_nil, List.append_nil, pure, Except.pure]
    rw [← hl, ← hs]
  | cons t ts ih =>
    rw [List.foldlM_cons]
    rw [show addProcessOutput t .water a = _ from modProc_at _ hb hs hp hl]
    dsimp only [bind, Except.bind]
    rw [ih (a := { a with str := { a.str with unitBricks := pre ++
        { b with procs := ps ++ [{ p with outs := p.outs ++ [{ target := t }] }] } :: post } })
      (b := { b with procs := ps ++ [{ p with outs := p.outs ++ [{ target := t }] }] })
      (p := { p with outs := p.outs ++ [{ target := t }] }) (by simpa using hb) rfl (by simpa using hp) rfl]
    simp [List.append_assoc]

/-- Writing a process appends it to the selected brick. -/
theorem writeProc_at {a : Auth} {pre : List Brick} {b : Brick} {post : List Brick} {p : PItem}
    (hb : a.brick = some pre.length) (hs : a.str.unitBricks = pre ++ b :: post) (hk : Spec.IsProcess p.kind)
    (h0 : p.targets = [] → mayLackTarget p.kind = true) (ht : ∀ t ∈ p.targets, t ≠ "" ∧ ':' ∉ t.toList) :
    ∃ a', writeProc p a = .ok a' ∧ a'.brick = a.brick ∧
      a'.str = { a.str with unitBricks := pre ++ { b with procs := b.procs ++ [Spec.procOf p] } :: post } := by
  unfold writeProc
  rw [if_neg (by rintro ⟨h1, h2⟩; rw [h0 h1] at h2; cases h2)]
  rw [addProcess_at hb hs hk]
  dsimp only [bind, Except.bind]
  have hst : (p.kind ∈ staticKinds) ↔ (p.kind = "outflow:direct" ∨ p.kind = "outflow:rest") := by simp [staticKinds]
  -- the state after the process was added
  generalize hq : (⟨p.name, p.kind, outsOf (p.targets.headD "")⟩ : Proc) = q
  set a1 : Auth := { a with
      str := { a.str with unitBricks := pre ++ { b with procs := b.procs ++ [q] } :: post }, proc := some b.procs.length } with ha1
  -- flags
  have hstatic : onlyIf (decide (p.kind ∈ staticKinds)) setStatic a1 = .ok { a1 with str := { a.str with unitBricks := pre ++
      { b with procs := b.procs ++ [{ q with outs := q.outs.map fun o => { o with static := o.static || decide (p.kind ∈ staticKinds) } }] } :: post } } := by
    unfold onlyIf
    by_cases h : p.kind ∈ staticKinds
    · rw [if_pos (decide_eq_true h)]
      unfold setStatic
      rw [modProc_at (pre := pre) (b := { b with procs := b.procs ++ [q] }) (post := post) (ps := b.procs) (p := q) _
        (by simpa [ha1] using hb) rfl rfl rfl]
      simp [ha1, h]
    · rw [if_neg (by simpa using h)]
      simp [ha1, h]
  rw [hstatic]
  dsimp only
  have hflag : ∃ a3 q', onlyIf p.inst setInstantaneous { a1 with str := { a.str with unitBricks := pre ++
      { b with procs := b.procs ++ [{ q with outs := q.outs.map fun o => { o with static := o.static || decide (p.kind ∈ staticKinds) } }] } :: post } } =
        (.ok a3 : Except Err Auth) ∧ a3.brick = a.brick ∧ a3.proc = some b.procs.length ∧
      a3.str = { a.str with unitBricks := pre ++ { b with procs := b.procs ++ [q'] } :: post } ∧
      q' = { q with outs := q.outs.map fun o => { o with static := o.static || decide (p.kind ∈ staticKinds), inst := o.inst || p.inst } } := by
    unfold onlyIf
    cases hi : p.inst with
    | true =>
      rw [if_pos rfl]
      unfold setInstantaneous
      rw [modProc_at (pre := pre) (b := { b with procs := b.procs ++ [{ q with outs := q.outs.map fun o => { o with static := o.static || decide (p.kind ∈ staticKinds) } }] })
        (post := post) (ps := b.procs) (p := { q with outs := q.outs.map fun o => { o with static := o.static || decide (p.kind ∈ staticKinds) } }) _
        (by simpa [ha1] using hb) rfl (by simp [ha1]) rfl]
      refine ⟨_, _, rfl, rfl, rfl, rfl, ?_⟩
      simp [Function.comp_def]
    | false =>
      rw [if_neg (by simp)]
      refine ⟨_, _, rfl, rfl, rfl, rfl, ?_⟩
      simp [Function.comp_def]
  obtain ⟨a3, q', h1, h2, h3, h4, h5⟩ := hflag
  rw [h1]
  dsimp only
  rw [addOutputs_at (pre := pre) (b := { b with procs := b.procs ++ [q'] }) (post := post) (ps := b.procs) (p := q')
    (by rw [h2]; exact hb) (by rw [h4]) h3 rfl]
  refine ⟨_, rfl, h2, ?_⟩
  simp only [h4]
  congr 4
  rw [h5, ← hq]
  unfold Spec.procOf Spec.outsOfItem
  cases htg : p.targets with
  | nil => simp [outsOf]
  | cons t ts =>
    obtain ⟨ht1, ht2⟩ := ht t (by rw [htg]; simp)
    simp only [List.headD_cons, List.tail_cons]
    rw [outsOf_plain ht1 ht2]
    simp [hst]

/-- Writing the processes of an entry appends them. -/
theorem writeProcs_at {pre : List Brick} {post : List Brick} (ps : List PItem) {a : Auth} {b : Brick}
    (hb : a.brick = some pre.length) (hs : a.str.unitBricks = pre ++ b :: post) (hk : ∀ p ∈ ps, Spec.IsProcess p.kind)
    (h0 : ∀ p ∈ ps, p.targets = [] → mayLackTarget p.kind = true) (ht : ∀ p ∈ ps, ∀ t ∈ p.targets, t ≠ "" ∧ ':' ∉ t.toList) :
    Yields (ps.foldlM (fun a p => writeProc p a) a)
      { a.str with unitBricks := pre ++ { b with procs := b.procs ++ ps.map Spec.procOf } :: post } := by
  induction ps generalizing a b with
  | nil =>
    refine ⟨a, rfl, ?_⟩
    simp only [List.map_nil, List.append_nil]
    rw [← hs]
  | cons p ps ih =>
    rw [List.foldlM_cons]
    obtain ⟨a', h1, h2, h3⟩ := writeProc_at hb hs (hk p (by simp)) (h0 p (by simp)) (ht p (by simp))
    rw [h1]
    dsimp only [bind, Except.bind]
    have := ih (a := a') (b := { b with procs := b.procs ++ [Spec.procOf p] }) (by rw [h2]; exact hb) (by rw [h3])
      (fun q hq => hk q (by simp [hq])) (fun q hq => h0 q (by simp [hq])) (fun q hq => ht q (by simp [hq]))
    rw [h3] at this
    simpa [List.append_assoc] using this

/-- The structure after the entries `done` were written. -/
def sofar (s : Struct) (done : List Item) : Struct :=
  { s with unitBricks := s.unitBricks.map (Spec.fill done) ++ (Spec.itemsAt .unit done).map Spec.storageOf
           basinBricks := s.basinBricks ++ (Spec.itemsAt .basin done).map Spec.storageOf }

theorem sofar_nil (s : Struct) : sofar s [] = s := by
  have : Spec.fill [] = id := by funext b; simp [Spec.fill, Spec.listedFor]
  simp [sofar, Spec.itemsAt, this]

theorem itemsAt_append (pl : Place) (l l' : List Item) : Spec.itemsAt pl (l ++ l') = Spec.itemsAt pl l ++ Spec.itemsAt pl l' := by
  simp [Spec.itemsAt]

theorem fill_append (l : List Item) (it : Item) (b : Brick) : Spec.fill (l ++ [it]) b =
    { Spec.fill l b with procs := (Spec.fill l b).procs ++ if it.place = .cover ∧ it.key = b.name then it.procs.map Spec.procOf else [] } := by
  unfold Spec.fill Spec.listedFor
  by_cases h : it.place = .cover ∧ it.key = b.name
  · simp [h.1, h.2, List.filter_append]
  · rw [if_neg h]
    simp only [List.filter_append, List.flatMap_append, List.append_nil]
    rw [List.filter_cons_of_neg (by simpa using h)]
    simp

theorem basinOuts_plain {p : PItem} (ht : ∀ t ∈ p.targets, t ≠ "" ∧ ':' ∉ t.toList) : basinOutsOf p = Spec.outsOfItem p := by
  unfold basinOutsOf Spec.outsOfItem
  cases htg : p.targets with
  | nil => rfl
  | cons t ts =>
    obtain ⟨-, h⟩ := ht t (by rw [htg]; simp)
    simp [parse_plain h, staticKinds]

/-- Writing an entry. -/
theorem writeItem_yields {s : Struct} (hnd : (s.unitBricks.map (·.name)).Nodup) {done : List Item} {it : Item}
    (hfresh : it.place = .cover → ∃ b ∈ s.unitBricks, b.name = it.key) (hdir : it.place = .cover → it.direct = false)
    (hk : ∀ p ∈ it.procs, Spec.IsProcess p.kind)
    (h0 : ∀ p ∈ it.procs, p.targets = [] → mayLackTarget p.kind = true)
    (ht : ∀ p ∈ it.procs, ∀ t ∈ p.targets, t ≠ "" ∧ ':' ∉ t.toList) {a : Auth} (ha : a.str = sofar s done) :
    Yields (writeItem it a) (sofar s (done ++ [it])) := by
  unfold writeItem
  cases hp : it.place with
  | basin =>
    dsimp only
    unfold writeBasinBrick
    rw [if_pos]
    · refine ⟨_, rfl, ?_⟩
      have hb : basinBrickOf it = Spec.storageOf it := by
        unfold basinBrickOf Spec.storageOf
        congr 1
        refine List.map_congr_left fun p hp' => ?_
        rw [basinOuts_plain (ht p hp')]
        rfl
      have hf : Spec.fill (done ++ [it]) = Spec.fill done := by
        funext b
        rw [fill_append, if_neg (by simp [hp])]
        simp
      simp only [ha, sofar, hf, itemsAt_append, hb]
      simp [Spec.itemsAt, hp, List.append_assoc]
    · rw [List.all_eq_true]
      intro p hp'
      have h1 : registered p.kind = true := by
        obtain ⟨pc, hr⟩ := register_ok (hk p hp')
        simp [registered, hr]
      rw [h1, Bool.and_true, Bool.or_eq_true]
      by_cases h : p.targets = []
      · exact .inr (h0 p hp' h)
      · exact .inl (by simpa using h)
  | cover =>
    dsimp only
    obtain ⟨b, hb, hname⟩ := hfresh hp
    obtain ⟨pre, post, hsplit⟩ := List.append_of_mem hb
    have hbr : a.str.unitBricks = pre.map (Spec.fill done) ++ Spec.fill done b ::
        (post.map (Spec.fill done) ++ (Spec.itemsAt .unit done).map Spec.storageOf) := by
      rw [ha]; simp [sofar, hsplit]
    have hnd' : ∀ x ∈ pre ++ post, x.name ≠ b.name := by
      rw [hsplit] at hnd
      intro x hx he
      rw [List.map_append, List.map_cons] at hnd
      have h1 := List.nodup_middle.mp hnd
      rw [List.nodup_cons] at h1
      refine h1.1 ?_
      rw [← List.map_append]
      exact List.mem_map.mpr ⟨x, hx, he⟩
    have hfn : ∀ x, (Spec.fill done x).name = x.name := fun x => rfl
    have hsel : selectBrick it.key a = .ok { a with brick := some (pre.map (Spec.fill done)).length, proc := none } := by
      have := selectBrick_at (a := a) hbr (by
        intro x hx
        obtain ⟨y, hy, rfl⟩ := List.mem_map.mp hx
        rw [hfn, hfn]
        exact hnd' y (by simp [hy]))
      rw [← hname]
      exact this
    rw [hsel, hdir hp]
    dsimp only [bind, Except.bind, onlyIf, Bool.false_eq_true, if_false]
    have hw := writeProcs_at (pre := pre.map (Spec.fill done)) (post := post.map (Spec.fill done) ++ (Spec.itemsAt .unit done).map Spec.storageOf)
      it.procs (a := { a with brick := some (pre.map (Spec.fill done)).length, proc := none }) (b := Spec.fill done b) rfl hbr hk h0 ht
    simp only [Bool.false_eq_true, if_false]
    refine Yields.cast ?_ hw
    have e1 : pre.map (Spec.fill (done ++ [it])) = pre.map (Spec.fill done) := by
      refine List.map_congr_left fun x hx => ?_
      rw [fill_append, if_neg (fun h => hnd' x (by simp [hx]) (by rw [← h.2, hname]))]
      simp
    have e2 : post.map (Spec.fill (done ++ [it])) = post.map (Spec.fill done) := by
      refine List.map_congr_left fun x hx => ?_
      rw [fill_append, if_neg (fun h => hnd' x (by simp [hx]) (by rw [← h.2, hname]))]
      simp
    have e3 : Spec.fill (done ++ [it]) b = { Spec.fill done b with procs := (Spec.fill done b).procs ++ it.procs.map Spec.procOf } := by
      rw [fill_append, if_pos ⟨hp, hname.symm⟩]
    simp only [ha, sofar, hsplit, List.map_append, List.map_cons, e1, e2, e3, itemsAt_append]
    simp [Spec.itemsAt, hp]
  | unit =>
    dsimp only
    have hlen : a.str.unitBricks = a.str.unitBricks := rfl
    have hset : ∃ a2, onlyIf it.direct setDirect (addUnitBrick it.key it.kind a) = .ok a2 ∧
        a2.brick = some a.str.unitBricks.length ∧
        a2.str = { a.str with unitBricks := a.str.unitBricks ++ [⟨it.key, it.kind, "", [], it.direct⟩] } := by
      unfold onlyIf
      cases hd : it.direct with
      | true =>
        rw [if_pos rfl]
        unfold setDirect
        rw [modBrick_at (pre := a.str.unitBricks) (b := { name := it.key, type := it.kind }) (post := []) _ rfl rfl]
        exact ⟨_, rfl, rfl, rfl⟩
      | false =>
        rw [if_neg (by simp)]
        exact ⟨_, rfl, rfl, rfl⟩
    obtain ⟨a2, h1, h2, h3⟩ := hset
    rw [h1]
    dsimp only [bind, Except.bind]
    have hw := writeProcs_at (pre := a.str.unitBricks) (post := []) it.procs (a := a2) (b := ⟨it.key, it.kind, "", [], it.direct⟩) h2
      (by rw [h3]) hk h0 ht
    refine Yields.cast ?_ hw
    have hf : Spec.fill (done ++ [it]) = Spec.fill done := by
      funext b
      rw [fill_append, if_neg (by simp [hp])]
      simp
    simp only [h3, ha, sofar, hf, itemsAt_append]
    simp [Spec.itemsAt, hp, Spec.storageOf]

/-- The calls made for a good description write the described structure. -/
theorem generateOne_yields {v : Variant} (hg : Spec.GoodNames v.base) (hb : Spec.Buildable v.base) {bas : List String} (hp : Spec.Plan v bas) :
    Yields (generateOne v) (Spec.complete v) := by
  have hl : ∀ p ∈ v.base.redistribution, Spec.IsProcess p := by
    intro p hp
    have := hb.redistribution p hp
    simp only [Spec.lateralNames, List.mem_cons, List.not_mem_nil, or_false] at this
    rcases this with rfl | rfl | rfl
    · exact ⟨.snowSlide, by decide⟩
    · exact ⟨.snowFrey, by decide⟩
    · exact ⟨.snowFreyDynamic, by decide⟩
  obtain ⟨a0, h0, hs0⟩ := c58_generated hg ⟨hb.retention, fun _ _ => hb.melt.1, fun _ _ p h => (hb.outflow p h).1,
    fun _ _ p h => (hb.refreezing p h).1, fun _ _ p h => (hb.snowIce p h).1, fun _ _ => hl, fun _ _ p h => (hb.sublimation p h).1⟩
  unfold generateOne
  rw [h0]
  dsimp only [bind, Except.bind]
  have key : ∀ todo done, v.items = done ++ todo → ∀ a : Auth, a.str = sofar (Spec.base v.base) done →
      Yields (todo.foldlM (fun a it => writeItem it a) a) (sofar (Spec.base v.base) v.items) := by
    intro todo
    induction todo with
    | nil =>
      intro done hd a ha
      rw [List.append_nil] at hd
      exact ⟨a, rfl, by rw [ha, ← hd]⟩
    | cons it todo ih =>
      intro done hd a ha
      have hmem : it ∈ v.items := by rw [hd]; simp
      rw [List.foldlM_cons]
      refine Yields.bind (s := sofar (Spec.base v.base) (done ++ [it])) ?_ fun b hb' => ih (done ++ [it]) (by rw [hd]; simp) b hb'
      refine writeItem_yields hg.distinct ?_ (fun h => (hp.covers it hmem h).1) ?_ (fun p hq => (hp.written it hmem p hq).1)
        (fun p hq t ht => ⟨((hp.written it hmem p hq).2 t ht).1, ((hp.written it hmem p hq).2 t ht).2.1⟩) ha
      · intro h
        obtain ⟨-, c, hc, he⟩ := hp.covers it hmem h
        exact ⟨_, cover_mem hg hb hc, he⟩
      · intro p hq
        by_cases h : it.place = .cover
        · obtain ⟨-, c, hc, he⟩ := hp.covers it hmem h
          exact worksOn_isProcess (hp.onCover it hmem h p hq c hc he)
        · exact worksOn_isProcess (hp.onStorage it hmem h p hq)
  have := key v.items [] rfl a0 (by rw [hs0, sofar_nil])
  refine Yields.cast ?_ this
  unfold sofar Spec.complete
  rfl

end HB.Wire
