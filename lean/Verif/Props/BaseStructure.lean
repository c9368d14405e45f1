import Verif.Model.BaseLemmas

/-!
# C58: the generated base structure

Every sequence of generator calls made by `generate_base_structure` writes the structure the user asked for.
-/

set_option linter.unusedSectionVars false
set_option linter.unusedSimpArgs false

namespace HB.Wire

open HB.Names

theorem addLandCover_yields {w : Bool} {sp : String} {bs : List Brick} {cv sf : List ℕ} {so ro : List Out} {a : Auth}
    (h : a.str = mk w sp bs cv sf so ro) (n t : String) :
    Yields (addLandCover n t a) (mk w sp (bs ++ [⟨n, t, "", [], false⟩]) (cv ++ [bs.length]) sf so (ro ++ [{ target := n }])) := by
  unfold addLandCover
  dsimp only
  have hs : ({ (addUnitBrick n t a) with str := { (addUnitBrick n t a).str with
      covers := (addUnitBrick n t a).str.covers ++ [a.str.unitBricks.length] } } : Auth).str =
      mk w sp (bs ++ [⟨n, t, "", [], false⟩]) (cv ++ [bs.length]) sf so ro := by
    simp [addUnitBrick, h, mk]
  rw [selectRain hs]
  dsimp only
  rw [addRain (w := w) (sp := sp) (bs := bs ++ [⟨n, t, "", [], false⟩]) (cv := cv ++ [bs.length]) (sf := sf) (so := so)
    (ro := ro) hs rfl]
  exact yields_ok rfl

theorem addCovers_yields {w : Bool} {sp : String} (todo : List Cover) : ∀ (done : List Cover) (a : Auth),
    a.str = mk w sp (done.map Spec.coverBrick) (List.range done.length) [] [] (done.map fun c => { target := c.name }) →
    Yields (addCovers todo a) (mk w sp ((done ++ todo).map Spec.coverBrick) (List.range (done ++ todo).length) [] []
      ((done ++ todo).map fun c => { target := c.name })) := by
  induction todo with
  | nil => intro done a h; exact yields_ok (by simpa using h)
  | cons c todo ih =>
    intro done a h
    unfold addCovers
    rw [List.foldlM_cons]
    refine Yields.bind (addLandCover_yields h c.name c.type) fun b hb => ?_
    have := ih (done ++ [c]) b (by rw [hb]; simp [Spec.coverBrick, List.range_succ])
    simpa [addCovers] using this

/-- Where the rain of a cover goes before the snowpacks are made. -/
def entry1 (c : Cover) : Out := { target := if c.canopy then c.name ++ "_canopy" else c.name }

section
variable {g : BaseArgs} (hg : Spec.GoodNames g)
include hg

theorem good_nodup : (g.covers.map (·.name)).Nodup := by
  have := hg.distinct
  unfold Spec.base at this
  simp only [List.map_append, List.map_map] at this
  exact (List.nodup_append.mp (List.nodup_append.mp this).1).1

theorem good_canopy {c d : Cover} (hc : c ∈ g.covers) (hd : d ∈ g.covers) (h : d.canopy = true) : d.name ++ "_canopy" ≠ c.name := by
  have := hg.distinct
  unfold Spec.base at this
  simp only [List.map_append, List.map_map] at this
  have h2 := (List.nodup_append.mp (List.nodup_append.mp this).1).2.2
  intro he
  exact h2 _ (List.mem_map.mpr ⟨c, hc, rfl⟩) _ (List.mem_map.mpr ⟨d, List.mem_filter.mpr ⟨hd, h⟩, rfl⟩) he.symm

theorem good_snow (hw : g.withSnow = true) {c d : Cover} (hc : c ∈ g.covers) (hd : d ∈ g.covers) :
    d.name ++ "_snowpack" ≠ c.name := by
  have := hg.distinct
  unfold Spec.base at this
  simp only [List.map_append, List.map_map, hw, if_true] at this
  have h2 := (List.nodup_append.mp this).2.2
  intro he
  exact h2 c.name (List.mem_append_left _ (List.mem_map.mpr ⟨c, hc, rfl⟩)) _ (List.mem_map.mpr ⟨d, hd, rfl⟩) he.symm

theorem good_snow_canopy (hw : g.withSnow = true) {c d : Cover} (hc : c ∈ g.covers) (hd : d ∈ g.covers) (h : c.canopy = true) :
    d.name ++ "_snowpack" ≠ c.name ++ "_canopy" := by
  have := hg.distinct
  unfold Spec.base at this
  simp only [List.map_append, List.map_map, hw, if_true] at this
  have h2 := (List.nodup_append.mp this).2.2
  intro he
  exact h2 (c.name ++ "_canopy") (List.mem_append_right _ (List.mem_map.mpr ⟨c, List.mem_filter.mpr ⟨hc, h⟩, rfl⟩)) _
    (List.mem_map.mpr ⟨d, hd, rfl⟩) he.symm

theorem good_split {done todo : List Cover} {c d : Cover} (h : g.covers = done ++ c :: todo) (hd : d ∈ done) :
    d.name ≠ c.name := by
  have := good_nodup hg
  rw [h, List.map_append, List.map_cons] at this
  have h2 := (List.nodup_append.mp this).2.2
  exact h2 d.name (List.mem_map.mpr ⟨d, hd, rfl⟩) c.name (by simp)

theorem good_split' {done todo : List Cover} {c d : Cover} (h : g.covers = done ++ c :: todo) (hd : d ∈ todo) :
    d.name ≠ c.name := by
  have := good_nodup hg
  rw [h, List.map_append, List.map_cons] at this
  have h2 := (List.nodup_append.mp this).2.1
  rw [List.nodup_cons] at h2
  intro he
  exact h2.1 (List.mem_map.mpr ⟨d, hd, he⟩)

theorem outsOf_snow {c : Cover} (hc : c ∈ g.covers) : outsOf (c.name ++ "_snowpack") = [{ target := c.name ++ "_snowpack" }] :=
  outsOf_plain (append_ne (by decide)) (colon_append (hg.plain c hc).2 (by decide))

theorem outsOf_cover {c : Cover} (hc : c ∈ g.covers) : outsOf c.name = [{ target := c.name }] :=
  outsOf_plain (hg.plain c hc).1 (hg.plain c hc).2

theorem genCanopy_yields {done todo : List Cover} {c : Cover} (h : g.covers = done ++ c :: todo) (hc : c.canopy = true)
    {a : Auth} {bs : List Brick} {sf : List ℕ}
    (ha : a.str = mk g.withSnow g.splitter bs (List.range g.covers.length) sf []
      (done.map entry1 ++ (c :: todo).map fun c => { target := c.name })) :
    Yields (genCanopy c.name (Spec.belowCanopy g c) a)
      (mk g.withSnow g.splitter (bs ++ [Spec.canopyBrick g c]) (List.range g.covers.length) (sf ++ [bs.length]) []
        ((done ++ [c]).map entry1 ++ todo.map fun c => { target := c.name })) := by
  have hm : c ∈ g.covers := by rw [h]; simp
  have hp1 : Spec.IsProcess "outflow:threshold" := ⟨.outflowThreshold, by decide⟩
  have hp2 : Spec.IsProcess "et:open_water" := ⟨.etOpenWater, by decide⟩
  have hb : outsOf (Spec.belowCanopy g c) = [{ target := Spec.belowCanopy g c }] := by
    unfold Spec.belowCanopy
    split
    · exact outsOf_snow hg hm
    · exact outsOf_cover hg hm
  unfold genCanopy setParent
  dsimp only
  rw [addSurface_eq, ha]
  rw [modBrick_at (pre := bs) (b := { name := c.name ++ "_canopy", type := "interception_storage" }) (post := []) _ rfl rfl]
  dsimp only [bind, Except.bind]
  rw [addProcess_at (pre := bs) (post := []) rfl rfl hp1]
  dsimp only
  rw [addProcess_at (pre := bs) (post := []) rfl rfl hp2]
  dsimp only
  unfold selectSplitter
  rw [selectRain (w := g.withSnow) (sp := g.splitter) (bs := bs ++ [Spec.canopyBrick g c]) (cv := List.range g.covers.length)
    (sf := sf ++ [bs.length]) (so := []) (ro := done.map entry1 ++ (c :: todo).map fun c => { target := c.name })
    (by simp [mk, Spec.canopyBrick, hb, outsOf_empty, Spec.pr])]
  dsimp only
  rw [redirectRain' (w := g.withSnow) (sp := g.splitter) (bs := bs ++ [Spec.canopyBrick g c]) (cv := List.range g.covers.length)
    (sf := sf ++ [bs.length]) (so := []) (ro := done.map entry1 ++ (c :: todo).map fun c => { target := c.name })
    (by simp [mk, Spec.canopyBrick, hb, outsOf_empty, Spec.pr]) rfl _ _ (by simp)]
  refine yields_ok ?_
  dsimp only
  rw [List.map_cons, redirect_at c.name _ (done.map entry1) { target := c.name } _ ?_ rfl]
  · simp [entry1, hc]
  · intro x hx
    obtain ⟨d, hd, rfl⟩ := List.mem_map.mp hx
    have hdm : d ∈ g.covers := by rw [h]; simp [hd]
    unfold entry1
    dsimp only
    split
    · rename_i hdc; exact good_canopy hg hm hdm hdc
    · exact good_split hg h hd

theorem addCanopies_yields : ∀ (todo done : List Cover), g.covers = done ++ todo → ∀ a : Auth,
    a.str = mk g.withSnow g.splitter (g.covers.map Spec.coverBrick ++ (done.filter (·.canopy)).map (Spec.canopyBrick g))
      (List.range g.covers.length) (List.range' g.covers.length (done.filter (·.canopy)).length) []
      (done.map entry1 ++ todo.map fun c => { target := c.name }) →
    Yields (addCanopies (g.withSnow && g.rainToSnowpack) todo a)
      (mk g.withSnow g.splitter (g.covers.map Spec.coverBrick ++ (Spec.canopies g).map (Spec.canopyBrick g))
      (List.range g.covers.length) (List.range' g.covers.length (Spec.canopies g).length) [] (g.covers.map entry1)) := by
  intro todo
  induction todo with
  | nil =>
    intro done hd a ha
    rw [List.append_nil] at hd
    refine yields_ok ?_
    rw [ha, ← hd]
    simp [Spec.canopies]
  | cons c todo ih =>
    intro done hd a ha
    unfold addCanopies
    rw [List.foldlM_cons]
    by_cases hc : c.canopy = true
    · simp only [hc, if_true]
      refine Yields.bind (genCanopy_yields hg hd hc ha) fun b hb => ?_
      have := ih (done ++ [c]) (by simp [hd]) b (by
        rw [hb]
        simp [List.filter_append, hc, List.range'_concat])
      simpa [addCanopies] using this
    · have hc' : c.canopy = false := by simpa using hc
      simp only [hc', Bool.false_eq_true, if_false]
      refine Yields.bind (yields_ok ha) fun b hb => ?_
      have := ih (done ++ [c]) (by simp [hd]) b (by
        rw [hb]
        simp [List.filter_append, hc', entry1])
      simpa [addCanopies] using this

/-- The snowpack of a cover with given processes. -/
def sb (c : Cover) (ps : List Proc) : Brick := ⟨c.name ++ "_snowpack", "snowpack", c.name, ps, false⟩

/-- The snow of a cover. -/
def snowOut (c : Cover) : Out := { target := c.name ++ "_snowpack", content := .snow }

/-- The bricks when the snowpacks have given processes. -/
def bricksWith (g : BaseArgs) (ss : List Brick) : List Brick :=
  g.covers.map Spec.coverBrick ++ (Spec.canopies g).map (Spec.canopyBrick g) ++ ss

omit hg in
theorem bricksWith_len (g : BaseArgs) (ss : List Brick) : (bricksWith g ss).length = g.covers.length + ((Spec.canopies g).length + ss.length) := by
  simp [bricksWith]

omit hg in
theorem bricksWith_snoc (g : BaseArgs) (ss : List Brick) (b : Brick) : bricksWith g ss ++ [b] = bricksWith g (ss ++ [b]) := by
  simp [bricksWith]

/-- The structure when snowpacks `ss` are made. -/
def snowState (g : BaseArgs) (ss : List Brick) (so ro : List Out) : Struct :=
  mk true g.splitter (bricksWith g ss) (List.range g.covers.length)
    (List.range' g.covers.length ((Spec.canopies g).length + ss.length)) so ro

omit hg in
theorem snowState_snoc (g : BaseArgs) (ss : List Brick) (so ro : List Out) (b : Brick) :
    mk true g.splitter (bricksWith g ss ++ [b]) (List.range g.covers.length)
      (List.range' g.covers.length ((Spec.canopies g).length + ss.length) ++ [(bricksWith g ss).length]) so ro =
      snowState g (ss ++ [b]) so ro := by
  unfold snowState
  rw [bricksWith_snoc, bricksWith_len, List.length_append, List.length_singleton, ← Nat.add_assoc (Spec.canopies g).length ss.length 1,
    List.range'_concat, Nat.one_mul]

omit hg in
theorem newSnowpack {c : Cover} {ss : List Brick} {so ro : List Out} {a : Auth} (ha : a.str = snowState g ss so ro) :
    ∃ a1 a2 a3, selectSplitter "snow_splitter" a = .ok a1 ∧ addSplitterOutput (c.name ++ "_snowpack") .snow a1 = .ok a2 ∧
      setParent c.name (addSurface (c.name ++ "_snowpack") "snowpack" a2) = .ok a3 ∧
      a3.str = snowState g (ss ++ [sb c []]) (so ++ [snowOut c]) ro ∧ a3.brick = some (bricksWith g ss).length := by
  refine ⟨{ a with split := some 1 }, { a with str := snowState g ss (so ++ [snowOut c]) ro, split := some 1 }, ?_⟩
  have h2 := addSnow (a := { a with split := some 1 }) ha rfl (c.name ++ "_snowpack") .snow
  unfold setParent
  rw [addSurface_eq]
  rw [modBrick_at (pre := bricksWith g ss) (b := { name := c.name ++ "_snowpack", type := "snowpack" }) (post := []) _ rfl rfl]
  refine ⟨_, ?_, h2, rfl, ?_, rfl⟩
  · unfold selectSplitter
    rw [selectSnow ha]
  · exact snowState_snoc g ss _ _ _

theorem snowpackPass_yields {c : Cover} (hc : c ∈ g.covers) (hm : Spec.IsProcess g.melt) {ss : List Brick} {so ro : List Out}
    {a : Auth} (ha : a.str = snowState g ss so ro) :
    Yields (snowpackPass g.melt (Spec.coverBrick c) a)
      (snowState g (ss ++ [sb c [Spec.pr "melt" g.melt [{ target := c.name }]]]) (so ++ [snowOut c]) ro) := by
  obtain ⟨a1, a2, a3, h1, h2, h3, h4, h5⟩ := newSnowpack (c := c) ha
  unfold snowpackPass Spec.coverBrick
  dsimp only
  rw [h1]
  dsimp only [bind, Except.bind]
  rw [h2]
  dsimp only
  rw [h3]
  dsimp only
  rw [addProcess_at (pre := bricksWith g ss) (b := sb c []) (post := []) h5 (by rw [h4]; simp [snowState, mk, bricksWith]) hm]
  refine yields_ok ?_
  dsimp only
  rw [h4, outsOf_cover hg hc]
  simp [snowState, mk, sb, bricksWith, Spec.pr]

theorem genSnowpacks_yields (hm : g.covers ≠ [] → Spec.IsProcess g.melt) {ro : List Out} {a : Auth}
    (ha : a.str = snowState g [] [] ro) :
    Yields (genSnowpacks g.melt a)
      (snowState g (g.covers.map fun c => sb c [Spec.pr "melt" g.melt [{ target := c.name }]]) (g.covers.map snowOut) ro) := by
  refine overCovers_rule g.covers
    (fun done => snowState g (done.map fun c => sb c [Spec.pr "melt" g.melt [{ target := c.name }]]) (done.map snowOut) ro)
    _ (fun _ => rfl) (fun done => ⟨_, List.append_assoc _ _ _⟩) ?_ ha
  intro done c todo h a ha
  have hc : c ∈ g.covers := by rw [h]; simp
  have := snowpackPass_yields hg hc (hm (List.ne_nil_of_mem hc)) ha
  simpa using this

/-- The processes of a snowpack with retention. -/
def retProcs (g : BaseArgs) (r : String) (c : Cover) : List Proc :=
  [Spec.pr "melt" g.melt [{ target := c.name ++ "_snowpack", inst := true }], Spec.pr "meltwater" r [{ target := c.name }]]

/-- Where the rain of a cover goes once its snowpack is made. -/
def entry2 (g : BaseArgs) (c : Cover) : Out :=
  { target := if c.canopy then c.name ++ "_canopy" else if g.rainToSnowpack then c.name ++ "_snowpack" else c.name }

theorem retentionPass_yields (hw : g.withSnow = true) {r : String} {done todo : List Cover} {c : Cover}
    (h : g.covers = done ++ c :: todo) (hm : Spec.IsProcess g.melt) (hr : Spec.IsProcess r) {ss : List Brick} {so : List Out}
    {a : Auth} (ha : a.str = snowState g ss so (done.map (entry2 g) ++ (c :: todo).map entry1)) :
    Yields (retentionPass g.melt r g.rainToSnowpack (Spec.coverBrick c) a)
      (snowState g (ss ++ [sb c (retProcs g r c)]) (so ++ [snowOut c]) ((done ++ [c]).map (entry2 g) ++ todo.map entry1)) := by
  have hc : c ∈ g.covers := by rw [h]; simp
  obtain ⟨a1, a2, a3, h1, h2, h3, h4, h5⟩ := newSnowpack (c := c) ha
  unfold retentionPass Spec.coverBrick
  dsimp only
  rw [h1]
  dsimp only [bind, Except.bind]
  rw [h2]
  dsimp only
  rw [h3]
  dsimp only
  rw [addProcess_at (pre := bricksWith g ss) (b := sb c []) (post := []) h5 (by rw [h4]; simp [snowState, mk, bricksWith]) hm]
  dsimp only
  unfold outputToSameBrick
  rw [h5]
  dsimp only
  rw [getElem?_at]
  dsimp only
  rw [modProc_at (pre := bricksWith g ss) (b := { sb c [] with procs := (sb c []).procs ++ [⟨"melt", g.melt, outsOf ""⟩] })
    (post := []) (ps := []) (p := ⟨"melt", g.melt, []⟩) _ rfl rfl rfl rfl]
  dsimp only
  rw [addProcess_at (pre := bricksWith g ss) (post := []) rfl rfl hr]
  dsimp only
  unfold addProcessOutput
  rw [modProc_at (pre := bricksWith g ss) (post := []) (ps := [Spec.pr "melt" g.melt [{ target := c.name ++ "_snowpack", inst := true }]])
    (p := ⟨"meltwater", r, []⟩) _ rfl rfl rfl rfl]
  dsimp only
  have hstr : ({ a3.str with unitBricks := bricksWith g ss ++ [sb c (retProcs g r c)] } : Struct) =
      snowState g (ss ++ [sb c (retProcs g r c)]) (so ++ [snowOut c]) (done.map (entry2 g) ++ (c :: todo).map entry1) := by
    rw [h4]
    simp [snowState, mk, bricksWith]
  by_cases hrs : g.rainToSnowpack = true
  · rw [if_pos hrs]
    unfold selectSplitter
    rw [selectRain (w := true) (sp := g.splitter) (bs := bricksWith g (ss ++ [sb c (retProcs g r c)]))
      (cv := List.range g.covers.length) (sf := List.range' g.covers.length ((Spec.canopies g).length + (ss ++ [sb c (retProcs g r c)]).length))
      (so := so ++ [snowOut c]) (ro := done.map (entry2 g) ++ (c :: todo).map entry1) hstr]
    dsimp only
    rw [redirectRain (w := true) (sp := g.splitter) (bs := bricksWith g (ss ++ [sb c (retProcs g r c)]))
      (cv := List.range g.covers.length) (sf := List.range' g.covers.length ((Spec.canopies g).length + (ss ++ [sb c (retProcs g r c)]).length))
      (so := so ++ [snowOut c]) (ro := done.map (entry2 g) ++ (c :: todo).map entry1) hstr rfl]
    refine yields_ok ?_
    dsimp only
    have hpre : ∀ x ∈ done.map (entry2 g), x.target ≠ c.name := by
      intro x hx
      obtain ⟨d, hd, rfl⟩ := List.mem_map.mp hx
      have hdm : d ∈ g.covers := by rw [h]; simp [hd]
      unfold entry2
      dsimp only
      split
      · rename_i hdc; exact good_canopy hg hc hdm hdc
      · exact good_snow hg hw hc hdm
    have e : redirect c.name (c.name ++ "_snowpack") (done.map (entry2 g) ++ (c :: todo).map entry1) =
        (done ++ [c]).map (entry2 g) ++ todo.map entry1 := by
      by_cases hcc : c.canopy = true
      · rw [redirect_none]
        · simp [entry1, entry2, hcc]
        · intro x hx
          rcases List.mem_append.mp hx with hx | hx
          · exact hpre x hx
          · obtain ⟨d, hd, rfl⟩ := List.mem_map.mp hx
            have hdm : d ∈ g.covers := by rw [h]; exact List.mem_append_right _ hd
            unfold entry1
            dsimp only
            split
            · rename_i hdc; exact good_canopy hg hc hdm hdc
            · rename_i hdc
              rcases List.mem_cons.mp hd with rfl | hd
              · exact absurd hcc hdc
              · exact good_split' hg h hd
      · rw [List.map_cons, redirect_at c.name _ _ (entry1 c) _ hpre (by simp [entry1, hcc])]
        simp [entry1, entry2, hcc, hrs]
    rw [e]
    rfl
  · rw [if_neg hrs]
    refine yields_ok (hstr.trans ?_)
    simp [entry1, entry2, hrs]

theorem genRetention_yields (hw : g.withSnow = true) {r : String} (hm : g.covers ≠ [] → Spec.IsProcess g.melt)
    (hr : g.covers ≠ [] → Spec.IsProcess r) {a : Auth} (ha : a.str = snowState g [] [] (g.covers.map entry1)) :
    Yields (genSnowpacksRetention g.melt r g.rainToSnowpack a)
      (snowState g (g.covers.map fun c => sb c (retProcs g r c)) (g.covers.map snowOut) (g.covers.map (entry2 g))) := by
  have := overCovers_rule g.covers
    (fun done => snowState g (done.map fun c => sb c (retProcs g r c)) (done.map snowOut)
      (done.map (entry2 g) ++ (g.covers.drop done.length).map entry1))
    (retentionPass g.melt r g.rainToSnowpack) (fun _ => rfl) (fun done => ⟨_, List.append_assoc _ _ _⟩) ?_ (a := a) (by simpa using ha)
  · simpa [genSnowpacksRetention] using this
  · intro done c todo h a ha
    have hc : c ∈ g.covers := by rw [h]; simp
    have h0 : g.covers.drop done.length = c :: todo := by rw [h]; simp
    have h1 : g.covers.drop (done ++ [c]).length = todo := by
      rw [List.length_append, ← List.drop_drop, h0]; simp
    rw [h1]
    rw [h0] at ha
    have := retentionPass_yields hg hw h (hm (List.ne_nil_of_mem hc)) (hr (List.ne_nil_of_mem hc)) ha
    simpa using this

/-- The structure once the snowpacks have processes `Q`. -/
def withProcs (g : BaseArgs) (Q : Cover → List Proc) (so ro : List Out) : Struct := snowState g (g.covers.map fun c => sb c (Q c)) so ro

/-- A pass appending processes `R c` to the snowpack of each cover. -/
theorem appendPass (hw : g.withSnow = true) (f : Brick → Auth → Except Err Auth) (Q R : Cover → List Proc)
    (hf : ∀ c ∈ g.covers, ∀ (a : Auth) (pre post : List Brick), a.str.unitBricks = pre ++ sb c (Q c) :: post →
      (∀ x ∈ pre, x.name ≠ c.name ++ "_snowpack") →
      Yields (f (Spec.coverBrick c) a) { a.str with unitBricks := pre ++ sb c (Q c ++ R c) :: post })
    {so ro : List Out} {a : Auth} (ha : a.str = withProcs g Q so ro) :
    Yields (overCovers f a) (withProcs g (fun c => Q c ++ R c) so ro) := by
  have key := overCovers_rule g.covers
    (fun done => { withProcs g Q so ro with unitBricks := bricksWith g ((done.map fun c => sb c (Q c ++ R c)) ++
      (g.covers.drop done.length).map fun c => sb c (Q c)) })
    f (fun _ => rfl) (fun done => ⟨_, List.append_assoc _ _ _⟩) ?_ (a := a) (by rw [ha]; simp [withProcs, snowState, mk])
  · refine cast (congrArg _ ?_) key
    simp [withProcs, snowState, mk]
  · intro done c todo h a ha
    have hc : c ∈ g.covers := by rw [h]; simp
    have h0 : g.covers.drop done.length = c :: todo := by rw [h]; simp
    have h1 : g.covers.drop (done ++ [c]).length = todo := by
      rw [List.length_append, ← List.drop_drop, h0]; simp
    rw [h1]
    rw [h0] at ha
    have hb : a.str.unitBricks = bricksWith g (done.map fun c => sb c (Q c ++ R c)) ++ sb c (Q c) :: todo.map fun c => sb c (Q c) := by
      rw [ha]; simp [bricksWith]
    obtain ⟨b, hb1, hb2⟩ := hf c hc a _ _ hb (by
      intro x hx
      unfold bricksWith at hx
      rcases List.mem_append.mp hx with hx | hx
      · rcases List.mem_append.mp hx with hx | hx
        · obtain ⟨d, hd, rfl⟩ := List.mem_map.mp hx
          exact (good_snow hg hw hd hc).symm
        · obtain ⟨d, hd, rfl⟩ := List.mem_map.mp hx
          have := List.mem_filter.mp hd
          exact (good_snow_canopy hg hw this.1 hc this.2).symm
      · obtain ⟨d, hd, rfl⟩ := List.mem_map.mp hx
        intro he
        have hn := hg.distinct
        unfold Spec.base at hn
        simp only [List.map_append, List.map_map, hw, if_true] at hn
        have hn2 := (List.nodup_append.mp hn).2.1
        rw [h, List.map_append, List.map_cons] at hn2
        exact (List.nodup_append.mp hn2).2.2 _ (List.mem_map.mpr ⟨d, hd, rfl⟩) _ (List.mem_cons_self) he)
    refine ⟨b, hb1, ?_⟩
    rw [hb2, ha]
    simp [bricksWith]

theorem addRefreezing_yields (hw : g.withSnow = true) {p : String} (hp : g.covers ≠ [] → Spec.IsProcess p)
    {Q : Cover → List Proc} {so ro : List Out} {a : Auth} (ha : a.str = withProcs g Q so ro) :
    Yields (addRefreezing p a) (withProcs g (fun c => Q c ++
      [Spec.pr "refreeze" p [{ target := c.name ++ "_snowpack", content := .snow, inst := true }]]) so ro) := by
  refine appendPass hg hw _ Q _ ?_ ha
  intro c hc a pre post h1 h2
  have hp := hp (List.ne_nil_of_mem hc)
  have hs := selectBrick_at h1 h2
  simp only [sb] at hs
  simp only [Spec.coverBrick, hs]
  dsimp only [bind, Except.bind]
  rw [addProcess_at (a := { a with brick := some pre.length, proc := none }) (pre := pre) (post := post) rfl h1 hp]
  dsimp only
  unfold setInstantaneous
  have ho : outsOf (c.name ++ "_snowpack:snow") = [{ target := c.name ++ "_snowpack", content := .snow }] := by
    have := outsOf_content (t := c.name ++ "_snowpack") (k := "snow") (colon_append (hg.plain c hc).2 (by decide))
    rw [← show contentOf "snow" = .snow from by decide, ← this]
    congr 1
    apply String.toList_inj.mp
    simp [String.toList_append]
  rw [modProc_at (pre := pre) (post := post) (ps := Q c) (p := ⟨"refreeze", p, outsOf (c.name ++ "_snowpack:snow")⟩) _ rfl rfl rfl rfl]
  refine yields_ok ?_
  simp [sb, Spec.pr, ho]

theorem addRedistribution_yields (hw : g.withSnow = true) {p : String} (hp : g.covers ≠ [] → Spec.IsProcess p)
    {Q : Cover → List Proc} {so ro : List Out} {a : Auth} (ha : a.str = withProcs g Q so ro) :
    Yields (addRedistribution p false a) (withProcs g (fun c => Q c ++
      [Spec.pr "snow_redistribution" p [{ target := "lateral", content := .snow, inst := true }]]) so ro) := by
  refine appendPass hg hw _ Q _ ?_ ha
  intro c hc a pre post h1 h2
  have hp := hp (List.ne_nil_of_mem hc)
  have hs := selectBrick_at h1 h2
  simp only [sb] at hs
  simp only [Spec.coverBrick, hs, Bool.false_and, Bool.false_eq_true, if_false]
  dsimp only [bind, Except.bind]
  rw [addProcess_at (a := { a with brick := some pre.length, proc := none }) (pre := pre) (post := post) rfl h1 hp]
  dsimp only
  unfold setInstantaneous
  have ho : outsOf "lateral:snow" = [{ target := "lateral", content := .snow }] := by decide +kernel
  rw [modProc_at (pre := pre) (post := post) (ps := Q c) (p := ⟨"snow_redistribution", p, outsOf "lateral:snow"⟩) _ rfl rfl rfl rfl]
  refine yields_ok ?_
  simp [sb, Spec.pr, ho]

theorem addSublimation_yields (hw : g.withSnow = true) {p : String} (hp : g.covers ≠ [] → Spec.IsProcess p)
    {Q : Cover → List Proc} {so ro : List Out} {a : Auth} (ha : a.str = withProcs g Q so ro) :
    Yields (addSublimation p a) (withProcs g (fun c => Q c ++ [Spec.pr "sublimation" p []]) so ro) := by
  refine appendPass hg hw _ Q _ ?_ ha
  intro c hc a pre post h1 h2
  have hp := hp (List.ne_nil_of_mem hc)
  have hs := selectBrick_at h1 h2
  simp only [sb] at hs
  simp only [Spec.coverBrick, hs]
  dsimp only [bind, Except.bind]
  rw [addProcess_at (a := { a with brick := some pre.length, proc := none }) (pre := pre) (post := post) rfl h1 hp]
  refine yields_ok ?_
  simp [sb, Spec.pr, outsOf_empty]

theorem addSnowIce_yields (hw : g.withSnow = true) {p : String} (hp : (∃ c ∈ g.covers, c.type = "glacier") → Spec.IsProcess p)
    {Q : Cover → List Proc} {so ro : List Out} {a : Auth} (ha : a.str = withProcs g Q so ro) :
    Yields (addSnowIce p a) (withProcs g (fun c => Q c ++ if c.type = "glacier" then
      [Spec.pr "snow_ice_transfo" p [{ target := c.name, content := .ice }]] else []) so ro) := by
  refine appendPass hg hw _ Q _ ?_ ha
  intro c hc a pre post h1 h2
  have hs := selectBrick_at h1 h2
  simp only [sb] at hs
  simp only [Spec.coverBrick, hs]
  dsimp only [bind, Except.bind]
  by_cases ht : c.type = "glacier"
  · have hp := hp ⟨c, hc, ht⟩
    simp only [ht, if_true]
    rw [addProcess_at (a := { a with brick := some pre.length, proc := none }) (pre := pre) (post := post) rfl h1 hp]
    refine yields_ok ?_
    have ho : outsOf (c.name ++ ":ice") = [{ target := c.name, content := .ice }] := by
      have := outsOf_content (t := c.name) (k := "ice") (hg.plain c hc).2
      rw [← show contentOf "ice" = .ice from by decide, ← this]
      congr 1
      apply String.toList_inj.mp
      simp [String.toList_append]
    simp [sb, Spec.pr, ho]
  · simp only [ht, if_false]
    refine yields_ok ?_
    rw [List.append_nil, ← h1]

theorem opt_yields (o : Option String) (f : String → Auth → Except Err Auth) (mkp : String → Cover → List Proc)
    (Q : Cover → List Proc) {so ro : List Out} {a : Auth} (ha : a.str = withProcs g Q so ro)
    (h : ∀ p ∈ o, Yields (f p a) (withProcs g (fun c => Q c ++ mkp p c) so ro)) :
    Yields (optStage o f a) (withProcs g (fun c => Q c ++ (o.map fun p => mkp p c).getD []) so ro) := by
  cases o with
  | none => exact yields_ok (by simpa using ha)
  | some p => simpa [optStage] using h p rfl

theorem addSnowpacks_yields (hw : g.withSnow = true) (hret : g.retention = none → g.refreezing = none ∧ g.rainToSnowpack = false)
    (hmelt : g.covers ≠ [] → Spec.IsProcess g.melt ∧ (∀ p ∈ g.retention, Spec.IsProcess p) ∧
      (∀ p ∈ g.refreezing, Spec.IsProcess p)) {a : Auth}
    (ha : a.str = snowState g [] [] (g.covers.map entry1)) :
    Yields (addSnowpacks g a) (withProcs g (fun c => match g.retention with
      | none => [Spec.pr "melt" g.melt [{ target := c.name }]]
      | some r => retProcs g r c ++ Spec.opt g.refreezing fun p =>
          Spec.pr "refreeze" p [{ target := c.name ++ "_snowpack", content := .snow, inst := true }])
      (g.covers.map snowOut) (g.covers.map (entry2 g))) := by
  unfold addSnowpacks
  cases hr : g.retention with
  | none =>
    obtain ⟨-, h2⟩ := hret hr
    have h3 : entry2 g = entry1 := by funext c; simp [entry1, entry2, h2]
    rw [h3]
    exact genSnowpacks_yields hg (fun h => (hmelt h).1) ha
  | some r =>
    refine Yields.bind (genRetention_yields hg hw (fun h => (hmelt h).1) (fun h => (hmelt h).2.1 r hr) ha) fun b hb => ?_
    have := opt_yields hg g.refreezing addRefreezing (fun p c =>
      [Spec.pr "refreeze" p [{ target := c.name ++ "_snowpack", content := .snow, inst := true }]]) (retProcs g r) hb
      (fun p h => addRefreezing_yields hg hw (fun hc => (hmelt hc).2.2 p h) hb)
    refine cast ?_ this
    congr 2
    funext c
    cases g.refreezing <;> rfl

/-- **C58 (what is written).**  For every list of land covers with usable names and every choice of options whose processes
exist, the generators write exactly the structure asked for. -/
theorem c58_generated (hp : Spec.GoodProcesses g) : ∃ a, generateBase g = .ok a ∧ a.str = Spec.base g := by
  change Yields _ _
  unfold generateBase
  refine Yields.bind (genPrecipitation_yields g.withSnow g.splitter) fun a1 h1 => ?_
  refine Yields.bind (addCovers_yields g.covers [] a1 (by simpa using h1)) fun a2 h2 => ?_
  refine Yields.bind (addCanopies_yields hg g.covers [] rfl a2 (by simpa using h2)) fun a3 h3 => ?_
  cases hw : g.withSnow with
  | false =>
    simp only [Bool.false_eq_true, if_false]
    refine yields_ok ?_
    rw [h3, hw]
    simp only [mk, Spec.base, hw, Bool.false_eq_true, if_false, List.append_nil, Nat.add_zero, Spec.rainSplitter, List.nil_append]
    have : entry1 = fun c => ({ target := Spec.rainEntry g c } : Out) := by
      funext c; simp [entry1, Spec.rainEntry, Spec.belowCanopy, Spec.viaSnowpack, hw]
    rw [this]
  | true =>
    rw [if_pos rfl]
    have hcond : (g.retention.isNone && (g.refreezing.isSome || g.rainToSnowpack)) = false := by
      cases hr : g.retention with
      | some r => rfl
      | none => obtain ⟨e1, e2⟩ := hp.retention hw hr; simp [e1, e2]
    rw [hcond]
    simp only [Bool.false_eq_true, if_false]
    have h3' : a3.str = snowState g [] [] (g.covers.map entry1) := by
      rw [h3, hw]; simp [snowState, bricksWith]
    refine Yields.bind (addSnowpacks_yields hg hw (hp.retention hw)
      (fun h => ⟨hp.melt hw h, hp.outflow hw h, hp.refreezing hw h⟩) h3') fun a4 h4 => ?_
    refine Yields.bind (opt_yields hg g.snowIce addSnowIce (fun p c => if c.type = "glacier" then
      [Spec.pr "snow_ice_transfo" p [{ target := c.name, content := .ice }]] else []) _ h4
      (fun p h => addSnowIce_yields hg hw (fun hc => hp.snowIce hw hc p h) h4)) fun a5 h5 => ?_
    refine Yields.bind (opt_yields hg g.redistribution (fun p a => addRedistribution p false a) (fun p c =>
      [Spec.pr "snow_redistribution" p [{ target := "lateral", content := .snow, inst := true }]]) _ h5
      (fun p h => addRedistribution_yields hg hw (fun hc => hp.redistribution hw hc p h) h5)) fun a6 h6 => ?_
    have h7 := opt_yields hg g.sublimation addSublimation (fun p c => [Spec.pr "sublimation" p []]) _ h6
      (fun p h => addSublimation_yields hg hw (fun hc => hp.sublimation hw hc p h) h6)
    refine cast (congrArg _ ?_) h7
    unfold withProcs snowState mk Spec.base
    have he : entry2 g = fun c => ({ target := Spec.rainEntry g c } : Out) := by
      funext c; simp [entry2, Spec.rainEntry, Spec.belowCanopy, Spec.viaSnowpack, hw]
    have hb : ∀ (Q : Cover → List Proc), (∀ c, Q c = Spec.snowProcs g c) →
        (g.covers.map fun c => sb c (Q c)) = g.covers.map (Spec.snowBrick g) := by
      intro Q hQ
      apply List.map_congr_left
      intro c _
      simp [sb, Spec.snowBrick, hQ]
    rw [hb _ ?_, he]
    · simp [hw, Spec.snowSplitter, Spec.rainSplitter, bricksWith, snowOut]
    · intro c
      unfold Spec.snowProcs Spec.opt retProcs
      cases g.retention <;> cases g.snowIce <;> cases g.redistribution <;> cases g.sublimation <;> by_cases ht : c.type = "glacier" <;>
        simp [ht, Spec.opt]

end

theorem abind_ok {r : Except Err Auth} {f : Auth → Except Err Auth} {b : Auth} (h : (r >>= f) = .ok b) :
    ∃ a, r = .ok a ∧ f a = .ok b := by
  cases r with
  | error e => cases h
  | ok a => exact ⟨a, rfl, h⟩

theorem str_of {r : Except Err Auth} {a : Auth} {s : Struct} (h : r = .ok a) (hy : Yields r s) : a.str = s := by
  obtain ⟨b, hb, rfl⟩ := hy
  rw [h] at hb
  cases hb
  rfl

theorem addProcess_known {name type target : String} {a b : Auth} (h : addProcess name type target a = .ok b) :
    Spec.IsProcess type := by
  by_contra hc
  have hr := register_bad hc
  unfold addProcess at h
  split at h
  · cases h
  · split at h
    · cases h
    · obtain ⟨a1, -, h⟩ := abind_ok h
      rw [hr] at h
      dsimp only at h
      split at h
      · cases h
      · obtain ⟨a2, -, h⟩ := abind_ok h
        cases h

theorem over_first {f : Brick → Auth → Except Err Auth} {a b : Auth} (h : overCovers f a = .ok b) (hc : a.str.covers ≠ []) :
    ∃ br a', f br a = .ok a' := by
  unfold overCovers at h
  cases hl : a.str.covers with
  | nil => exact absurd hl hc
  | cons i l =>
    rw [hl, List.foldlM_cons] at h
    obtain ⟨a', h1, -⟩ := abind_ok h
    unfold withCover at h1
    split at h1
    · cases h1
    · exact ⟨_, _, h1⟩

theorem selectBrick_str {n : String} {a b : Auth} (h : selectBrick n a = .ok b) : b.str = a.str := by
  unfold selectBrick at h
  split at h <;> cases h
  rfl

/-- If the pass over the covers succeeds and there is a glacier among them, the process was accepted. -/
theorem snowIce_known {p : String} {a b : Auth} (h : addSnowIce p a = .ok b) {i : ℕ} (hi : i ∈ a.str.covers) {br : Brick}
    (hb : a.str.unitBricks[i]? = some br) (ht : br.type = "glacier") : Spec.IsProcess p := by
  unfold addSnowIce overCovers at h
  generalize hl : a.str.covers = l at h hi
  clear hl
  induction l generalizing a with
  | nil => cases hi
  | cons j l ih =>
    rw [List.foldlM_cons] at h
    obtain ⟨a', h1, h2⟩ := abind_ok h
    unfold withCover at h1
    split at h1
    · cases h1
    · rename_i bj hbj
      obtain ⟨a1, hs, h3⟩ := abind_ok h1
      by_cases hg : bj.type = "glacier"
      · rw [if_pos hg] at h3
        exact addProcess_known h3
      · rw [if_neg hg] at h3
        cases h3
        rcases List.mem_cons.mp hi with rfl | hi
        · rw [hbj] at hb; cases hb; exact absurd ht hg
        · exact ih (by rw [selectBrick_str hs]; exact hb) h2 hi

section
variable {g : BaseArgs} (hg : Spec.GoodNames g)
include hg

/-- **C58 (what is accepted).**  With usable names, the generation succeeds exactly if every process name that is used is the
name of a process and the options requiring water retention come with it. -/
theorem c58_accepts_iff : (∃ a, generateBase g = .ok a) ↔ Spec.GoodProcesses g := by
  constructor
  swap
  · intro hp
    obtain ⟨a, h, -⟩ := c58_generated hg hp
    exact ⟨a, h⟩
  rintro ⟨a, h⟩
  by_cases hw : g.withSnow = true
  swap
  · exact ⟨fun h => absurd h hw, fun h => absurd h hw, fun h => absurd h hw, fun h => absurd h hw, fun h => absurd h hw,
      fun h => absurd h hw, fun h => absurd h hw⟩
  unfold generateBase at h
  obtain ⟨a1, h1, h⟩ := abind_ok h
  obtain ⟨a2, h2, h⟩ := abind_ok h
  obtain ⟨a3, h3, h⟩ := abind_ok h
  have e1 := str_of h1 (genPrecipitation_yields g.withSnow g.splitter)
  have e2 := str_of h2 (addCovers_yields g.covers [] a1 (by simpa using e1))
  have e3 := str_of h3 (addCanopies_yields hg g.covers [] rfl a2 (by simpa using e2))
  have e3 : a3.str = snowState g [] [] (g.covers.map entry1) := by rw [e3, hw]; simp [snowState, bricksWith]
  rw [if_pos hw] at h
  split at h
  · cases h
  rename_i hcond
  obtain ⟨a4, h4, h⟩ := abind_ok h
  obtain ⟨a5, h5, h⟩ := abind_ok h
  obtain ⟨a6, h6, h7⟩ := abind_ok h
  have hret : g.retention = none → g.refreezing = none ∧ g.rainToSnowpack = false := by
    intro hr
    rw [hr] at hcond
    simpa using hcond
  have hcv : g.covers ≠ [] → ∀ s : Struct, s.covers = List.range g.covers.length → s.covers ≠ [] := by
    intro hc s hs
    rw [hs]
    simpa using hc
  -- the snowpacks
  have hmelt : g.covers ≠ [] → Spec.IsProcess g.melt ∧ (∀ p ∈ g.retention, Spec.IsProcess p) ∧
      (∀ p ∈ g.refreezing, Spec.IsProcess p) := by
    intro hc
    unfold addSnowpacks at h4
    cases hr : g.retention with
    | none =>
      rw [hr] at h4
      obtain ⟨br, a', hf⟩ := over_first h4 (hcv hc _ (by rw [e3]; rfl))
      obtain ⟨b1, -, hf⟩ := abind_ok hf
      obtain ⟨b2, -, hf⟩ := abind_ok hf
      obtain ⟨b3, -, hf⟩ := abind_ok hf
      exact ⟨addProcess_known hf, by simp, by simp [(hret hr).1]⟩
    | some r =>
      rw [hr] at h4
      obtain ⟨c1, hc1, h4⟩ := abind_ok h4
      obtain ⟨br, a', hf⟩ := over_first hc1 (hcv hc _ (by rw [e3]; rfl))
      obtain ⟨b1, -, hf⟩ := abind_ok hf
      obtain ⟨b2, -, hf⟩ := abind_ok hf
      obtain ⟨b3, -, hf⟩ := abind_ok hf
      obtain ⟨b4, hm, hf⟩ := abind_ok hf
      obtain ⟨b5, -, hf⟩ := abind_ok hf
      obtain ⟨b6, hm2, hf⟩ := abind_ok hf
      have hm := addProcess_known hm
      have hm2 := addProcess_known hm2
      refine ⟨hm, by simpa using hm2, ?_⟩
      intro p hp
      have e4 := str_of hc1 (genRetention_yields hg hw (fun _ => hm) (fun _ => hm2) e3)
      rw [hp] at h4
      obtain ⟨br, a', hf⟩ := over_first h4 (hcv hc _ (by rw [e4]; rfl))
      obtain ⟨b1, -, hf⟩ := abind_ok hf
      obtain ⟨b2, hq, hf⟩ := abind_ok hf
      exact addProcess_known hq
  have e4 := str_of h4 (addSnowpacks_yields hg hw hret hmelt e3)
  have hice : (∃ c ∈ g.covers, c.type = "glacier") → ∀ p ∈ g.snowIce, Spec.IsProcess p := by
    rintro ⟨c, hc, ht⟩ p hp
    rw [hp] at h5
    obtain ⟨i, hi, hci⟩ := List.mem_iff_getElem.mp hc
    refine snowIce_known (p := p) h5 (i := i) (br := Spec.coverBrick c) ?_ ?_ ht
    · rw [e4]; simpa [withProcs, snowState, mk] using hi
    · rw [e4]
      change (bricksWith g _)[i]? = _
      unfold bricksWith
      rw [List.append_assoc, List.getElem?_append_left (by simpa using hi), List.getElem?_map, List.getElem?_eq_getElem hi, hci]
      rfl
  have e5 := str_of h5 (opt_yields hg g.snowIce addSnowIce (fun p c => if c.type = "glacier" then
      [Spec.pr "snow_ice_transfo" p [{ target := c.name, content := .ice }]] else []) _ e4
      (fun p h => addSnowIce_yields hg hw (fun hc => hice hc p h) e4))
  have hred : g.covers ≠ [] → ∀ p ∈ g.redistribution, Spec.IsProcess p := by
    intro hc p hp
    rw [hp] at h6
    obtain ⟨br, a', hf⟩ := over_first h6 (hcv hc _ (by rw [e5]; rfl))
    simp only [Bool.false_and, Bool.false_eq_true, if_false] at hf
    obtain ⟨b1, -, hf⟩ := abind_ok hf
    obtain ⟨b2, hq, -⟩ := abind_ok hf
    exact addProcess_known hq
  have e6 := str_of h6 (opt_yields hg g.redistribution (fun p a => addRedistribution p false a) (fun p c =>
      [Spec.pr "snow_redistribution" p [{ target := "lateral", content := .snow, inst := true }]]) _ e5
      (fun p h => addRedistribution_yields hg hw (fun hc => hred hc p h) e5))
  have hsub : g.covers ≠ [] → ∀ p ∈ g.sublimation, Spec.IsProcess p := by
    intro hc p hp
    rw [hp] at h7
    obtain ⟨br, a', hf⟩ := over_first h7 (hcv hc _ (by rw [e6]; rfl))
    obtain ⟨b1, -, hf⟩ := abind_ok hf
    exact addProcess_known hf
  exact ⟨fun _ => hret, fun _ h => (hmelt h).1, fun _ h => (hmelt h).2.1, fun _ h => (hmelt h).2.2, fun _ => hice,
    fun _ => hred, fun _ => hsub⟩

end

end HB.Wire
