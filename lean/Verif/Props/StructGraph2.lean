import Verif.Props.StructGraph

/-! # C90: attributes of the nodes, examples -/

namespace HB.StructGraph

open HB.Spec.StructGraph

/-! ## Where nodes come from -/

theorem mem_setDefault {nodes : List Node} {n m : Node} (h : m ∈ setDefault nodes n) : m ∈ nodes ∨ m = n := by
  unfold setDefault at h
  split at h
  · exact Or.inl h
  · rwa [List.mem_append, List.mem_singleton] at h

theorem mem_setNode {nodes : List Node} {n m : Node} (h : m ∈ setNode nodes n) : m ∈ nodes ∨ m = n := by
  unfold setNode at h
  split at h
  · obtain ⟨k, hk, rfl⟩ := List.mem_map.1 h
    split
    · exact Or.inr rfl
    · exact Or.inl hk
  · rwa [List.mem_append, List.mem_singleton] at h

theorem setNode_self (nodes : List Node) (n : Node) : n ∈ setNode nodes n := by
  unfold setNode
  split
  · rename_i h
    obtain ⟨m, hm, he⟩ := List.mem_map.1 ((has_iff _ _).1 h)
    exact List.mem_map.2 ⟨m, hm, by rw [if_pos he]⟩
  · simp

theorem setNode_other {nodes : List Node} {n m : Node} (h : m ∈ nodes) (hn : m.name ≠ n.name) : m ∈ setNode nodes n := by
  unfold setNode
  split
  · exact List.mem_map.2 ⟨m, h, by rw [if_neg hn]⟩
  · exact List.mem_append_left _ h

theorem fold_from {α : Type} (g : State → α → State) (P : α → Node → Prop) (h : ∀ s a m, m ∈ (g s a).nodes → m ∈ s.nodes ∨ P a m) :
    ∀ (as : List α) (s : State) (m : Node), m ∈ (as.foldl g s).nodes → m ∈ s.nodes ∨ ∃ a ∈ as, P a m := by
  intro as
  induction as with
  | nil => intro s m hm; exact Or.inl hm
  | cons a as ih =>
    intro s m hm
    rcases ih _ _ hm with hm | ⟨b, hb, hP⟩
    · rcases h s a m hm with hm | hP
      · exact Or.inl hm
      · exact Or.inr ⟨a, List.mem_cons_self .., hP⟩
    · exact Or.inr ⟨b, List.mem_cons_of_mem _ hb, hP⟩

theorem fold_keeps {α : Type} (g : State → α → State) (m : Node) (h : ∀ s a, m ∈ s.nodes → m ∈ (g s a).nodes) :
    ∀ (as : List α) (s : State), m ∈ s.nodes → m ∈ (as.foldl g s).nodes := by
  intro as
  induction as with
  | nil => intro s hm; exact hm
  | cons a as ih => intro s hm; exact ih _ (h s a hm)

theorem forcing_keeps (w : Bool) (c : String) (fs : List String) (s : State) (m : Node) (h : m ∈ s.nodes) : m ∈ (addForcing w c fs s).nodes := by
  unfold addForcing
  split
  · exact fold_keeps _ m (fun s f hm => setDefault_keeps _ _ _ hm) fs s h
  · exact h

theorem forcing_from (w : Bool) (c : String) (fs : List String) (s : State) (m : Node) (h : m ∈ (addForcing w c fs s).nodes) :
    m ∈ s.nodes ∨ w = true ∧ ∃ f ∈ fs, m = { name := f, role := "forcing" } := by
  unfold addForcing at h
  split at h
  · rename_i hw
    rcases fold_from _ (fun f m => m = { name := f, role := "forcing" }) (fun s f m hm => mem_setDefault hm) fs s m h with h | h
    · exact Or.inl h
    · exact Or.inr ⟨hw, h⟩
  · exact Or.inl h

theorem out_keeps (a b c : String) (s : State) (o : Out) (m : Node) (h : m ∈ s.nodes) : m ∈ (addOut a b c s o).nodes := setDefault_keeps _ _ _ h

theorem out_from (a b c : String) (s : State) (o : Out) (m : Node) (h : m ∈ (addOut a b c s o).nodes) :
    m ∈ s.nodes ∨ m = { name := o.target, role := sinkRole o.target } := mem_setDefault h

theorem process_keeps (w : Bool) (b : String) (s : State) (p : Proc) (m : Node) (h : m ∈ s.nodes) : m ∈ (addProcess w b s p).nodes := by
  unfold addProcess
  simp only
  split
  · exact setDefault_keeps _ _ _ (forcing_keeps w b p.forcing s m h)
  · exact fold_keeps _ m (fun s o hm => out_keeps _ _ _ s o m hm) p.outputs _ (forcing_keeps w b p.forcing s m h)

theorem brick_keeps (w : Bool) (s : State) (c : Comp) (m : Node) (h : m ∈ s.nodes) : m ∈ (addBrick w s c).nodes :=
  fold_keeps _ m (fun s p hm => process_keeps w c.name s p m hm) c.processes s h

theorem splitter_keeps (w : Bool) (s : State) (c : Comp) (m : Node) (h : m ∈ s.nodes) : m ∈ (addSplitter w s c).nodes :=
  fold_keeps _ m (fun s o hm => out_keeps _ _ _ s o m hm) c.outputs _ (forcing_keeps w c.name c.forcing s m h)

/-- A sink or a forcing. -/
def Other (w : Bool) (v : Variant) (m : Node) : Prop :=
  (w = true ∧ m = { name := m.name, role := "forcing" } ∧ ∃ c, Reads v m.name c) ∨ (m = { name := m.name, role := sinkRole m.name } ∧ ∃ e ∈ fluxes v, m.name = e.target)

theorem process_from (w : Bool) (v : Variant) (b : Comp) (hb : b ∈ bricks v) (s : State) (p : Proc) (hp : p ∈ b.processes) (m : Node)
    (h : m ∈ (addProcess w b.name s p).nodes) : m ∈ s.nodes ∨ Other w v m := by
  have target : ∀ e ∈ processFluxes b p, e ∈ fluxes v := fun e he =>
    List.mem_append_left _ (List.mem_flatMap.2 ⟨b, hb, List.mem_flatMap.2 ⟨p, hp, he⟩⟩)
  have forced : m ∈ (addForcing w b.name p.forcing s).nodes → m ∈ s.nodes ∨ Other w v m := by
    intro h
    rcases forcing_from _ _ _ _ _ h with h | ⟨hw, f, hf, rfl⟩
    · exact Or.inl h
    · exact Or.inr (Or.inl ⟨hw, rfl, b.name, Or.inl ⟨b, hb, rfl, Or.inr ⟨p, hp, hf⟩⟩⟩)
  unfold addProcess at h
  simp only at h
  split at h
  · rename_i he
    rcases mem_setDefault h with h | rfl
    · exact forced h
    · refine Or.inr (Or.inr ⟨rfl, ⟨b.name, "atmosphere", p.name, p.kind, "water", false⟩, target _ ?_, rfl⟩)
      unfold processFluxes; rw [he]; simp
  · rename_i he
    rcases fold_from _ _ (fun s o m hm => out_from b.name p.name p.kind s o m hm) p.outputs _ m h with h | ⟨o, ho, rfl⟩
    · exact forced h
    · refine Or.inr (Or.inr ⟨rfl, ⟨b.name, o.target, p.name, p.kind, o.fluxType, o.instantaneous⟩, target _ ?_, rfl⟩)
      unfold processFluxes
      split
      · rename_i h'; exact absurd h' he
      · exact List.mem_map.2 ⟨o, ho, rfl⟩

theorem fold_from' {α : Type} (g : State → α → State) (P : Node → Prop) (as : List α) (h : ∀ a ∈ as, ∀ s m, m ∈ (g s a).nodes → m ∈ s.nodes ∨ P m) :
    ∀ (s : State) (m : Node), m ∈ (as.foldl g s).nodes → m ∈ s.nodes ∨ P m := by
  induction as with
  | nil => intro s m hm; exact Or.inl hm
  | cons a as ih =>
    intro s m hm
    rcases ih (fun b hb => h b (List.mem_cons_of_mem _ hb)) _ _ hm with hm | hP
    · exact h a (List.mem_cons_self ..) s m hm
    · exact Or.inr hP

theorem component_from (w : Bool) (v : Variant) (role : String) (s : State) (c : Comp) (hr : ∀ f ∈ c.forcing, Reads v f c.name) (m : Node)
    (h : m ∈ (addComponent w role s c).nodes) : m ∈ s.nodes ∨ m = nodeOf role c ∨ Other w v m := by
  rcases forcing_from _ _ _ _ _ h with h | ⟨hw, f, hf, rfl⟩
  · rcases mem_setNode h with h | h
    · exact Or.inl h
    · exact Or.inr (Or.inl h)
  · exact Or.inr (Or.inr (Or.inl ⟨hw, rfl, c.name, hr f hf⟩))

/-- **C90 (roles)**: each node is a brick or splitter of the structure with its attributes, or a forcing that is read, or the target of a flux that is
nothing else: the outlet, the atmosphere or a brick. -/
theorem c90_roles (vs : List Variant) (id : ℤ) (w : Bool) (nodes : List Node) (edges : List Edge) (h : fromSettings vs id w = some (nodes, edges)) :
    ∃ v ∈ vs, v.id = id ∧ ∀ m ∈ nodes, (∃ c ∈ bricks v, m = nodeOf "brick" c) ∨ (∃ c ∈ splitters v, m = nodeOf "splitter" c) ∨
      (w = true ∧ m = { name := m.name, role := "forcing" } ∧ ∃ c, Reads v m.name c) ∨
      (m = { name := m.name, role := if m.name = "outlet" then "outlet" else if m.name = "atmosphere" then "atmosphere" else "brick" } ∧
        ∃ e ∈ fluxes v, m.name = e.target) := by
  obtain ⟨v, hv, hid, -, rfl, -⟩ := from_ok h
  refine ⟨v, hv, hid, ?_⟩
  intro m hm
  unfold build at hm
  simp only at hm
  have hsplit : ∀ c ∈ splitters v, ∀ f ∈ c.forcing, Reads v f c.name := fun c hc f hf => Or.inr ⟨c, hc, rfl, hf⟩
  have hbrick : ∀ c ∈ bricks v, ∀ f ∈ c.forcing, Reads v f c.name := fun c hc f hf => Or.inl ⟨c, hc, rfl, Or.inl hf⟩
  rcases fold_from' (addSplitter w) (Other w v) (v.unitSplitters ++ v.basinSplitters) (by
      intro c hc s m hm
      rcases fold_from _ _ (fun s o m hm => out_from c.name "" c.kind s o m hm) c.outputs _ m hm with hm | ⟨o, ho, rfl⟩
      · rcases forcing_from _ _ _ _ _ hm with hm | ⟨hw, f, hf, rfl⟩
        · exact Or.inl hm
        · exact Or.inr (Or.inl ⟨hw, rfl, c.name, hsplit c hc f hf⟩)
      · exact Or.inr (Or.inr ⟨rfl, ⟨c.name, o.target, "", c.kind, o.fluxType, o.instantaneous⟩,
          List.mem_append_right _ (List.mem_flatMap.2 ⟨c, hc, List.mem_map.2 ⟨o, ho, rfl⟩⟩), rfl⟩)) _ m hm with hm | hm
  · rcases fold_from' (addBrick w) (Other w v) (v.unitBricks ++ v.basinBricks) (by
        intro c hc s m hm
        exact fold_from' _ _ c.processes (fun p hp s m hm => process_from w v c hc s p hp m hm) s m hm) _ m hm with hm | hm
    · rcases fold_from' (addComponent w "splitter") (fun m => (∃ c ∈ splitters v, m = nodeOf "splitter" c) ∨ Other w v m) (v.unitSplitters ++ v.basinSplitters) (by
          intro c hc s m hm
          rcases component_from w v "splitter" s c (hsplit c hc) m hm with h | h | h
          · exact Or.inl h
          · exact Or.inr (Or.inl ⟨c, hc, h⟩)
          · exact Or.inr (Or.inr h)) _ m hm with hm | hm | hm
      · rcases fold_from' (addComponent w "brick") (fun m => (∃ c ∈ bricks v, m = nodeOf "brick" c) ∨ Other w v m) (v.unitBricks ++ v.basinBricks) (by
            intro c hc s m hm
            rcases component_from w v "brick" s c (hbrick c hc) m hm with h | h | h
            · exact Or.inl h
            · exact Or.inr (Or.inl ⟨c, hc, h⟩)
            · exact Or.inr (Or.inr h)) _ m hm with hm | hm | hm
        · simp at hm
        · exact Or.inl hm
        · exact Or.inr (Or.inr hm)
      · exact Or.inr (Or.inl hm)
      · exact Or.inr (Or.inr hm)
    · exact Or.inr (Or.inr hm)
  · exact Or.inr (Or.inr hm)

theorem components_keep (w : Bool) (role : String) (m : Node) : ∀ (cs : List Comp) (s : State), m ∈ s.nodes → (∀ c ∈ cs, m.name ≠ c.name) →
    m ∈ (cs.foldl (addComponent w role) s).nodes := by
  intro cs
  induction cs with
  | nil => intro s hm _; exact hm
  | cons c cs ih =>
    intro s hm hn
    rw [List.foldl_cons]
    refine ih _ ?_ fun c' hc' => hn c' (List.mem_cons_of_mem _ hc')
    exact forcing_keeps _ _ _ _ _ (setNode_other hm (hn c (List.mem_cons_self ..)))

theorem components_in (w : Bool) (role : String) : ∀ (cs : List Comp) (s : State), (cs.map Comp.name).Nodup → ∀ c ∈ cs,
    nodeOf role c ∈ (cs.foldl (addComponent w role) s).nodes := by
  intro cs
  induction cs with
  | nil => intro s _ c hc; simp at hc
  | cons d cs ih =>
    intro s hn c hc
    rw [List.map_cons, List.nodup_cons] at hn
    rw [List.foldl_cons]
    rcases List.mem_cons.1 hc with rfl | hc
    · refine components_keep w role _ cs _ (forcing_keeps _ _ _ _ _ (setNode_self _ _)) ?_
      intro c' hc' he
      exact hn.1 (List.mem_map.2 ⟨c', hc', he.symm⟩)
    · exact ih _ hn.2 c hc

/-- **C90 (components)**: when the bricks and splitters have distinct names, each of them is a node with its attributes. -/
theorem c90_components (vs : List Variant) (id : ℤ) (w : Bool) (nodes : List Node) (edges : List Edge) (h : fromSettings vs id w = some (nodes, edges)) :
    ∃ v ∈ vs, v.id = id ∧ (((bricks v ++ splitters v).map Comp.name).Nodup →
      (∀ c ∈ bricks v, nodeOf "brick" c ∈ nodes) ∧ ∀ c ∈ splitters v, nodeOf "splitter" c ∈ nodes) := by
  obtain ⟨v, hv, hid, -, rfl, -⟩ := from_ok h
  refine ⟨v, hv, hid, ?_⟩
  intro hn
  rw [List.map_append, List.nodup_append] at hn
  obtain ⟨h1, h2, h3⟩ := hn
  unfold build
  simp only
  constructor
  · intro c hc
    refine fold_keeps _ _ (fun s a hm => splitter_keeps w s a _ hm) _ _ (fold_keeps _ _ (fun s a hm => brick_keeps w s a _ hm) _ _ ?_)
    refine components_keep w "splitter" _ _ _ (components_in w "brick" _ _ h1 c hc) ?_
    intro c' hc'
    exact h3 _ (List.mem_map.2 ⟨c, hc, rfl⟩) _ (List.mem_map.2 ⟨c', hc', rfl⟩)
  · intro c hc
    refine fold_keeps _ _ (fun s a hm => splitter_keeps w s a _ hm) _ _ (fold_keeps _ _ (fun s a hm => brick_keeps w s a _ hm) _ _ ?_)
    exact components_in w "splitter" _ _ h2 c hc

/-! ## Examples -/

/-- A small structure: rain and snow are separated, ground with evaporation and outflow to a reservoir, that goes to the outlet. -/
def demo : Variant :=
  ⟨1,
    [⟨"ground", "generic_land_cover", "hydro_unit", true, false, [],
      [⟨"et", "et:socont", ["pet"], []⟩, ⟨"outflow", "outflow:linear", [], [⟨"slow", "water", false⟩]⟩], []⟩],
    [⟨"slow", "storage", "sub_basin", false, false, [], [⟨"base", "outflow:linear", [], [⟨"outlet", "water", false⟩]⟩], []⟩],
    [⟨"rain_snow", "snow_rain:linear", "hydro_unit", false, false, ["precipitation", "temperature"], [], [⟨"ground", "water", false⟩]⟩],
    []⟩

/-- The graph of the example: the hypotheses hold, with eight nodes and seven edges. -/
theorem c90_example : ∃ nodes edges, fromSettings [demo] 1 true = some (nodes, edges) ∧ nodes.length = 8 ∧ edges.length = 7 ∧
    ((bricks demo ++ splitters demo).map Comp.name).Nodup := by
  refine ⟨_, _, rfl, ?_, ?_, ?_⟩ <;> decide +kernel

/-- The same name in the units and in the sub-basin. -/
def twice : Variant :=
  { demo with basinBricks := [⟨"ground", "storage", "sub_basin", false, false, [], [], []⟩], unitSplitters := [] }

/-- **C90 (not in general: names)**: when a brick of the sub-basin has the name of a brick of the units, only one node is left, with the attributes of the
sub-basin. -/
theorem c90_same_name : ∃ nodes edges, fromSettings [twice] 1 true = some (nodes, edges) ∧
    (nodes.filter fun n => decide (n.name = "ground")).map Node.level = ["sub_basin"] := by
  refine ⟨_, _, rfl, ?_⟩
  decide +kernel

/-- A target that does not exist. -/
def dangling : Variant := { demo with basinBricks := [] }

/-- **C90 (not in general: unknown targets)**: a target that is in no list of the structure is shown as a brick. -/
theorem c90_unknown_target : ∃ nodes edges, fromSettings [dangling] 1 true = some (nodes, edges) ∧
    (nodes.filter fun n => decide (n.name = "slow")).map (fun n => (n.role, n.kind)) = [("brick", "")] := by
  refine ⟨_, _, rfl, ?_⟩
  decide +kernel

end HB.StructGraph
