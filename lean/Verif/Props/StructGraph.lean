import Verif.Spec.StructGraph

/-! # C90: the graph of a structure -/

namespace HB.StructGraph

open HB.Spec.StructGraph

/-! ## The nodes as names -/

theorem has_iff (nodes : List Node) (name : String) : has nodes name = true ↔ name ∈ nodes.map Node.name := by
  unfold has
  rw [List.any_eq_true, List.mem_map]
  simp only [decide_eq_true_eq]

theorem setNode_names (nodes : List Node) (n : Node) :
    (setNode nodes n).map Node.name = if n.name ∈ nodes.map Node.name then nodes.map Node.name else nodes.map Node.name ++ [n.name] := by
  unfold setNode
  by_cases h : has nodes n.name = true
  · rw [if_pos h, if_pos ((has_iff _ _).1 h), List.map_map]
    apply List.map_congr_left
    intro m _
    simp only [Function.comp]
    split
    · rename_i e; exact e.symm
    · rfl
  · rw [if_neg h, if_neg (fun hc => h ((has_iff _ _).2 hc)), List.map_append]
    rfl

theorem setDefault_names (nodes : List Node) (n : Node) :
    (setDefault nodes n).map Node.name = if n.name ∈ nodes.map Node.name then nodes.map Node.name else nodes.map Node.name ++ [n.name] := by
  unfold setDefault
  by_cases h : has nodes n.name = true
  · rw [if_pos h, if_pos ((has_iff _ _).1 h)]
  · rw [if_neg h, if_neg (fun hc => h ((has_iff _ _).2 hc)), List.map_append]
    rfl

theorem setDefault_keeps (nodes : List Node) (n m : Node) (h : m ∈ nodes) : m ∈ setDefault nodes n := by
  unfold setDefault
  split
  · exact h
  · exact List.mem_append_left _ h

/-- The new state has the old nodes and new ones: the names in `new`; the links in `links`; the edges in `edges`. -/
structure Step (s s' : State) (new : String → Prop) (links : String → String → Prop) (edges : List Edge) : Prop where
  nodup : (s.nodes.map Node.name).Nodup → (s'.nodes.map Node.name).Nodup
  names : ∀ x, x ∈ s'.nodes.map Node.name ↔ x ∈ s.nodes.map Node.name ∨ new x
  links : ∀ f c, (f, c) ∈ s'.links ↔ (f, c) ∈ s.links ∨ links f c
  edges : s'.edges = s.edges ++ edges

theorem Step.refl (s : State) : Step s s (fun _ => False) (fun _ _ => False) [] := by
  constructor <;> simp

theorem Step.trans {s s' s'' : State} {n n' : String → Prop} {l l' : String → String → Prop} {e e' : List Edge} (h : Step s s' n l e) (h' : Step s' s'' n' l' e') :
    Step s s'' (fun x => n x ∨ n' x) (fun f c => l f c ∨ l' f c) (e ++ e') where
  nodup := fun hn => h'.nodup (h.nodup hn)
  names := fun x => by rw [h'.names, h.names, or_assoc]
  links := fun f c => by rw [h'.links, h.links, or_assoc]
  edges := by rw [h'.edges, h.edges, List.append_assoc]

theorem Step.congr {s s' : State} {n n' : String → Prop} {l l' : String → String → Prop} {e e' : List Edge} (h : Step s s' n l e) (hn : ∀ x, n x ↔ n' x)
    (hl : ∀ f c, l f c ↔ l' f c) (he : e = e') : Step s s' n' l' e' where
  nodup := h.nodup
  names := fun x => by rw [h.names, hn]
  links := fun f c => by rw [h.links, hl]
  edges := by rw [h.edges, he]

theorem nodup_add {l : List String} {x : String} (h : l.Nodup) : (if x ∈ l then l else l ++ [x]).Nodup := by
  split
  · exact h
  · rename_i hx
    rw [List.nodup_append]
    refine ⟨h, by simp, ?_⟩
    intro a ha b hb
    rw [List.mem_singleton] at hb
    rintro rfl
    exact hx (hb ▸ ha)

theorem mem_add {l : List String} {x y : String} : y ∈ (if x ∈ l then l else l ++ [x]) ↔ y ∈ l ∨ y = x := by
  split
  · rename_i hx
    constructor
    · exact Or.inl
    · rintro (h | rfl)
      · exact h
      · exact hx
  · rw [List.mem_append, List.mem_singleton]

theorem sink_step (s : State) (name : String) : Step s (ensureSink s name) (fun x => x = name) (fun _ _ => False) [] where
  nodup := fun h => by
    unfold ensureSink
    simp only [setDefault_names]
    exact nodup_add h
  names := fun x => by
    unfold ensureSink
    simp only [setDefault_names]
    exact mem_add
  links := fun f c => by simp [ensureSink]
  edges := by simp [ensureSink]

theorem set_step (s : State) (n : Node) : Step s { s with nodes := setNode s.nodes n } (fun x => x = n.name) (fun _ _ => False) [] where
  nodup := fun h => by
    simp only [setNode_names]
    exact nodup_add h
  names := fun x => by
    simp only [setNode_names]
    exact mem_add
  links := fun f c => by simp
  edges := by simp

theorem edge_step (s : State) (e : Edge) : Step s { s with edges := s.edges ++ [e] } (fun _ => False) (fun _ _ => False) [e] := by
  constructor <;> simp

/-- Repeated steps. -/
theorem fold_step {α : Type} (g : State → α → State) (n : α → String → Prop) (l : α → String → String → Prop) (e : α → List Edge)
    (h : ∀ s a, Step s (g s a) (n a) (l a) (e a)) : ∀ (as : List α) (s : State),
    Step s (as.foldl g s) (fun x => ∃ a ∈ as, n a x) (fun f c => ∃ a ∈ as, l a f c) (as.flatMap e) := by
  intro as
  induction as with
  | nil => intro s; exact (Step.refl s).congr (by simp) (by simp) (by simp)
  | cons a as ih =>
    intro s
    rw [List.foldl_cons]
    exact ((h s a).trans (ih (g s a))).congr (by simp) (by simp) (by simp)

theorem forcing_step (w : Bool) (c : String) (fs : List String) (s : State) :
    Step s (addForcing w c fs s) (fun x => w = true ∧ x ∈ fs) (fun f c' => w = true ∧ f ∈ fs ∧ c' = c) [] := by
  unfold addForcing
  cases w with
  | false => exact (Step.refl s).congr (by simp) (by simp) rfl
  | true =>
    rw [if_pos rfl]
    refine (fold_step _ (fun f x => x = f) (fun f f' c' => f' = f ∧ c' = c) (fun _ => []) ?_ fs s).congr ?_ ?_ ?_
    · intro s f
      constructor
      · intro h
        simp only [setDefault_names]
        exact nodup_add h
      · intro x
        simp only [setDefault_names]
        exact mem_add
      · intro f' c'
        simp only [List.mem_cons, Prod.mk.injEq]
        exact or_comm
      · simp
    · intro x; simp
    · intro f c'; simp
    · simp

theorem component_step (w : Bool) (role : String) (s : State) (c : Comp) :
    Step s (addComponent w role s c) (fun x => x = c.name ∨ w = true ∧ x ∈ c.forcing) (fun f c' => w = true ∧ f ∈ c.forcing ∧ c' = c.name) [] :=
  ((set_step s (nodeOf role c)).trans (forcing_step w c.name c.forcing _)).congr (fun _ => Iff.rfl) (by simp) rfl

theorem out_step (source process kind : String) (s : State) (o : Out) :
    Step s (addOut source process kind s o) (fun x => x = o.target) (fun _ _ => False) [⟨source, o.target, process, kind, o.fluxType, o.instantaneous⟩] :=
  ((sink_step s o.target).trans (edge_step _ _)).congr (by simp) (by simp) rfl

theorem process_step (w : Bool) (b : Comp) (s : State) (p : Proc) :
    Step s (addProcess w b.name s p) (fun x => (w = true ∧ x ∈ p.forcing) ∨ ∃ e ∈ processFluxes b p, x = e.target)
      (fun f c => w = true ∧ f ∈ p.forcing ∧ c = b.name) (processFluxes b p) := by
  unfold addProcess
  simp only
  by_cases h : p.outputs = []
  · rw [if_pos h]
    have e : processFluxes b p = [⟨b.name, "atmosphere", p.name, p.kind, "water", false⟩] := by unfold processFluxes; rw [h]
    rw [e]
    exact ((forcing_step w b.name p.forcing s).trans ((sink_step _ "atmosphere").trans (edge_step _ _))).congr (by simp) (by simp) rfl
  · rw [if_neg h]
    have e : processFluxes b p = p.outputs.map fun o => ⟨b.name, o.target, p.name, p.kind, o.fluxType, o.instantaneous⟩ := by
      unfold processFluxes
      split
      · rename_i h'; exact absurd h' h
      · rfl
    rw [e]
    refine ((forcing_step w b.name p.forcing s).trans (fold_step (addOut b.name p.name p.kind) _ _ _ (out_step b.name p.name p.kind) p.outputs _)).congr ?_ ?_ ?_
    · intro x; simp
    · intro f c; simp
    · rw [List.nil_append, List.map_eq_flatMap]

theorem brick_step (w : Bool) (s : State) (b : Comp) :
    Step s (addBrick w s b) (fun x => (w = true ∧ ∃ p ∈ b.processes, x ∈ p.forcing) ∨ ∃ e ∈ b.processes.flatMap (processFluxes b), x = e.target)
      (fun f c => w = true ∧ (∃ p ∈ b.processes, f ∈ p.forcing) ∧ c = b.name) (b.processes.flatMap (processFluxes b)) := by
  refine (fold_step (addProcess w b.name) _ _ _ (process_step w b) b.processes s).congr ?_ ?_ rfl
  · intro x
    simp only [List.mem_flatMap]
    constructor
    · rintro ⟨p, hp, ⟨hw, hx⟩ | ⟨e, he, hx⟩⟩
      · exact Or.inl ⟨hw, p, hp, hx⟩
      · exact Or.inr ⟨e, ⟨p, hp, he⟩, hx⟩
    · rintro (⟨hw, p, hp, hx⟩ | ⟨e, ⟨p, hp, he⟩, hx⟩)
      · exact ⟨p, hp, Or.inl ⟨hw, hx⟩⟩
      · exact ⟨p, hp, Or.inr ⟨e, he, hx⟩⟩
  · intro f c
    constructor
    · rintro ⟨p, hp, hw, hf, hc⟩
      exact ⟨hw, ⟨p, hp, hf⟩, hc⟩
    · rintro ⟨hw, ⟨p, hp, hf⟩, hc⟩
      exact ⟨p, hp, hw, hf, hc⟩

def splitterFluxes (c : Comp) : List Edge := c.outputs.map fun o => ⟨c.name, o.target, "", c.kind, o.fluxType, o.instantaneous⟩

theorem splitter_step (w : Bool) (s : State) (c : Comp) :
    Step s (addSplitter w s c) (fun x => (w = true ∧ x ∈ c.forcing) ∨ ∃ e ∈ splitterFluxes c, x = e.target)
      (fun f c' => w = true ∧ f ∈ c.forcing ∧ c' = c.name) (splitterFluxes c) := by
  unfold addSplitter
  refine ((forcing_step w c.name c.forcing s).trans (fold_step (addOut c.name "" c.kind) _ _ _ (out_step c.name "" c.kind) c.outputs _)).congr ?_ ?_ ?_
  · intro x; simp [splitterFluxes]
  · intro f c'; simp
  · rw [List.nil_append, splitterFluxes, List.map_eq_flatMap]

theorem build_step (w : Bool) (v : Variant) :
    Step {} (build w v)
      (fun x => (∃ c ∈ bricks v ++ splitters v, x = c.name) ∨ (w = true ∧ ∃ c, Reads v x c) ∨ ∃ e ∈ fluxes v, x = e.target)
      (fun f c => w = true ∧ Reads v f c) (fluxes v) := by
  unfold build
  simp only
  refine (((fold_step _ _ _ _ (component_step w "brick") (v.unitBricks ++ v.basinBricks) {}).trans
    (fold_step _ _ _ _ (component_step w "splitter") (v.unitSplitters ++ v.basinSplitters) _)).trans
    ((fold_step _ _ _ _ (brick_step w) (v.unitBricks ++ v.basinBricks) _).trans
      (fold_step _ _ _ _ (splitter_step w) (v.unitSplitters ++ v.basinSplitters) _))).congr ?_ ?_ ?_
  · intro x
    unfold Reads fluxes
    show ((_ ∨ _) ∨ _ ∨ _) ↔ _
    constructor
    · rintro ((⟨b, hb, rfl | ⟨hw, hx⟩⟩ | ⟨b, hb, rfl | ⟨hw, hx⟩⟩) | ⟨b, hb, ⟨hw, p, hp, hx⟩ | ⟨e, he, hx⟩⟩ | ⟨b, hb, ⟨hw, hx⟩ | ⟨e, he, hx⟩⟩)
      · exact Or.inl ⟨b, List.mem_append_left _ hb, rfl⟩
      · exact Or.inr (Or.inl ⟨hw, b.name, Or.inl ⟨b, hb, rfl, Or.inl hx⟩⟩)
      · exact Or.inl ⟨b, List.mem_append_right _ hb, rfl⟩
      · exact Or.inr (Or.inl ⟨hw, b.name, Or.inr ⟨b, hb, rfl, hx⟩⟩)
      · exact Or.inr (Or.inl ⟨hw, b.name, Or.inl ⟨b, hb, rfl, Or.inr ⟨p, hp, hx⟩⟩⟩)
      · exact Or.inr (Or.inr ⟨e, List.mem_append_left _ (List.mem_flatMap.2 ⟨b, hb, he⟩), hx⟩)
      · exact Or.inr (Or.inl ⟨hw, b.name, Or.inr ⟨b, hb, rfl, hx⟩⟩)
      · exact Or.inr (Or.inr ⟨e, List.mem_append_right _ (List.mem_flatMap.2 ⟨b, hb, he⟩), hx⟩)
    · rintro (⟨b, hb, rfl⟩ | ⟨hw, c, ⟨b, hb, -, hx | ⟨p, hp, hx⟩⟩ | ⟨b, hb, -, hx⟩⟩ | ⟨e, he, hx⟩)
      · rcases List.mem_append.1 hb with hb | hb
        · exact Or.inl (Or.inl ⟨b, hb, Or.inl rfl⟩)
        · exact Or.inl (Or.inr ⟨b, hb, Or.inl rfl⟩)
      · exact Or.inl (Or.inl ⟨b, hb, Or.inr ⟨hw, hx⟩⟩)
      · exact Or.inr (Or.inl ⟨b, hb, Or.inl ⟨hw, p, hp, hx⟩⟩)
      · exact Or.inl (Or.inr ⟨b, hb, Or.inr ⟨hw, hx⟩⟩)
      · rcases List.mem_append.1 he with he | he
        · obtain ⟨b, hb, he⟩ := List.mem_flatMap.1 he
          exact Or.inr (Or.inl ⟨b, hb, Or.inr ⟨e, he, hx⟩⟩)
        · obtain ⟨b, hb, he⟩ := List.mem_flatMap.1 he
          exact Or.inr (Or.inr ⟨b, hb, Or.inr ⟨e, he, hx⟩⟩)
  · intro f c
    unfold Reads
    show ((_ ∨ _) ∨ _ ∨ _) ↔ _
    constructor
    · rintro ((⟨b, hb, hw, hx, rfl⟩ | ⟨b, hb, hw, hx, rfl⟩) | ⟨b, hb, hw, hx, rfl⟩ | ⟨b, hb, hw, hx, rfl⟩)
      · exact ⟨hw, Or.inl ⟨b, hb, rfl, Or.inl hx⟩⟩
      · exact ⟨hw, Or.inr ⟨b, hb, rfl, hx⟩⟩
      · exact ⟨hw, Or.inl ⟨b, hb, rfl, Or.inr hx⟩⟩
      · exact ⟨hw, Or.inr ⟨b, hb, rfl, hx⟩⟩
    · rintro ⟨hw, ⟨b, hb, rfl, hx | hx⟩ | ⟨b, hb, rfl, hx⟩⟩
      · exact Or.inl (Or.inl ⟨b, hb, hw, hx, rfl⟩)
      · exact Or.inr (Or.inl ⟨b, hb, hw, hx, rfl⟩)
      · exact Or.inl (Or.inr ⟨b, hb, hw, hx, rfl⟩)
  · have e1 : ((v.unitBricks ++ v.basinBricks).flatMap fun _ => ([] : List Edge)) = [] := by simp
    have e2 : ((v.unitSplitters ++ v.basinSplitters).flatMap fun _ => ([] : List Edge)) = [] := by simp
    rw [e1, e2]
    rfl

theorem from_ok {vs : List Variant} {id : ℤ} {w : Bool} {nodes : List Node} {edges : List Edge} (h : fromSettings vs id w = some (nodes, edges)) :
    ∃ v ∈ vs, v.id = id ∧ (vs.find? fun v => decide (v.id = id)) = some v ∧ nodes = (build w v).nodes ∧ edges = (build w v).edges ++ forcingEdges (build w v).links := by
  unfold fromSettings at h
  obtain ⟨v, hv, he⟩ := Option.map_eq_some_iff.1 h
  simp only [Prod.mk.injEq] at he
  refine ⟨v, List.mem_of_find?_eq_some hv, by simpa using List.find?_some hv, hv, he.1.symm, he.2.symm⟩

/-- **C90 (edges)**: the edges are, first, one for each output of each process, one to the atmosphere for each process without output, one for each output of
each splitter, in the order of the structure; then, if asked for, one for each pair of a forcing and a component that reads it, each once. -/
theorem c90_edges (vs : List Variant) (id : ℤ) (w : Bool) (nodes : List Node) (edges : List Edge) (h : fromSettings vs id w = some (nodes, edges)) :
    ∃ v ∈ vs, v.id = id ∧ ∃ fs, edges = fluxes v ++ fs ∧ fs.Nodup ∧ ∀ e, e ∈ fs ↔ w = true ∧ ∃ f c, Reads v f c ∧ e = forcingEdge f c := by
  obtain ⟨v, hv, hid, -, -, rfl⟩ := from_ok h
  have hs := build_step w v
  refine ⟨v, hv, hid, _, by rw [hs.edges]; rfl, ?_, ?_⟩
  · unfold forcingEdges
    refine List.Nodup.map ?_ ?_
    · intro a b hab
      simp only [Edge.mk.injEq] at hab
      exact Prod.ext hab.1 hab.2.1
    · exact (List.perm_insertionSort _ _).nodup_iff.2 (List.nodup_dedup _)
  · intro e
    unfold forcingEdges
    rw [List.mem_map]
    constructor
    · rintro ⟨⟨f, c⟩, hm, rfl⟩
      rw [List.mem_insertionSort, List.mem_dedup, hs.links] at hm
      rcases hm with hm | ⟨hw, hr⟩
      · simp at hm
      · exact ⟨hw, f, c, hr, rfl⟩
    · rintro ⟨hw, f, c, hr, rfl⟩
      refine ⟨(f, c), ?_, rfl⟩
      rw [List.mem_insertionSort, List.mem_dedup, hs.links]
      exact Or.inr ⟨hw, hr⟩

/-- **C90 (nodes)**: the names of the nodes are distinct; there is a node for exactly the bricks and splitters, the forcings read (if asked for) and the
targets of the fluxes. -/
theorem c90_nodes (vs : List Variant) (id : ℤ) (w : Bool) (nodes : List Node) (edges : List Edge) (h : fromSettings vs id w = some (nodes, edges)) :
    ∃ v ∈ vs, v.id = id ∧ (nodes.map Node.name).Nodup ∧ ∀ x, x ∈ nodes.map Node.name ↔
      (∃ c ∈ bricks v ++ splitters v, x = c.name) ∨ (w = true ∧ ∃ c, Reads v x c) ∨ ∃ e ∈ fluxes v, x = e.target := by
  obtain ⟨v, hv, hid, -, rfl, -⟩ := from_ok h
  have hs := build_step w v
  refine ⟨v, hv, hid, hs.nodup (by simp), ?_⟩
  intro x
  rw [hs.names]
  simp

theorem fluxes_source (v : Variant) (e : Edge) (h : e ∈ fluxes v) : ∃ c ∈ bricks v ++ splitters v, e.source = c.name := by
  unfold fluxes at h
  rcases List.mem_append.1 h with h | h
  · obtain ⟨b, hb, h⟩ := List.mem_flatMap.1 h
    obtain ⟨p, hp, h⟩ := List.mem_flatMap.1 h
    refine ⟨b, List.mem_append_left _ hb, ?_⟩
    unfold processFluxes at h
    split at h
    · rw [List.mem_singleton] at h; rw [h]
    · obtain ⟨o, _, rfl⟩ := List.mem_map.1 h; rfl
  · obtain ⟨b, hb, h⟩ := List.mem_flatMap.1 h
    obtain ⟨o, _, rfl⟩ := List.mem_map.1 h
    exact ⟨b, List.mem_append_right _ hb, rfl⟩

/-- **C90 (closed)**: both ends of every edge are nodes. -/
theorem c90_closed (vs : List Variant) (id : ℤ) (w : Bool) (nodes : List Node) (edges : List Edge) (h : fromSettings vs id w = some (nodes, edges))
    (e : Edge) (he : e ∈ edges) : e.source ∈ nodes.map Node.name ∧ e.target ∈ nodes.map Node.name := by
  obtain ⟨v, -, -, -, rfl, rfl⟩ := from_ok h
  have hs := build_step w v
  rw [hs.names, hs.names]
  rcases List.mem_append.1 he with he | he
  · rw [hs.edges] at he
    have he : e ∈ fluxes v := by simpa using he
    exact ⟨Or.inr (Or.inl (fluxes_source v e he)), Or.inr (Or.inr (Or.inr ⟨e, he, rfl⟩))⟩
  · unfold forcingEdges at he
    obtain ⟨⟨f, c⟩, hm, rfl⟩ := List.mem_map.1 he
    rw [List.mem_insertionSort, List.mem_dedup, hs.links] at hm
    rcases hm with hm | ⟨hw, hr⟩
    · simp at hm
    · refine ⟨Or.inr (Or.inr (Or.inl ⟨hw, c, hr⟩)), Or.inr (Or.inl ?_)⟩
      rcases hr with ⟨b, hb, hc, -⟩ | ⟨b, hb, hc, -⟩
      · exact ⟨b, List.mem_append_left _ hb, hc.symm⟩
      · exact ⟨b, List.mem_append_right _ hb, hc.symm⟩

/-- **C90 (unknown variant)**: the graph exists exactly for the variants of the structure. -/
theorem c90_unknown (vs : List Variant) (id : ℤ) (w : Bool) : fromSettings vs id w = none ↔ ∀ v ∈ vs, v.id ≠ id := by
  unfold fromSettings
  rw [Option.map_eq_none_iff, List.find?_eq_none]
  simp

end HB.StructGraph
