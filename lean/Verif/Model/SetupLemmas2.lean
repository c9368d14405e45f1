import Verif.Model.SetupLemmas

/-!
# Lemmas on setting up a model (C73): what the units bring
-/

set_option linter.unusedSectionVars false

namespace HB.Setup

open HB.Names HB.Wire HB.Basin

variable {K : Type} [Field K] [LinearOrder K] [IsStrictOrderedRing K]

/-! ## Properties -/

theorem slope_given {u : UnitDecl K} {w : Written} {b : BUnit K} (hb : b.props = properties u) (h : ∃ p ∈ u.propsD, p.name = "slope") :
    (extras w b).slope = true := by
  obtain ⟨p, hp, hn⟩ := h
  change (b.props.any fun p => p.name == "slope") = true
  rw [hb, List.any_eq_true]
  exact ⟨⟨p.name, some p.value, p.unit, ""⟩, List.mem_append_left _ (List.mem_map.2 ⟨p, hp, rfl⟩), by simp [hn]⟩

theorem aspect_given {u : UnitDecl K} {w : Written} {b : BUnit K} (hb : b.props = properties u)
    (ho : (u.propsD.map (·.name) ++ u.propsS.map (·.name)).Nodup) {p : PropS} (hp : p ∈ u.propsS) (hn : p.name = "aspect_class") :
    (extras w b).aspect = some p.value := by
  change b.getString "aspect_class" = _
  obtain ⟨-, h2, h3⟩ := List.nodup_append.1 ho
  rw [c61_text u b hb, if_neg]
  · cases hf : u.propsS.find? (fun p => p.name == "aspect_class") with
    | none =>
      rw [List.find?_eq_none] at hf
      exact absurd (by simpa using hn) (hf p hp)
    | some q =>
      have hq := List.mem_of_find?_eq_some hf
      have hqn : q.name = "aspect_class" := by simpa using List.find?_some hf
      have : q = p := List.inj_on_of_nodup_map h2 hq hp (hqn.trans hn.symm)
      rw [this]; rfl
  · intro hany
    obtain ⟨q, hq, hqn⟩ := List.any_eq_true.1 hany
    exact h3 q.name (List.mem_map.2 ⟨q, hq, rfl⟩) p.name (List.mem_map.2 ⟨p, hp, rfl⟩) (by rw [hn]; simpa using hqn)

theorem elevation_given {u : UnitDecl K} {w : Written} {b : BUnit K} (hb : b.props = properties u) (h : ∃ p ∈ u.propsD, p.name = "elevation") :
    ∃ p ∈ u.propsD, p.name = "elevation" ∧ (extras w b).elevation = some p.value := by
  change ∃ p ∈ u.propsD, p.name = "elevation" ∧ (b.props.find? fun p => p.name == "elevation").bind (·.value) = some p.value
  rw [hb, properties, List.find?_append, List.find?_map]
  cases hf : u.propsD.find? ((fun p : Property K => p.name == "elevation") ∘ fun p : PropD K => ⟨p.name, some p.value, p.unit, ""⟩) with
  | none =>
    obtain ⟨p, hp, hn⟩ := h
    rw [List.find?_eq_none] at hf
    exact absurd (by simpa using hn) (hf p hp)
  | some q =>
    exact ⟨q, List.mem_of_find?_eq_some hf, by simpa using List.find?_some hf, rfl⟩

/-! ## The units set up -/

section
variable {S : Settings K} {ws : List Written} {first : Written} {sel : List (Written × BUnit K)} {bs : List (BUnit K)}
  (hfirst : ws.head? = some first) (hlen : sel.length = S.basin.units.length)

theorem input_get {k : ℕ} {e : Written × BUnit K} (h : sel[k]? = some e) :
    (input first sel).base.units[k]? = some (unitIn e.1 e.2) ∧ (input first sel).ext k = extras e.1 e.2 := by
  constructor
  · change (sel.map fun e => unitIn e.1 e.2)[k]? = _
    rw [List.getElem?_map, h]; rfl
  · simp only [input, h]

theorem input_of {k : ℕ} {un : UnitIn K} (h : (input first sel).base.units[k]? = some un) :
    ∃ e, sel[k]? = some e ∧ un = unitIn e.1 e.2 ∧ (input first sel).ext k = extras e.1 e.2 := by
  change (sel.map fun e => unitIn e.1 e.2)[k]? = _ at h
  rw [List.getElem?_map] at h
  obtain ⟨e, he, rfl⟩ := Option.map_eq_some_iff.1 h
  exact ⟨e, he, rfl, (input_get he).2⟩

theorem set_up {vs : List Wire.Variant} (hvs : ws.map (·.desc) = vs) (hfirst : ws.head? = some first)
    (hw : ∀ w ∈ ws, ∃ a, generateOne w.desc = .ok a ∧ a.str = w.str) (hsel : ∀ e ∈ sel, e.1 ∈ ws) (hne : sel ≠ []) :
    Spec.SetUp vs (input first sel) where
  basin := by
    have hm : first ∈ ws := List.mem_of_mem_head? (by rw [hfirst]; rfl)
    obtain ⟨a, h1, h2⟩ := hw first hm
    exact ⟨first.desc, a, by rw [← hvs, List.head?_map, hfirst]; rfl, h1, h2.symm⟩
  exists_unit := by
    change (sel.map fun e => unitIn e.1 e.2) ≠ []
    simpa using hne
  units := by
    intro u un hu
    obtain ⟨e, he, rfl, hx⟩ := input_of hu
    have hm := hsel e (List.mem_of_getElem? he)
    obtain ⟨a, h1, h2⟩ := hw e.1 hm
    exact ⟨e.1.desc, by rw [← hvs]; exact List.mem_map.2 ⟨_, hm, rfl⟩, a, h1, h2.symm, by rw [hx]; rfl⟩
  plain := by
    intro u
    change (∀ i, ((match sel[u]? with | some e => extras e.1 e.2 | none => _) : UnitX K).brickF i = []) ∧
      ∀ i j, ((match sel[u]? with | some e => extras e.1 e.2 | none => _) : UnitX K).procF i j = []
    cases sel[u]? with
    | none => exact ⟨fun _ => rfl, fun _ _ => rfl⟩
    | some e => exact ⟨fun _ => rfl, fun _ _ => rfl⟩

end

/-! ## Extents -/

/-- The names of the covers of a structure and of its other bricks. -/
def partsOf (s : Struct) : Basin.Parts :=
  ⟨(s.covers.filterMap fun i => s.unitBricks[i]?).map (·.name),
    ((s.unitBricks.zipIdx.filter fun e => !(s.covers.contains e.2)).map (·.1)).map (·.name), true⟩

theorem grounds_fresh (l : List (UnitIn K)) : (l.map fun un => (groundOf un.str : Ground K)) = fresh (l.map fun un => partsOf un.str) := by
  unfold fresh
  rw [List.map_map]
  rfl

theorem parts_covers (v : Wire.Variant) : (partsOf (Spec.complete v)).covers = v.base.covers.map (·.name) := by
  rw [← coverList, partsOf, List.map_filterMap]

theorem parts_others {s : Struct} {n : String} (h : n ∈ (partsOf s).others) : n ∈ s.unitBricks.map (·.name) := by
  obtain ⟨b, hb, rfl⟩ := List.mem_map.1 h
  obtain ⟨e, he, rfl⟩ := List.mem_map.1 hb
  have := (List.mem_filter.1 he).1
  obtain ⟨-, -, h3⟩ := List.mem_zipIdx this
  rw [h3]
  exact List.mem_map.2 ⟨_, List.getElem_mem _, rfl⟩

/-- The declared extent of a cover declared once. -/
theorem declared_of {u : UnitDecl K} (hn : (u.covers.map (·.name)).Nodup) {c : CoverDecl K} (hc : c ∈ u.covers) :
    Basin.Spec.declared u c.name = c.fraction := by
  unfold Basin.Spec.declared
  have : u.covers.filter (fun x => x.name == c.name) = [c] := by
    have hsub : ∀ x ∈ u.covers.filter (fun x => x.name == c.name), x = c := by
      intro x hx
      obtain ⟨h1, h2⟩ := List.mem_filter.1 hx
      exact List.inj_on_of_nodup_map hn h1 hc (by simpa using h2)
    have hnd : (u.covers.filter (fun x => x.name == c.name)).Nodup := (List.Nodup.of_map _ hn).filter _
    have hmem : c ∈ u.covers.filter (fun x => x.name == c.name) := List.mem_filter.2 ⟨hc, by simp⟩
    generalize u.covers.filter (fun x => x.name == c.name) = l at hsub hnd hmem
    cases l with
    | nil => cases hmem
    | cons a l =>
      have ha := hsub a List.mem_cons_self
      cases l with
      | nil => rw [ha]
      | cons b l =>
        have hb := hsub b (by simp)
        rw [List.nodup_cons] at hnd
        exact absurd (by rw [ha, hb]; exact List.mem_cons_self) hnd.1
  rw [this]
  rfl

/-- The extents of the covers of a structure that has all covers of the unit add up to those declared. -/
theorem total_declared {u : UnitDecl K} (hn : (u.covers.map (·.name)).Nodup) {names : List String} (hnd : names.Nodup)
    (hsub : ∀ n ∈ names, n ∈ u.covers.map (·.name)) (hall : ∀ c ∈ u.covers, c.fraction ≠ 0 → c.name ∈ names) :
    (names.map (Basin.Spec.declared u)).sum = (u.covers.map (·.fraction)).sum := by
  have e1 : (u.covers.map (·.fraction)) = (u.covers.map (·.name)).map (Basin.Spec.declared u) := by
    rw [List.map_map]
    exact List.map_congr_left fun c hc => (declared_of hn hc).symm
  rw [e1, ← List.sum_toFinset _ hnd, ← List.sum_toFinset _ hn]
  refine Finset.sum_subset (fun x hx => ?_) fun x hx hx' => ?_
  · exact List.mem_toFinset.2 (hsub x (List.mem_toFinset.1 hx))
  · obtain ⟨c, hc, rfl⟩ := List.mem_map.1 (List.mem_toFinset.1 hx)
    rw [declared_of hn hc]
    by_contra h0
    exact hx' (List.mem_toFinset.2 (hall c hc h0))

end HB.Setup
