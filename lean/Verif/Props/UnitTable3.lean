import Verif.Props.UnitTable2
import Verif.Props.Basin2

/-! # C83: what the model receives, loading, and initialising one cover -/

namespace HB.UnitTable

open HB.Spec.UnitTable HB.Basin

set_option linter.unusedSectionVars false

variable {K : Type} [Field K] [LinearOrder K] [IsStrictOrderedRing K]

/-! ## What the model receives -/

theorem run_own {d : Decl K} {init : List (UnitDecl K)} {u : UnitDecl K} (hs : d.selected = some init.length)
    (hu : d.units = init ++ [u]) (l : List (Cmd K)) (hl : ∀ c ∈ l, Basin.Spec.ofUnit c = true) :
    d.run l = .ok ⟨init ++ [{ u with covers := u.covers ++ Basin.Spec.covers l, propsD := u.propsD ++ Basin.Spec.numbers l,
                                     propsS := u.propsS ++ Basin.Spec.texts l }], d.laterals, some init.length⟩ := by
  induction l generalizing d u with
  | nil =>
    simp only [Decl.run, Basin.Spec.covers, Basin.Spec.numbers, Basin.Spec.texts, List.filterMap_nil, List.append_nil]
    rw [← hs, ← hu]
  | cons c l ih =>
    have hon : ∀ f : UnitDecl K → UnitDecl K, d.onSelected f = .ok ⟨init ++ [f u], d.laterals, some init.length⟩ := by
      intro f
      unfold Decl.onSelected
      rw [hs]
      simp only [hu, List.length_append, List.length_cons, List.length_nil]
      rw [if_pos (by omega)]
      have := modify_end init u f
      simp only [List.length_append, List.length_cons, List.length_nil, Nat.add_sub_cancel, Nat.zero_add] at this
      rw [this]
    have hrest := fun c' hc' => hl c' (List.mem_cons_of_mem c hc')
    have hc := hl c (List.mem_cons_self)
    simp only [Decl.run]
    cases c with
    | cover n t f =>
      simp only [Decl.step]
      rw [hon]
      refine Eq.trans (ih rfl rfl hrest) ?_
      simp [Basin.Spec.covers, Basin.Spec.numbers, Basin.Spec.texts]
    | propD n t f =>
      simp only [Decl.step]
      rw [hon]
      refine Eq.trans (ih rfl rfl hrest) ?_
      simp [Basin.Spec.covers, Basin.Spec.numbers, Basin.Spec.texts]
    | propS n t =>
      simp only [Decl.step]
      rw [hon]
      refine Eq.trans (ih rfl rfl hrest) ?_
      simp [Basin.Spec.covers, Basin.Spec.numbers, Basin.Spec.texts]
    | unit => cases hc
    | lateral => cases hc
    | clear => cases hc
    | select => cases hc

theorem checked_ok {x : K} (h0 : 0 ≤ x) (h1 : x ≤ 1) : checked (some x) = .ok x := by
  have e : (if -(1 / 10 ^ 8) ≤ x ∧ x < 0 then 0 else if 1 < x ∧ x ≤ 1 + 1 / 10 ^ 8 then 1 else x) = x := by
    rw [if_neg (fun h => absurd h.2 (not_lt.2 h0)), if_neg (fun h => absurd h.1 (not_lt.2 h1))]
  unfold checked
  simp only [Option.getD_some]
  rw [e, if_pos ⟨h0, h1⟩]

theorem mapM_pure {α β ε : Type} (f : α → Except ε β) (g : α → β) (l : List α) (h : ∀ x ∈ l, f x = .ok (g x)) :
    l.mapM f = .ok (l.map g) := by
  induction l with
  | nil => rfl
  | cons a l ih =>
    rw [List.mapM_cons, h a (by simp), ih (fun x hx => h x (List.mem_cons_of_mem _ hx))]
    rfl

/-- The calls of a row. -/
def cmds (covers : List (String × String)) (r : Row K) : List (Cmd K) :=
  Cmd.unit r.id r.area r.elev :: (r.props.map fun p => match p.2 with
      | .inl (x, u) => Cmd.propD p.1 x u
      | .inr s => Cmd.propS p.1 s) ++ covers.map fun c => .cover c.1 c.2 ((r.frac c.1).getD 0)

theorem rowCmds_ok (covers : List (String × String)) (r : Row K) (h : ∀ c ∈ covers, ∃ x, r.frac c.1 = some x ∧ 0 ≤ x ∧ x ≤ 1) :
    rowCmds covers r = .ok (cmds covers r) := by
  unfold rowCmds
  rw [mapM_pure _ (fun c => Cmd.cover c.1 c.2 ((r.frac c.1).getD 0)) covers]
  · rfl
  · intro c hc
    obtain ⟨x, hx, h0, h1⟩ := h c hc
    rw [hx, checked_ok h0 h1]
    rfl

theorem run_row (covers : List (String × String)) (r : Row K) (d : Decl K) :
    d.run (cmds covers r) = .ok ⟨d.units ++ [unitOf covers r], d.laterals, some d.units.length⟩ := by
  unfold cmds
  rw [List.cons_append]
  simp only [Decl.run, Decl.step, Out.bind]
  rw [run_own (init := d.units) rfl rfl]
  · congr 1
    have e1 : ∀ l : List (String × ((K × String) ⊕ String)), Basin.Spec.covers ((l.map fun p => match p.2 with
      | .inl (x, u) => Cmd.propD p.1 x u
      | .inr s => Cmd.propS p.1 s) ++ covers.map fun c => .cover c.1 c.2 ((r.frac c.1).getD 0)) =
        covers.map fun c => ⟨c.1, c.2, (r.frac c.1).getD 0⟩ := by
      intro l
      induction l with
      | nil =>
        simp only [List.map_nil, List.nil_append, Basin.Spec.covers, List.filterMap_map]
        exact congrFun (List.filterMap_eq_map (f := fun c : String × String => (⟨c.1, c.2, (r.frac c.1).getD 0⟩ : CoverDecl K))) covers
      | cons p l ih =>
        rw [← ih]
        rcases p with ⟨n, ⟨x, u⟩ | s⟩ <;> simp [Basin.Spec.covers]
    have e2 : ∀ l : List (String × ((K × String) ⊕ String)), Basin.Spec.numbers ((l.map fun p => match p.2 with
      | .inl (x, u) => Cmd.propD p.1 x u
      | .inr s => Cmd.propS p.1 s) ++ covers.map fun c => .cover c.1 c.2 ((r.frac c.1).getD 0)) =
        l.filterMap fun p => match p.2 with | .inl (x, u) => some ⟨p.1, x, u⟩ | .inr _ => none := by
      intro l
      induction l with
      | nil =>
        simp only [List.map_nil, List.nil_append, Basin.Spec.numbers, List.filterMap_map, List.filterMap_nil]
        rw [List.filterMap_eq_nil_iff]
        intro c _
        rfl
      | cons p l ih =>
        rcases p with ⟨n, ⟨x, u⟩ | s⟩
        · simp only [List.map_cons, List.cons_append, Basin.Spec.numbers, List.filterMap_cons] at ih ⊢
          rw [ih]
        · simp only [List.map_cons, List.cons_append, Basin.Spec.numbers, List.filterMap_cons] at ih ⊢
          rw [ih]
    have e3 : ∀ l : List (String × ((K × String) ⊕ String)), Basin.Spec.texts ((l.map fun p => match p.2 with
      | .inl (x, u) => Cmd.propD p.1 x u
      | .inr s => Cmd.propS p.1 s) ++ covers.map fun c => .cover c.1 c.2 ((r.frac c.1).getD 0)) =
        l.filterMap fun p => match p.2 with | .inl _ => none | .inr s => some ⟨p.1, s⟩ := by
      intro l
      induction l with
      | nil =>
        simp only [List.map_nil, List.nil_append, Basin.Spec.texts, List.filterMap_map, List.filterMap_nil]
        rw [List.filterMap_eq_nil_iff]
        intro c _
        rfl
      | cons p l ih =>
        rcases p with ⟨n, ⟨x, u⟩ | s⟩
        · simp only [List.map_cons, List.cons_append, Basin.Spec.texts, List.filterMap_cons] at ih ⊢
          rw [ih]
        · simp only [List.map_cons, List.cons_append, Basin.Spec.texts, List.filterMap_cons] at ih ⊢
          rw [ih]
    rw [e1, e2, e3]
    rfl
  · intro c hc
    rcases List.mem_append.1 hc with h | h
    · obtain ⟨p, _, rfl⟩ := List.mem_map.1 h
      rcases p with ⟨n, ⟨x, u⟩ | s⟩ <;> rfl
    · obtain ⟨p, _, rfl⟩ := List.mem_map.1 h
      rfl

theorem run_rows (covers : List (String × String)) (rows : List (Row K)) (d : Decl K) :
    ∃ s, d.run (rows.map (cmds covers)).flatten = .ok ⟨d.units ++ rows.map (unitOf covers), d.laterals, s⟩ := by
  induction rows generalizing d with
  | nil => exact ⟨d.selected, by simp [Decl.run]⟩
  | cons r rows ih =>
    obtain ⟨s, hs⟩ := ih ⟨d.units ++ [unitOf covers r], d.laterals, some d.units.length⟩
    refine ⟨s, ?_⟩
    rw [List.map_cons, List.flatten_cons, run_append, run_row]
    refine Eq.trans hs ?_
    simp

/-- **C83 (declared)**: a table whose fractions are between 0 and 1 is handed to the model: after the calls, the
units of the model are exactly those of the table (those declared before are gone, the connections stay), highest
first, each with its id, area, elevation, properties and the fraction of every cover. -/
theorem c83_declared (t : Table K) (h : ∀ r ∈ t.rows, ∀ c ∈ t.covers, ∃ x, r.frac c.1 = some x ∧ 0 ≤ x ∧ x ≤ 1) (d : Decl K) :
    ∃ (calls : List (Cmd K)) (d' : Decl K) (order : List (Row K)), populate t = .ok calls ∧ d.run calls = .ok d' ∧ order.Perm t.rows ∧
      order.Pairwise (fun a b => b.elev ≤ a.elev) ∧ d'.units = order.map (unitOf t.covers) ∧ d'.laterals = d.laterals := by
  have hperm := List.perm_insertionSort (fun a b : Row K => b.elev ≤ a.elev) t.rows
  have hsort : (t.rows.insertionSort fun a b => b.elev ≤ a.elev).Pairwise (fun a b => b.elev ≤ a.elev) := by
    haveI : Std.Total (fun a b : Row K => b.elev ≤ a.elev) := ⟨fun a b => _root_.le_total b.elev a.elev⟩
    haveI : IsTrans (Row K) (fun a b : Row K => b.elev ≤ a.elev) := ⟨fun a b c h1 h2 => _root_.le_trans h2 h1⟩
    exact List.pairwise_insertionSort _ _
  obtain ⟨s, hs⟩ := run_rows t.covers (t.rows.insertionSort fun a b => b.elev ≤ a.elev) (⟨[], d.laterals, none⟩ : Decl K)
  refine ⟨Cmd.clear :: ((t.rows.insertionSort fun a b => b.elev ≤ a.elev).map (cmds t.covers)).flatten,
    ⟨(t.rows.insertionSort fun a b => b.elev ≤ a.elev).map (unitOf t.covers), d.laterals, s⟩, _, ?_, ?_, hperm, hsort, rfl, rfl⟩
  · unfold populate
    rw [mapM_pure _ (cmds t.covers)]
    intro r hr
    exact rowCmds_ok t.covers r (h r (hperm.mem_iff.1 hr))
  · simp only [Decl.run, Decl.step, Out.bind]
    simpa using hs

theorem declared_eq (covers : List (String × String)) (hn : (covers.map Prod.fst).Nodup) (r : Row K) (n : String)
    (h : n ∈ covers.map Prod.fst) : Basin.Spec.declared (unitOf covers r) n = (r.frac n).getD 0 := by
  obtain ⟨c, hc, rfl⟩ := List.mem_map.1 h
  unfold Basin.Spec.declared unitOf
  simp only
  have : (covers.map fun c => (⟨c.1, c.2, (r.frac c.1).getD 0⟩ : CoverDecl K)).filter (fun x => x.name == c.1) =
      [⟨c.1, c.2, (r.frac c.1).getD 0⟩] := by
    rw [List.filter_map]
    have : covers.filter ((fun x : CoverDecl K => x.name == c.1) ∘ fun c => ⟨c.1, c.2, (r.frac c.1).getD 0⟩) = [c] := by
      clear h
      induction covers with
      | nil => cases hc
      | cons a l ih =>
        rw [List.map_cons, List.nodup_cons] at hn
        rw [List.filter_cons]
        rcases List.mem_cons.1 hc with rfl | hc
        · rw [if_pos (by simp)]
          congr 1
          rw [List.filter_eq_nil_iff]
          intro x hx hh
          have hh' : x.1 = c.1 := eq_of_beq hh
          exact hn.1 (hh' ▸ List.mem_map_of_mem hx)
        · rw [if_neg, ih hn.2 hc]
          intro hh
          have hh' : a.1 = c.1 := eq_of_beq hh
          exact hn.1 (hh' ▸ List.mem_map_of_mem hc)
    rw [this]; rfl
  rw [this]; rfl

/-- **C83 (accepted)**: a table whose fractions add up to 1 in every unit is accepted by the model, when the units have positive
areas and the built units have exactly the covers of the table, in any order, beside valid parts with other names. -/
theorem c83_accepted (t : Table K) (hw : ∀ r ∈ t.rows, Whole t.covers r) (hn : (t.covers.map Prod.fst).Nodup)
    (ha : ∀ r ∈ t.rows, 0 < r.area) (hne : t.rows ≠ []) (d : Decl K) (ps : List Parts) (hlen : ps.length = t.rows.length)
    (hps : ∀ p ∈ ps, p.covers.Perm (t.covers.map Prod.fst) ∧ p.valid = true) :
    ∃ calls d' gs, populate t = .ok calls ∧ d.run calls = .ok d' ∧ initialise d' (fresh ps) true = .ok gs := by
  obtain ⟨calls, d', order, h1, h2, h3, h4, h5, h6⟩ := c83_declared t (fun r hr => (hw r hr).1) d
  have hl : d'.units.length = ps.length := by rw [h5, List.length_map, h3.length_eq, hlen]
  obtain ⟨_, hacc⟩ := c61_accepted d' ps hl true
  have hmem : ∀ (k : ℕ) (u : UnitDecl K), d'.units[k]? = some u → ∃ r ∈ t.rows, u = unitOf t.covers r := by
    intro k u hu
    rw [h5, List.getElem?_map, Option.map_eq_some_iff] at hu
    obtain ⟨r, hr, rfl⟩ := hu
    exact ⟨r, h3.mem_iff.1 (List.mem_of_getElem? hr), rfl⟩
  have hno : ¬ (∃ (k : ℕ) (u : UnitDecl K) (p : Parts), d'.units[k]? = some u ∧ ps[k]? = some p ∧ NotACover u p) := by
    rintro ⟨k, u, p, hu, hp, c, hc, hcov, _⟩
    obtain ⟨r, hr, rfl⟩ := hmem k u hu
    obtain ⟨c0, hc0, rfl⟩ := List.mem_map.1 hc
    exact hcov ((hps p (List.mem_of_getElem? hp)).1.mem_iff.2 (List.mem_map_of_mem hc0))
  obtain ⟨gs, hgs⟩ := (hacc hno).2 ⟨by
      rw [h5]
      intro hh
      rw [List.map_eq_nil_iff] at hh
      rw [hh] at h3
      exact hne h3.symm.eq_nil, rfl, by
      intro k u p hu hp
      obtain ⟨r, hr, rfl⟩ := hmem k u hu
      obtain ⟨hp1, hp2⟩ := hps p (List.mem_of_getElem? hp)
      refine ⟨hp2, ha r hr, .inr ?_⟩
      rw [(hp1.map _).sum_eq]
      have : ((t.covers.map Prod.fst).map (Basin.Spec.declared (unitOf t.covers r))).sum = 1 := by
        rw [← (hw r hr).2]
        have : (t.covers.map fun c => (r.frac c.1).getD 0) = (t.covers.map Prod.fst).map fun n => (r.frac n).getD 0 := by
          rw [List.map_map]; rfl
        rw [this]
        congr 1
        apply List.map_congr_left
        intro n hmem
        exact declared_eq t.covers hn r n hmem
      rw [this, sub_self, abs_zero]
      positivity⟩
  exact ⟨calls, d', gs, h1, h2, hgs⟩

end HB.UnitTable
