import Verif.Spec.Basin
import Verif.Props.LandCover
import Mathlib.Data.List.Nodup

/-!
# C61: setting up the basin
-/

set_option linter.unusedSectionVars false

namespace HB.Basin

variable {K : Type}

/-! ## Declaring -/

theorem run_append (d : Decl K) (a b : List (Cmd K)) : d.run (a ++ b) = (d.run a).bind fun d' => d'.run b := by
  induction a generalizing d with
  | nil => rfl
  | cons c a ih =>
    simp only [List.cons_append, Decl.run]
    cases d.step c with
    | ok d' => exact ih d'
    | refused => rfl
    | undef => rfl

/-- The unit declared last is the selected one. -/
def Last (d : Decl K) : Prop := d.selected = if d.units.length = 0 then none else some (d.units.length - 1)

theorem last_empty : Last (Decl.empty : Decl K) := rfl

theorem onSelected_last {d : Decl K} (h : Last d) (f : UnitDecl K → UnitDecl K) :
    d.onSelected f = if d.units = [] then .undef else .ok { d with units := d.units.modify (d.units.length - 1) f } := by
  unfold Decl.onSelected
  unfold Last at h
  rw [h]
  by_cases h0 : d.units = []
  · simp [h0]
  · have : d.units.length ≠ 0 := fun e => h0 (List.length_eq_zero_iff.1 e)
    simp only [this, if_false, h0]
    rw [if_pos (by omega)]

theorem last_modify {d : Decl K} (h : Last d) (f : UnitDecl K → UnitDecl K) (i : ℕ) :
    Last { d with units := d.units.modify i f } := by
  unfold Last at h ⊢; simpa using h

theorem step_last {d d' : Decl K} (h : Last d) {c : Cmd K} (hc : Spec.plain c = true) (hs : d.step c = .ok d') : Last d' := by
  cases c with
  | unit => simp only [Decl.step, Out.ok.injEq] at hs; subst hs; simp [Last]
  | cover n t f =>
    simp only [Decl.step] at hs; rw [onSelected_last h] at hs; split at hs
    · cases hs
    · cases hs; exact last_modify h _ _
  | propD n t f =>
    simp only [Decl.step] at hs; rw [onSelected_last h] at hs; split at hs
    · cases hs
    · cases hs; exact last_modify h _ _
  | propS n t =>
    simp only [Decl.step] at hs; rw [onSelected_last h] at hs; split at hs
    · cases hs
    · cases hs; exact last_modify h _ _
  | lateral => simp only [Decl.step, Out.ok.injEq] at hs; subst hs; exact h
  | clear => simp [Spec.plain] at hc
  | select => simp [Spec.plain] at hc

theorem run_last {d d' : Decl K} (h : Last d) {l : List (Cmd K)} (hl : ∀ c ∈ l, Spec.plain c = true)
    (hs : d.run l = .ok d') : Last d' := by
  induction l generalizing d with
  | nil => simp only [Decl.run, Out.ok.injEq] at hs; exact hs ▸ h
  | cons c l ih =>
    simp only [Decl.run] at hs
    cases hc : d.step c with
    | ok e =>
      rw [hc] at hs
      exact ih (step_last h (hl c (by simp)) hc) (fun x hx => hl x (by simp [hx])) hs
    | refused => rw [hc] at hs; cases hs
    | undef => rw [hc] at hs; cases hs

/-- Number of units, connections and first units kept by one call. -/
theorem step_facts {d d' : Decl K} (h : Last d) {c : Cmd K} (hc : Spec.plain c = true) (hs : d.step c = .ok d') :
    d'.units.length = d.units.length + (if Spec.isUnit c then 1 else 0) ∧ d'.laterals = d.laterals ++ Spec.laterals [c] ∧
      ∀ k, k + 1 < d.units.length ∨ (Spec.isUnit c = true ∧ k < d.units.length) → d'.units[k]? = d.units[k]? := by
  have key : ∀ f, d.onSelected f = .ok d' → Spec.isUnit c = false →
      d'.units.length = d.units.length + (if Spec.isUnit c then 1 else 0) ∧ d'.laterals = d.laterals ∧
      ∀ k, k + 1 < d.units.length ∨ (Spec.isUnit c = true ∧ k < d.units.length) → d'.units[k]? = d.units[k]? := by
    intro f hs hu
    rw [onSelected_last h] at hs; split at hs
    · cases hs
    · cases hs
      refine ⟨by simp [hu], rfl, ?_⟩
      intro k hk
      rcases hk with hk | ⟨hk, _⟩
      · have : d.units.length - 1 ≠ k := by omega
        simp [List.getElem?_modify, this]
      · rw [hu] at hk; cases hk
  cases c with
  | unit =>
    simp only [Decl.step, Out.ok.injEq] at hs; subst hs
    refine ⟨by simp [Spec.isUnit], by simp [Spec.laterals], ?_⟩
    intro k hk
    have : k < d.units.length := by rcases hk with h | h <;> omega
    simp [List.getElem?_append_left this]
  | cover n t f => have := key _ hs rfl; simpa [Spec.laterals] using this
  | propD n t f => have := key _ hs rfl; simpa [Spec.laterals] using this
  | propS n t => have := key _ hs rfl; simpa [Spec.laterals] using this
  | lateral =>
    simp only [Decl.step, Out.ok.injEq] at hs; subst hs
    exact ⟨by simp [Spec.isUnit], by simp [Spec.laterals], fun _ _ => rfl⟩
  | clear => simp [Spec.plain] at hc
  | select => simp [Spec.plain] at hc

theorem run_facts {d d' : Decl K} (h : Last d) {l : List (Cmd K)} (hl : ∀ c ∈ l, Spec.plain c = true)
    (hs : d.run l = .ok d') :
    d'.units.length = d.units.length + (l.filter Spec.isUnit).length ∧ d'.laterals = d.laterals ++ Spec.laterals l ∧
      ∀ k, k + 1 < d.units.length → d'.units[k]? = d.units[k]? := by
  induction l generalizing d with
  | nil => simp only [Decl.run, Out.ok.injEq] at hs; subst hs; simp [Spec.laterals]
  | cons c l ih =>
    simp only [Decl.run] at hs
    cases hc : d.step c with
    | ok e =>
      rw [hc] at hs
      have h1 := step_facts h (hl c (by simp)) hc
      have h2 := ih (step_last h (hl c (by simp)) hc) (fun x hx => hl x (by simp [hx])) hs
      refine ⟨?_, ?_, ?_⟩
      · rw [h2.1, h1.1, List.filter_cons]
        split <;> simp <;> omega
      · rw [h2.2.1, h1.2.1, List.append_assoc]
        congr 1
        simp only [Spec.laterals]
        rw [show c :: l = [c] ++ l from rfl, List.filterMap_append]
      · intro k hk
        rw [h2.2.2 k (by rw [h1.1]; split <;> omega), h1.2.2 k (Or.inl hk)]
    | refused => rw [hc] at hs; cases hs
    | undef => rw [hc] at hs; cases hs

theorem modify_end {α : Type} (init : List α) (u : α) (f : α → α) :
    (init ++ [u]).modify ((init ++ [u]).length - 1) f = init ++ [f u] := by
  rw [show (init ++ [u]).length - 1 = init.length by simp]
  induction init with
  | nil => rfl
  | cons x l ih => simpa using ih

/-- What the calls about the last unit do to it. -/
theorem run_seg {d d' : Decl K} {init : List (UnitDecl K)} {u : UnitDecl K} (h : Last d) (hu : d.units = init ++ [u])
    {l : List (Cmd K)} (hl : ∀ c ∈ l, Spec.plain c = true) (hn : ∀ c ∈ l, Spec.isUnit c = false) (hs : d.run l = .ok d') :
    d'.units = init ++ [{ u with covers := u.covers ++ Spec.covers l, propsD := u.propsD ++ Spec.numbers l,
                                  propsS := u.propsS ++ Spec.texts l }] := by
  induction l generalizing d u with
  | nil => simp only [Decl.run, Out.ok.injEq] at hs; subst hs; simp [hu, Spec.covers, Spec.numbers, Spec.texts]
  | cons c l ih =>
    simp only [Decl.run] at hs
    cases hc : d.step c with
    | refused => rw [hc] at hs; cases hs
    | undef => rw [hc] at hs; cases hs
    | ok e =>
      rw [hc] at hs
      simp only [Out.bind] at hs
      have he := step_last h (hl c (by simp)) hc
      have hmod : ∀ f : UnitDecl K → UnitDecl K, (init ++ [u]).modify ((init ++ [u]).length - 1) f = init ++ [f u] := by
        intro f
        exact modify_end init u f
      have hne : d.units ≠ [] := by simp [hu]
      have ihe := fun (v : UnitDecl K) (hv : e.units = init ++ [v]) =>
        ih he hv (fun x hx => hl x (by simp [hx])) (fun x hx => hn x (by simp [hx])) hs
      cases c with
      | unit => simpa [Spec.isUnit] using hn _ (List.mem_cons_self)
      | cover n t f =>
        simp only [Decl.step] at hc
        rw [onSelected_last h, if_neg hne] at hc
        cases hc
        rw [ihe _ (by simp only [hu]; exact hmod _)]
        simp [Spec.covers, Spec.numbers, Spec.texts]
      | propD n t f =>
        simp only [Decl.step] at hc
        rw [onSelected_last h, if_neg hne] at hc
        cases hc
        rw [ihe _ (by simp only [hu]; exact hmod _)]
        simp [Spec.covers, Spec.numbers, Spec.texts]
      | propS n t =>
        simp only [Decl.step] at hc
        rw [onSelected_last h, if_neg hne] at hc
        cases hc
        rw [ihe _ (by simp only [hu]; exact hmod _)]
        simp [Spec.covers, Spec.numbers, Spec.texts]
      | lateral =>
        simp only [Decl.step, Out.ok.injEq] at hc; subst hc
        rw [ihe _ hu]
        simp [Spec.covers, Spec.numbers, Spec.texts]
      | clear => simpa [Spec.plain] using hl _ (List.mem_cons_self)
      | select => simpa [Spec.plain] using hl _ (List.mem_cons_self)

/-- **C61 (declaration).** In a sequence of declarations, the calls that follow the declaration of a unit, up to the next
unit, are what the unit gets: its covers and its properties, in that order; it comes after the units declared before. -/
theorem c61_declaration (pre seg post : List (Cmd K)) (id : ℤ) (area el : K) (d : Decl K)
    (hplain : ∀ c ∈ pre ++ seg ++ post, Spec.plain c = true) (hseg : ∀ c ∈ seg, Spec.isUnit c = false)
    (hpost : post = [] ∨ ∃ i a e l, post = .unit i a e :: l)
    (hd : Decl.empty.run (pre ++ .unit id area el :: (seg ++ post)) = .ok d) :
    d.units[(pre.filter Spec.isUnit).length]? =
      some ⟨id, area, el, Spec.covers seg, Spec.numbers seg, Spec.texts seg⟩ := by
  have p1 : ∀ c ∈ pre, Spec.plain c = true := fun c hc => hplain c (by simp [hc])
  have p2 : ∀ c ∈ seg, Spec.plain c = true := fun c hc => hplain c (by simp [hc])
  have p3 : ∀ c ∈ post, Spec.plain c = true := fun c hc => hplain c (by simp [hc])
  rw [run_append] at hd
  cases h1 : Decl.empty.run pre with
  | refused => rw [h1] at hd; cases hd
  | undef => rw [h1] at hd; cases hd
  | ok d1 =>
    rw [h1] at hd
    simp only [Out.bind, Decl.run, Decl.step] at hd
    have f1 := run_facts last_empty p1 h1
    have l1 := run_last last_empty p1 h1
    rw [run_append] at hd
    set d2 : Decl K := { d1 with units := d1.units ++ [⟨id, area, el, [], [], []⟩], selected := some d1.units.length }
      with hd2
    have l2 : Last d2 := by simp [hd2, Last]
    cases h3 : d2.run seg with
    | refused => rw [h3] at hd; cases hd
    | undef => rw [h3] at hd; cases hd
    | ok d3 =>
      rw [h3] at hd
      simp only [Out.bind] at hd
      have u3 := run_seg l2 (init := d1.units) (u := ⟨id, area, el, [], [], []⟩) rfl p2 hseg h3
      have l3 := run_last l2 p2 h3
      have hk : (pre.filter Spec.isUnit).length = d1.units.length := by rw [f1.1]; simp [Decl.empty]
      rw [hk]
      have e3 : d3.units[d1.units.length]? =
          some ⟨id, area, el, Spec.covers seg, Spec.numbers seg, Spec.texts seg⟩ := by
        rw [u3]; simp
      rcases hpost with rfl | ⟨i, a, e, l, rfl⟩
      · simp only [Decl.run, Out.ok.injEq] at hd; subst hd; exact e3
      · simp only [Decl.run, Decl.step, Out.bind] at hd
        have := (run_facts (d := { d3 with units := d3.units ++ [⟨i, a, e, [], [], []⟩],
                                            selected := some d3.units.length })
          (by simp [Last]) (fun c hc => p3 c (by simp [hc])) hd).2.2 d1.units.length (by
            rw [u3]; simp)
        rw [this]
        rw [← e3]
        simp only
        rw [List.getElem?_append_left (by rw [u3]; simp)]

/-- **C61 (declaration).** A sequence of declarations succeeds exactly when no cover or property comes before the first
unit (otherwise the behaviour is undefined); all the units and all the connections are then there. -/
theorem c61_declarations (l : List (Cmd K)) (hl : ∀ c ∈ l, Spec.plain c = true) :
    ((∃ d, Decl.empty.run l = .ok d) ↔ ∀ a c b, l = a ++ c :: b → Spec.ofUnit c = true → ∃ x ∈ a, Spec.isUnit x = true) ∧
    (∀ d, Decl.empty.run l = .ok d →
      d.units.length = (l.filter Spec.isUnit).length ∧ d.laterals = Spec.laterals l) := by
  refine ⟨?_, fun d hd => ?_⟩
  · -- by induction from the end
    induction l using List.reverseRecOn with
    | nil => simp [Decl.run]
    | append_singleton l c ih =>
      have hl' : ∀ c ∈ l, Spec.plain c = true := fun x hx => hl x (by simp [hx])
      have ih := ih hl'
      rw [run_append]
      constructor
      · rintro ⟨d, hd⟩ a c' b e hc'
        cases h1 : (Decl.empty : Decl K).run l with
        | refused => rw [h1] at hd; cases hd
        | undef => rw [h1] at hd; cases hd
        | ok d1 =>
          rcases List.eq_nil_or_concat b with rfl | ⟨b', x, rfl⟩
          · have e' : l = a ∧ c = c' := by simpa using List.append_inj' e rfl
            obtain ⟨rfl, rfl⟩ := e'
            rw [h1] at hd
            simp only [Out.bind, Decl.run] at hd
            have f1 := run_facts last_empty hl' h1
            have l1 := run_last last_empty hl' h1
            by_contra hno
            push Not at hno
            have hz : (l.filter Spec.isUnit) = [] := by
              rw [List.filter_eq_nil_iff]; intro x hx; simpa using hno x hx
            have hu : d1.units = [] := by
              rw [← List.length_eq_zero_iff, f1.1, hz]; rfl
            cases c <;> simp [Spec.ofUnit] at hc' <;> simp [Decl.step, onSelected_last l1, hu] at hd
          · have e' : l = a ++ c' :: b' := by
              rw [List.concat_eq_append, ← List.cons_append, ← List.append_assoc] at e
              exact (List.append_inj' e rfl).1
            exact (ih.1 ⟨d1, h1⟩) a c' b' e' hc'
      · intro h
        obtain ⟨d1, h1⟩ := ih.2 (fun a c' b e hc' => h a c' (b ++ [c]) (by simp [e]) hc')
        rw [h1]
        simp only [Out.bind, Decl.run]
        have f1 := run_facts last_empty hl' h1
        have l1 := run_last last_empty hl' h1
        have hu : Spec.ofUnit c = true → d1.units ≠ [] := by
          intro hc he
          obtain ⟨x, hx, hxu⟩ := h l c [] rfl hc
          have hlen := f1.1
          rw [he] at hlen
          have : 0 < (l.filter Spec.isUnit).length :=
            List.length_pos_of_mem (List.mem_filter.2 ⟨hx, hxu⟩)
          simp only [Decl.empty, List.length_nil] at hlen
          omega
        have hp := hl c (by simp)
        cases c <;> simp [Spec.plain] at hp <;> simp [Spec.ofUnit] at hu <;>
          simp [Decl.step, onSelected_last l1, hu]
  · have := run_facts last_empty hl hd
    exact ⟨by rw [this.1]; simp [Decl.empty], by rw [this.2.1]; simp [Decl.empty]⟩

/-- **C61 (clearing).** Clearing removes the units, not the connections. -/
theorem c61_clear_keeps_connections (d : Decl K) : d.step .clear = .ok ⟨[], d.laterals, none⟩ := rfl

/-! ## Building -/

section
variable [Field K] [LinearOrder K] [IsStrictOrderedRing K]

theorem find_go_map (id : ℤ) (l l' : List (BUnit K)) (i : ℕ) (acc : Option ℕ) (h : l.map (·.id) = l'.map (·.id)) :
    Basin.find.go id l i acc = Basin.find.go id l' i acc := by
  induction l generalizing l' i acc with
  | nil => cases l' with
    | nil => rfl
    | cons => simp at h
  | cons x l ih =>
    cases l' with
    | nil => simp at h
    | cons y l' =>
      simp only [List.map_cons, List.cons.injEq] at h
      simp only [Basin.find.go]
      rw [h.1]
      exact ih l' _ _ h.2

/-- The search goes by the ids only. -/
theorem find_map (b b' : Basin K) (id : ℤ) (h : b.units.map (·.id) = b'.units.map (·.id)) : b.find id = b'.find id :=
  find_go_map id _ _ _ _ h

theorem find_go_none (id : ℤ) (l : List (BUnit K)) (i : ℕ) (acc : Option ℕ) (h : ∀ u ∈ l, u.id ≠ id) :
    Basin.find.go id l i acc = acc := by
  induction l generalizing i acc with
  | nil => rfl
  | cons x l ih =>
    simp only [Basin.find.go]
    rw [if_neg (h x (by simp))]
    exact ih _ _ (fun u hu => h u (by simp [hu]))

theorem find_go_spec (id : ℤ) (l : List (BUnit K)) (i : ℕ) (acc : Option ℕ) (h : ∃ u ∈ l, u.id = id) :
    ∃ k u, Basin.find.go id l i acc = some (i + k) ∧ l[k]? = some u ∧ u.id = id ∧
      ∀ j v, k < j → l[j]? = some v → v.id ≠ id := by
  induction l generalizing i acc with
  | nil => obtain ⟨u, hu, _⟩ := h; cases hu
  | cons x l ih =>
    simp only [Basin.find.go]
    by_cases hl : ∃ u ∈ l, u.id = id
    · obtain ⟨k, u, h1, h2, h3, h4⟩ := ih (i + 1) (if x.id = id then some i else acc) hl
      refine ⟨k + 1, u, by rw [h1]; congr 1; omega, by simpa using h2, h3, ?_⟩
      intro j v hj hv
      cases j with
      | zero => omega
      | succ j => exact h4 j v (by omega) (by simpa using hv)
    · push Not at hl
      have hx : x.id = id := by
        obtain ⟨u, hu, e⟩ := h
        rcases List.mem_cons.1 hu with rfl | hu
        · exact e
        · exact absurd e (hl u hu)
      rw [find_go_none id l _ _ hl, if_pos hx]
      refine ⟨0, x, rfl, rfl, hx, ?_⟩
      intro j v hj hv
      cases j with
      | zero => omega
      | succ j => exact hl v (List.mem_of_getElem? (by simpa using hv))

/-- The unit found: it has the id, and no later unit has it. -/
theorem find_spec (b : Basin K) (id : ℤ) (h : ∃ u ∈ b.units, u.id = id) :
    ∃ k u, b.find id = some k ∧ b.units[k]? = some u ∧ u.id = id ∧ ∀ j v, k < j → b.units[j]? = some v → v.id ≠ id := by
  obtain ⟨k, u, h1, h2⟩ := find_go_spec id b.units 0 none h
  exact ⟨k, u, by unfold Basin.find; simpa using h1, h2⟩

theorem find_none (b : Basin K) (id : ℤ) : b.find id = none ↔ ∀ u ∈ b.units, u.id ≠ id := by
  constructor
  · intro h u hu e
    obtain ⟨k, v, h1, _⟩ := find_spec b id ⟨u, hu, e⟩
    rw [h] at h1; cases h1
  · exact fun h => find_go_none id b.units 0 none h

/-- With distinct ids: the unit found is the one that has the id. -/
theorem find_nodup (b : Basin K) (hn : (b.units.map (·.id)).Nodup) (id : ℤ) (k : ℕ) (u : BUnit K)
    (hk : b.units[k]? = some u) : b.find id = some k ↔ u.id = id := by
  constructor
  · intro h
    by_contra hne
    have hex : ∃ u ∈ b.units, u.id = id := by
      by_contra hno; push Not at hno
      rw [(find_none b id).2 hno] at h; cases h
    obtain ⟨k', v, h1, h2, h3, _⟩ := find_spec b id hex
    rw [h] at h1; cases h1
    rw [hk] at h2; cases h2
    exact hne h3
  · intro h
    obtain ⟨k', v, h1, h2, h3, _⟩ := find_spec b id ⟨u, List.mem_of_getElem? hk, h⟩
    rw [h1]
    have a1 : (b.units.map (·.id))[k]? = some id := by rw [List.getElem?_map, hk]; simp [h]
    have a2 : (b.units.map (·.id))[k']? = some id := by rw [List.getElem?_map, h2]; simp [h3]
    rw [List.getElem?_eq_some_iff] at a1 a2
    obtain ⟨b1, c1⟩ := a1; obtain ⟨b2, c2⟩ := a2
    congr 1
    exact (hn.getElem_inj_iff (hi := b2) (hj := b1)).1 (c2.trans c1.symm)

theorem foldl_addUnit (us : List (UnitDecl K)) (b : Basin K) :
    us.foldl Basin.addUnit b =
      ⟨b.units ++ us.map (fun u => ⟨u.id, u.area, properties u, []⟩), b.area + (us.map (·.area)).sum⟩ := by
  induction us generalizing b with
  | nil => simp
  | cons u us ih => rw [List.foldl_cons, ih]; simp [Basin.addUnit, add_assoc]

/-- The connection of unit `k` that a declaration stands for. -/
def connOf (b : Basin K) (k : ℕ) (l : LatDecl K) : Option (LatConn K) :=
  if b.find l.giver = some k then (b.find l.receiver).map fun r => ⟨r, l.fraction, l.type⟩ else none

/-- The declaration is between units of the basin. -/
def Between (b : Basin K) (l : LatDecl K) : Prop := (b.find l.giver).isSome ∧ (b.find l.receiver).isSome

theorem addConn_spec (b : Basin K) (l : LatDecl K) :
    b.addConn l ≠ .undef ∧
    ((∃ b', b.addConn l = .ok b') ↔ (Between b l → 0 < l.fraction ∧ l.fraction ≤ 1)) ∧
    ∀ b', b.addConn l = .ok b' → b'.area = b.area ∧ b'.units.length = b.units.length ∧
      b'.units.map (·.id) = b.units.map (·.id) ∧
      ∀ (k : ℕ) (u : BUnit K), b.units[k]? = some u →
        b'.units[k]? = some { u with laterals := u.laterals ++ (connOf b k l).toList } := by
  unfold Basin.addConn
  cases hg : b.find l.giver with
  | none =>
    refine ⟨by simp, by simp [Between, hg], ?_⟩
    intro b' hb'
    simp only [Out.ok.injEq] at hb'; subst hb'
    exact ⟨rfl, rfl, rfl, fun k u hk => by simp [connOf, hg, hk]⟩
  | some g =>
    cases hr : b.find l.receiver with
    | none =>
      refine ⟨by simp, by simp [Between, hr], ?_⟩
      intro b' hb'
      simp only [Out.ok.injEq] at hb'; subst hb'
      exact ⟨rfl, rfl, rfl, fun k u hk => by simp [connOf, hr, hk]⟩
    | some r =>
      have hex : ∃ u ∈ b.units, u.id = l.giver := by
        by_contra hno; push Not at hno
        rw [(find_none b l.giver).2 hno] at hg; cases hg
      obtain ⟨k', v, h1, h2, h3, _⟩ := find_spec b l.giver hex
      rw [hg] at h1; cases h1
      simp only [h2]
      unfold addLateral
      by_cases hf : l.fraction ≤ 0 ∨ l.fraction > 1
      · simp only [hf, if_true]
        refine ⟨by simp, ?_, by simp⟩
        simp only [reduceCtorEq, exists_false, false_iff, Between, hg, hr]
        intro hh
        have := hh (by simp)
        rcases hf with hf | hf
        · exact absurd this.1 (not_lt.2 hf)
        · exact absurd this.2 (not_le.2 hf)
      · simp only [hf, if_false]
        push Not at hf
        refine ⟨by simp, by simp [hf], ?_⟩
        intro b' hb'
        simp only [Out.ok.injEq] at hb'; subst hb'
        have hlt : g < b.units.length := (List.getElem?_eq_some_iff.1 h2).1
        refine ⟨rfl, by simp, ?_, ?_⟩
        · rw [List.map_set]
          apply List.ext_getElem?
          intro j
          rw [List.getElem?_set]
          split
          · rename_i e; subst e
            have hv : b.units[g] = v := (List.getElem?_eq_some_iff.1 h2).2
            simp [hlt, hv]
          · rfl
        · intro k u hk
          simp only [List.getElem?_set]
          by_cases e : g = k
          · subst e
            rw [h2] at hk; cases hk
            simp [hlt, connOf, hg, hr]
          · have : ¬ (some g = some k) := fun h => e (Option.some.inj h)
            simp [e, hk, connOf, hg]

theorem connOf_map (b b' : Basin K) (h : b'.units.map (·.id) = b.units.map (·.id)) (k : ℕ) : connOf b' k = connOf b k := by
  funext l
  unfold connOf
  rw [find_map b' b _ h, find_map b' b _ h]

theorem between_map (b b' : Basin K) (h : b'.units.map (·.id) = b.units.map (·.id)) (l : LatDecl K) :
    Between b' l ↔ Between b l := by
  unfold Between
  rw [find_map b' b _ h, find_map b' b _ h]

theorem addConns_spec (ls : List (LatDecl K)) (b : Basin K) :
    b.addConns ls ≠ .undef ∧
    ((∃ b', b.addConns ls = .ok b') ↔ ∀ l ∈ ls, Between b l → 0 < l.fraction ∧ l.fraction ≤ 1) ∧
    ∀ b', b.addConns ls = .ok b' → b'.area = b.area ∧ b'.units.length = b.units.length ∧
      b'.units.map (·.id) = b.units.map (·.id) ∧
      ∀ (k : ℕ) (u : BUnit K), b.units[k]? = some u →
        b'.units[k]? = some { u with laterals := u.laterals ++ ls.filterMap (connOf b k) } := by
  induction ls generalizing b with
  | nil =>
    refine ⟨by simp [Basin.addConns], by simp [Basin.addConns], ?_⟩
    intro b' hb'
    simp only [Basin.addConns, Out.ok.injEq] at hb'; subst hb'
    exact ⟨rfl, rfl, rfl, fun k u hk => by simp [hk]⟩
  | cons l ls ih =>
    obtain ⟨c1, c2, c3⟩ := addConn_spec b l
    simp only [Basin.addConns]
    cases hc : b.addConn l with
    | undef => exact absurd hc c1
    | refused =>
      rw [hc] at c2
      refine ⟨by simp [Out.bind], ?_, by simp [Out.bind]⟩
      simp only [Out.bind, reduceCtorEq, exists_false, false_iff]
      intro hh
      have := c2.2 (hh l (by simp))
      simp at this
    | ok b1 =>
      rw [hc] at c2
      obtain ⟨d1, d2, d3, d4⟩ := c3 b1 hc
      obtain ⟨i1, i2, i3⟩ := ih b1
      have hl := c2.1 ⟨b1, rfl⟩
      refine ⟨i1, ?_, ?_⟩
      · simp only [Out.bind]
        rw [i2]
        constructor
        · intro h x hx hb
          rcases List.mem_cons.1 hx with rfl | hx
          · exact hl hb
          · exact h x hx ((between_map b b1 d3 x).2 hb)
        · intro h x hx hb
          exact h x (by simp [hx]) ((between_map b b1 d3 x).1 hb)
      · intro b' hb'
        obtain ⟨e1, e2, e3, e4⟩ := i3 b' hb'
        refine ⟨e1.trans d1, e2.trans d2, e3.trans d3, ?_⟩
        intro k u hk
        rw [e4 k _ (d4 k u hk), connOf_map b b1 d3 k]
        simp only [List.filterMap_cons]
        cases connOf b k l <;> simp

/-- **C61 (building).** The basin is built exactly when every connection between declared units has a fraction in ]0, 1];
connections naming an unknown unit are ignored; nothing is ever undefined. -/
theorem c61_built (d : Decl K) :
    build d ≠ .undef ∧
    ((∃ b, build d = .ok b) ↔
      ∀ l ∈ d.laterals, Spec.Known d l.giver → Spec.Known d l.receiver → 0 < l.fraction ∧ l.fraction ≤ 1) := by
  unfold build
  obtain ⟨h1, h2, _⟩ := addConns_spec d.laterals (d.units.foldl Basin.addUnit ⟨[], 0⟩)
  refine ⟨h1, ?_⟩
  rw [h2]
  have hk : ∀ id, ((d.units.foldl Basin.addUnit ⟨[], 0⟩).find id).isSome ↔ Spec.Known d id := by
    intro id
    rw [Option.isSome_iff_ne_none, ne_eq, find_none, foldl_addUnit]
    simp [Spec.Known]
  constructor
  · intro h l hl hg hr
    exact h l hl ⟨(hk _).2 hg, (hk _).2 hr⟩
  · intro h l hl hb
    exact h l hl ((hk _).1 hb.1) ((hk _).1 hb.2)

/-- **C61 (units and connections).** With distinct ids, the built basin has the declared units, in order, with their id,
area and properties; its area is the sum of theirs; and each unit has exactly the connections declared from it to a
declared unit, in order, each with its fraction and type, leading to the unit of the declared id. -/
theorem c61_units (d : Decl K) (hn : (d.units.map (·.id)).Nodup) (b : Basin K) (hb : build d = .ok b) :
    b.area = (d.units.map (·.area)).sum ∧ b.units.length = d.units.length ∧
    ∀ (k : ℕ) (u : UnitDecl K), d.units[k]? = some u → b.units[k]? = some ⟨u.id, u.area, properties u,
      d.laterals.filterMap fun l =>
        if l.giver = u.id then (d.units.findIdx? fun v => v.id == l.receiver).map fun r => ⟨r, l.fraction, l.type⟩
        else none⟩ := by
  unfold build at hb
  have hf := foldl_addUnit d.units (⟨[], 0⟩ : Basin K)
  rw [hf] at hb
  simp only [List.nil_append, zero_add] at hb
  set b0 : Basin K := ⟨d.units.map (fun u => ⟨u.id, u.area, properties u, []⟩), (d.units.map (·.area)).sum⟩ with hb0
  obtain ⟨_, _, h3⟩ := addConns_spec d.laterals b0
  obtain ⟨a1, a2, a3, a4⟩ := h3 b hb
  refine ⟨a1, by rw [a2]; simp [hb0], ?_⟩
  intro k u hk
  have hids : b0.units.map (·.id) = d.units.map (·.id) := by simp [hb0]
  have hn0 : (b0.units.map (·.id)).Nodup := by rw [hids]; exact hn
  have hk0 : b0.units[k]? = some ⟨u.id, u.area, properties u, []⟩ := by simp [hb0, hk]
  rw [a4 k _ hk0]
  simp only [List.nil_append, Option.some.injEq]
  congr 1
  apply List.filterMap_congr
  intro l _
  unfold connOf
  have h1 := find_nodup b0 hn0 l.giver k _ hk0
  simp only at h1
  by_cases e : l.giver = u.id
  · rw [if_pos (h1.2 e.symm), if_pos e]
    congr 1
    cases hr : d.units.findIdx? fun v => v.id == l.receiver with
    | none =>
      rw [find_none]
      rw [List.findIdx?_eq_none_iff] at hr
      intro v hv
      simp only [hb0, List.mem_map] at hv
      obtain ⟨w, hw, rfl⟩ := hv
      simpa using hr w hw
    | some r =>
      rw [List.findIdx?_eq_some_iff_getElem] at hr
      obtain ⟨hlt, he, _⟩ := hr
      exact (find_nodup b0 hn0 l.receiver r ⟨d.units[r].id, d.units[r].area, properties d.units[r], []⟩
        (by simp [hb0, hlt])).2 (by simpa using he)
  · rw [if_neg (fun h => e (h1.1 h).symm), if_neg e]

end

/-! ## Properties of a unit -/

/-- **C61 (properties).** A numeric property is read as the first numeric property declared under that name, converted
(C51); a name declared only as text gives "not a number"; an undeclared name is refused. -/
theorem c61_number (u : UnitDecl ℝ) (v : BUnit ℝ) (hv : v.props = properties u) (name unit : String) :
    v.getDouble name unit =
      match u.propsD.find? (fun p => p.name == name) with
      | some p => some (propValue p.unit p.value unit)
      | none => if u.propsS.any (fun p => p.name == name) then some none else none := by
  unfold BUnit.getDouble
  rw [hv, properties, List.find?_append, List.find?_map, List.find?_map]
  cases h : u.propsD.find? (fun p => p.name == name) with
  | some p =>
    have : List.find? ((fun p : Property ℝ => p.name == name) ∘ fun p : PropD ℝ => ⟨p.name, some p.value, p.unit, ""⟩) u.propsD
        = some p := h
    rw [this]; rfl
  | none =>
    have : List.find? ((fun p : Property ℝ => p.name == name) ∘ fun p : PropD ℝ => ⟨p.name, some p.value, p.unit, ""⟩) u.propsD
        = none := h
    rw [this]
    simp only [Option.map_none, Option.none_or]
    cases h2 : List.find? ((fun p : Property ℝ => p.name == name) ∘ fun p : PropS => ⟨p.name, none, "", p.value⟩) u.propsS with
    | none =>
      have : u.propsS.any (fun p => p.name == name) = false := by
        rw [List.find?_eq_none] at h2
        rw [List.any_eq_false]; exact h2
      simp [this]
    | some p =>
      have : u.propsS.any (fun p => p.name == name) = true :=
        List.any_eq_true.2 ⟨p, List.mem_of_find?_eq_some h2, by simpa using List.find?_some h2⟩
      simp [this]

/-- **C61 (properties).** A text property is read as declared, unless a numeric property of that name exists (the text is
then empty); an undeclared name is refused. -/
theorem c61_text (u : UnitDecl K) (v : BUnit K) (hv : v.props = properties u) (name : String) :
    v.getString name =
      if u.propsD.any (fun p => p.name == name) then some ""
      else (u.propsS.find? fun p => p.name == name).map (·.value) := by
  unfold BUnit.getString
  rw [hv, properties, List.find?_append, List.find?_map, List.find?_map]
  cases h : List.find? ((fun p : Property K => p.name == name) ∘ fun p : PropD K => ⟨p.name, some p.value, p.unit, ""⟩) u.propsD with
  | some p =>
    have : u.propsD.any (fun p => p.name == name) = true :=
      List.any_eq_true.2 ⟨p, List.mem_of_find?_eq_some h, by simpa using List.find?_some h⟩
    simp [this]
  | none =>
    have : u.propsD.any (fun p => p.name == name) = false := by
      rw [List.find?_eq_none] at h
      rw [List.any_eq_false]; exact h
    rw [if_neg (by simp [this])]
    simp only [Option.map_none, Option.none_or, Option.map_map]
    rfl

end HB.Basin
