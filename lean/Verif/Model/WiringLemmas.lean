import Verif.Spec.Wiring
import Mathlib.Data.List.Nodup
import Mathlib.Data.List.Perm.Basic
import Mathlib.Data.List.Perm.Subperm
import Mathlib.Data.List.Forall2

/-!
# Lemmas on building
-/

set_option linter.unusedSectionVars false

namespace HB.Wire

open HB.Names

section generic
variable {α β K : Type}

theorem bind_ok {ε : Type} {x : Except ε α} {f : α → Except ε β} {b : β} :
    (x >>= f) = .ok b ↔ ∃ a, x = .ok a ∧ f a = .ok b := by
  cases x <;> simp [bind, Except.bind]

theorem createAll_ok {f : α → Except Err β} {l : List α} {r : List β} :
    createAll f l = .ok r ↔ List.Forall₂ (fun a b => f a = .ok b) l r := by
  induction l generalizing r with
  | nil => cases r <;> simp [createAll]
  | cons a l ih =>
    simp only [createAll, bind_ok]
    constructor
    · rintro ⟨b, hb, r', hr, h⟩
      cases h
      exact .cons hb (ih.1 hr)
    · intro h
      cases h with
      | cons hb hr => exact ⟨_, hb, _, ih.2 hr, rfl⟩

theorem createAll_isOk {f : α → Except Err β} {l : List α} :
    (∃ r, createAll f l = .ok r) ↔ ∀ a ∈ l, ∃ b, f a = .ok b := by
  induction l with
  | nil => simp [createAll]
  | cons a l ih =>
    simp only [createAll, bind_ok, List.mem_cons, forall_eq_or_imp, ← ih]
    constructor
    · rintro ⟨_, b, hb, r', hr, h⟩
      exact ⟨⟨b, hb⟩, r', hr⟩
    · rintro ⟨⟨b, hb⟩, r', hr⟩
      exact ⟨_, b, hb, r', hr, rfl⟩

theorem createAll_get {f : α → Except Err β} {l : List α} {r : List β} (h : createAll f l = .ok r) {i : ℕ} {a : α}
    (hi : l[i]? = some a) : ∃ b, r[i]? = some b ∧ f a = .ok b := by
  have h2 := createAll_ok.1 h
  clear h
  induction h2 generalizing i with
  | nil => simp at hi
  | cons hab _ ih =>
    cases i with
    | zero => simp at hi; subst hi; exact ⟨_, rfl, hab⟩
    | succ i => exact ih (by simpa using hi)

theorem createAll_get' {f : α → Except Err β} {l : List α} {r : List β} (h : createAll f l = .ok r) {i : ℕ} {b : β}
    (hi : r[i]? = some b) : ∃ a, l[i]? = some a ∧ f a = .ok b := by
  have h2 := createAll_ok.1 h
  clear h
  induction h2 generalizing i with
  | nil => simp at hi
  | cons hab _ ih =>
    cases i with
    | zero => simp at hi; subst hi; exact ⟨_, rfl, hab⟩
    | succ i => exact ih (by simpa using hi)

theorem createAll_length {f : α → Except Err β} {l : List α} {r : List β} (h : createAll f l = .ok r) :
    r.length = l.length := (List.Forall₂.length_eq (createAll_ok.1 h)).symm

theorem concatM_isOk {f : α → Except Err (Net K)} {l : List α} :
    (∃ r, concatM f l = .ok r) ↔ ∀ a ∈ l, ∃ b, f a = .ok b := by
  induction l with
  | nil => simp [concatM]
  | cons a l ih =>
    simp only [concatM, bind_ok, List.mem_cons, forall_eq_or_imp, ← ih]
    constructor
    · rintro ⟨_, b, hb, r', hr, h⟩
      exact ⟨⟨b, hb⟩, r', hr⟩
    · rintro ⟨⟨b, hb⟩, r', hr⟩
      exact ⟨_, b, hb, r', hr, rfl⟩

theorem concatM_mem {f : α → Except Err (Net K)} {l : List α} {n : Net K} (h : concatM f l = .ok n) {x : Flux K} :
    x ∈ n.outs ↔ ∃ a ∈ l, ∃ m, f a = .ok m ∧ x ∈ m.outs := by
  induction l generalizing n with
  | nil => simp only [concatM] at h; cases h; simp [Net.empty]
  | cons a l ih =>
    simp only [concatM, bind_ok] at h
    obtain ⟨d, hd, r, hr, h⟩ := h
    cases h
    simp only [Net.append, List.mem_append, ih hr, List.mem_cons]
    constructor
    · rintro (h | ⟨a', ha, m, hm, hx⟩)
      · exact ⟨a, .inl rfl, d, hd, h⟩
      · exact ⟨a', .inr ha, m, hm, hx⟩
    · rintro ⟨a', (rfl | ha), m, hm, hx⟩
      · rw [hd] at hm; cases hm; exact .inl hx
      · exact .inr ⟨a', ha, m, hm, hx⟩

/-- The outputs selected by `P`, when only the `k`-th pass makes any. -/
theorem concatM_filter {f : α → Except Err (Net K)} {P : Flux K → Bool} {l : List α} {n : Net K} (h : concatM f l = .ok n)
    {k : ℕ} {a : α} (hk : l[k]? = some a)
    (hother : ∀ k' a', l[k']? = some a' → k' ≠ k → ∀ m, f a' = .ok m → ∀ x ∈ m.outs, P x = false) :
    ∃ m, f a = .ok m ∧ n.outs.filter P = m.outs.filter P := by
  induction l generalizing n k with
  | nil => simp at hk
  | cons b l ih =>
    simp only [concatM, bind_ok] at h
    obtain ⟨d, hd, r, hr, h⟩ := h
    cases h
    cases k with
    | zero =>
      simp at hk
      subst hk
      refine ⟨d, hd, ?_⟩
      have h0 : r.outs.filter P = [] := by
        rw [List.filter_eq_nil_iff]
        intro x hx
        obtain ⟨a', ha', m, hm, hxm⟩ := (concatM_mem hr).1 hx
        obtain ⟨k', hk'⟩ := List.getElem?_of_mem ha'
        have := hother (k' + 1) a' (by simpa using hk') (by omega) m hm x hxm
        simp [this]
      simp [Net.append, h0]
    | succ k =>
      obtain ⟨m, hm, he⟩ := ih hr (k := k) (by simpa using hk) (fun k' a' h1 h2 =>
        hother (k' + 1) a' (by simpa using h1) (by omega))
      refine ⟨m, hm, ?_⟩
      have h0 : d.outs.filter P = [] := by
        rw [List.filter_eq_nil_iff]
        intro x hx
        have := hother 0 b (by simp) (by omega) d hd x hx
        simp [this]
      simp [Net.append, h0, he]

/-- When every pass makes exactly one output, outputs and passes correspond in order. -/
theorem concatM_forall₂ {f : α → Except Err (Net K)} {R : Flux K → α → Prop} {l : List α} {n : Net K}
    (h : concatM f l = .ok n) (h1 : ∀ a ∈ l, ∀ m, f a = .ok m → ∃ x, m.outs = [x] ∧ R x a) :
    List.Forall₂ R n.outs l := by
  induction l generalizing n with
  | nil => simp only [concatM] at h; cases h; exact .nil
  | cons b l ih =>
    simp only [concatM, bind_ok] at h
    obtain ⟨d, hd, r, hr, h⟩ := h
    cases h
    obtain ⟨x, hx, hR⟩ := h1 b (by simp) d hd
    simp only [Net.append, hx, List.singleton_append]
    exact .cons hR (ih hr fun a ha => h1 a (by simp [ha]))

/-- Attached where it goes: the input lists and the outlet list agree with the outputs. -/
def Net.Agrees (n : Net K) : Prop :=
  n.ins = n.outs.filterMap (fun f => match f.dst with | .comp c => some (c, f) | _ => none) ∧
  n.outlet = n.outs.filter (fun f => match f.dst with | .outlet => true | _ => false)

theorem agrees_empty : (Net.empty : Net K).Agrees := ⟨rfl, rfl⟩

theorem Net.Agrees.append {a b : Net K} (ha : a.Agrees) (hb : b.Agrees) : (a.append b).Agrees := by
  constructor
  · simp [Net.append, ha.1, hb.1]
  · simp [Net.append, ha.2, hb.2]

theorem concatM_agrees {f : α → Except Err (Net K)} {l : List α} {n : Net K} (h : concatM f l = .ok n)
    (h1 : ∀ a ∈ l, ∀ m, f a = .ok m → m.Agrees) : n.Agrees := by
  induction l generalizing n with
  | nil => simp only [concatM] at h; cases h; exact agrees_empty
  | cons b l ih =>
    simp only [concatM, bind_ok] at h
    obtain ⟨d, hd, r, hr, h⟩ := h
    cases h
    exact (h1 b (by simp) d hd).append (ih hr fun a ha => h1 a (by simp [ha]))

end generic

/-! ### Name tables -/

theorem lookupLast_mem {n : String} {l : List (String × ℕ)} {i : ℕ} (h : lookupLast n l = some i) : (n, i) ∈ l := by
  induction l with
  | nil => simp [lookupLast] at h
  | cons e l ih =>
    simp only [lookupLast] at h
    split at h
    · rename_i j hj
      cases h
      exact List.mem_cons_of_mem _ (ih hj)
    · split at h
      · rename_i he
        cases h
        obtain ⟨e1, e2⟩ := e
        simp only at he
        subst he
        exact List.mem_cons_self
      · cases h

theorem lookupLast_none {n : String} {l : List (String × ℕ)} : lookupLast n l = none ↔ ∀ e ∈ l, e.1 ≠ n := by
  induction l with
  | nil => simp [lookupLast]
  | cons e l ih =>
    simp only [lookupLast, List.mem_cons, forall_eq_or_imp]
    cases h : lookupLast n l with
    | some i =>
      simp only [h] at ih
      have hne : ¬ ∀ e ∈ l, e.1 ≠ n := fun hh => by cases ih.2 hh
      simp only [reduceCtorEq, false_iff]
      exact fun hh => hne hh.2
    | none =>
      have hh := ih.1 h
      simp only [h]
      by_cases he : e.1 = n
      · simp [he]
      · simp only [if_neg he, true_iff]
        exact ⟨he, hh⟩

theorem lookupLast_eq {n : String} {l : List (String × ℕ)} (hl : (l.map (·.1)).Nodup) {i : ℕ} :
    lookupLast n l = some i ↔ (n, i) ∈ l := by
  refine ⟨lookupLast_mem, fun h => ?_⟩
  induction l with
  | nil => cases h
  | cons e l ih =>
    simp only [List.map_cons, List.nodup_cons] at hl
    simp only [lookupLast]
    rcases List.mem_cons.1 h with h | h
    · subst h
      have : lookupLast n l = none := lookupLast_none.2 fun e he hen => hl.1 (List.mem_map.2 ⟨e, he, hen⟩)
      simp [this]
    · simp [ih hl.2 h]

theorem lookupLast_zipIdx {n : String} {l : List String} (hl : l.Nodup) {i : ℕ} :
    lookupLast n l.zipIdx = some i ↔ l[i]? = some n := by
  rw [lookupLast_eq (by simpa using hl), List.mem_zipIdx_iff_getElem?]

theorem lookupLast_zipIdx_none {n : String} {l : List String} :
    lookupLast n l.zipIdx = none ↔ n ∉ l := by
  rw [lookupLast_none]
  constructor
  · intro h hn
    obtain ⟨i, hi⟩ := List.getElem?_of_mem hn
    exact h (n, i) (List.mem_zipIdx_iff_getElem?.2 hi) rfl
  · rintro h ⟨a, i⟩ he rfl
    exact h (List.mem_of_getElem? (List.mem_zipIdx_iff_getElem?.1 he))

theorem lookup_eq {β : Type} {l : List (ℕ × β)} (hl : (l.map (·.1)).Nodup) {i : ℕ} {b : β} :
    l.lookup i = some b ↔ (i, b) ∈ l := by
  induction l with
  | nil => simp
  | cons e l ih =>
    obtain ⟨e1, e2⟩ := e
    simp only [List.map_cons, List.nodup_cons] at hl
    rw [List.lookup_cons]
    by_cases h : i = e1
    · subst h
      simp only [beq_self_eq_true, ↓reduceIte, Option.some.injEq, List.mem_cons, Prod.mk.injEq, true_and]
      constructor
      · rintro rfl; exact .inl rfl
      · rintro (h | h)
        · exact h.symm
        · exact absurd (List.mem_map.2 ⟨_, h, rfl⟩) hl.1
    · have : (i == e1) = false := by simpa using h
      simp only [this, Bool.false_eq_true, ↓reduceIte, ih hl.2, List.mem_cons, Prod.mk.injEq, h, false_and, false_or]

/-! ### Creation -/

theorem mem_creationOrder {s : Struct} (hs : Spec.Indexed s) {i : ℕ} : i ∈ creationOrder s ↔ i < s.unitBricks.length := by
  simp only [creationOrder, List.mem_append, List.mem_filter, List.mem_range]
  constructor
  · rintro ((h | h) | h)
    · exact hs.2 i (by simp [h])
    · exact hs.2 i (by simp [h])
    · exact h.1
  · intro h
    by_cases h1 : i ∈ s.surfaces
    · exact .inl (.inl h1)
    · by_cases h2 : i ∈ s.covers
      · exact .inl (.inr h2)
      · exact .inr ⟨h, by simp [h1, h2]⟩

theorem nodup_creationOrder {s : Struct} (hs : Spec.Indexed s) : (creationOrder s).Nodup := by
  rw [creationOrder, List.nodup_append']
  refine ⟨hs.1, List.nodup_range.filter _, ?_⟩
  intro i h1 h2
  rw [List.mem_filter] at h2
  rcases List.mem_append.1 h1 with h | h <;> simp [h] at h2

variable {K : Type} [Field K]

theorem createBrick_name {b : Brick} {bb : BuiltBrick} (h : createBrick b = .ok bb) : bb.name = b.name := by
  simp only [createBrick, bind_ok] at h
  obtain ⟨_, _, _, _, h⟩ := h
  cases h
  rfl

/-- What the built unit contains. -/
structure UnitOK (un : UnitIn K) (bu : BuiltUnit) : Prop where
  find : ∀ {n i}, bu.find n = some i ↔ ∃ b, un.str.unitBricks[i]? = some b ∧ b.name = n
  find_none : ∀ {n}, bu.find n = none ↔ ∀ b ∈ un.str.unitBricks, b.name ≠ n
  get : ∀ {i b}, un.str.unitBricks[i]? = some b → ∃ bb, bu.get i = some bb ∧ createBrick b = .ok bb
  split : ∀ {n i}, bu.findSplit n = some i ↔ ∃ s, un.str.unitSplits[i]? = some s ∧ s.name = n
  split_none : ∀ {n}, bu.findSplit n = none ↔ ∀ s ∈ un.str.unitSplits, s.name ≠ n
  mem : ∀ {i bb}, (i, bb) ∈ bu.bricks ↔ ∃ b, un.str.unitBricks[i]? = some b ∧ createBrick b = .ok bb
  nodup : (bu.bricks.map (·.1)).Nodup

theorem createSplits {l : List Split} {r : List String} (h : createAll createSplit l = .ok r) : r = l.map (·.name) := by
  have h2 := createAll_ok.1 h
  clear h
  induction h2 with
  | nil => rfl
  | cons hab _ ih =>
    simp only [createSplit, bind_ok] at hab
    obtain ⟨_, _, hab⟩ := hab
    cases hab
    simp [ih]

theorem createUnit_ok {un : UnitIn K} {bu : BuiltUnit} (hd : Spec.DistinctUnit un.str) (h : createUnit un = .ok bu) :
    UnitOK un bu := by
  obtain ⟨hi, hb, hsp⟩ := hd
  simp only [createUnit, bind_ok] at h
  obtain ⟨bs, hbs, ss, hss, w, hw, h⟩ := h
  cases h
  clear hw
  have hss := createSplits hss
  subst hss
  have hF := createAll_ok.1 hbs
  have hmem : ∀ {i bb}, (i, bb) ∈ bs ↔ ∃ b, un.str.unitBricks[i]? = some b ∧ createBrick b = .ok bb := by
    intro i bb
    constructor
    · intro h
      obtain ⟨k, hk⟩ := List.getElem?_of_mem h
      obtain ⟨i', _, h1⟩ := createAll_get' hbs hk
      split at h1
      · cases h1
      · rename_i b hb'
        simp only [bind_ok] at h1
        obtain ⟨r, hr, h1⟩ := h1
        cases h1
        exact ⟨b, hb', hr⟩
    · rintro ⟨b, hb', hc⟩
      have hin : i ∈ creationOrder un.str := (mem_creationOrder hi).2 (List.getElem?_eq_some_iff.1 hb').1
      obtain ⟨k, hk⟩ := List.getElem?_of_mem hin
      obtain ⟨r, hr, h1⟩ := createAll_get hbs hk
      simp only [hb', bind_ok, hc] at h1
      obtain ⟨_, h2, h3⟩ := h1
      cases h2
      cases h3
      exact List.mem_of_getElem? hr
  have hfst : bs.map (·.1) = creationOrder un.str := by
    clear hmem hbs
    generalize creationOrder un.str = co at hF
    induction hF with
    | nil => rfl
    | cons hab _ ih =>
      split at hab
      · cases hab
      · simp only [bind_ok] at hab
        obtain ⟨_, _, hab⟩ := hab
        cases hab
        simp [ih]
  have hnd : (bs.map (·.1)).Nodup := by rw [hfst]; exact nodup_creationOrder hi
  have hnames : ((bs.map fun e => (e.2.name, e.1)).map (·.1)).Nodup := by
    rw [List.map_map, List.nodup_map_iff_inj_on (List.Nodup.of_map _ hnd)]
    rintro ⟨i, bi⟩ h1 ⟨j, bj⟩ h2 he
    obtain ⟨b1, hb1, hc1⟩ := hmem.1 h1
    obtain ⟨b2, hb2, hc2⟩ := hmem.1 h2
    simp only [Function.comp, createBrick_name hc1, createBrick_name hc2] at he
    have : i = j := by
      obtain ⟨l1, e1⟩ := List.getElem?_eq_some_iff.1 hb1
      obtain ⟨l2, e2⟩ := List.getElem?_eq_some_iff.1 hb2
      refine (hb.getElem_inj_iff (hi := by simpa using l1) (hj := by simpa using l2)).1 ?_
      simp [e1, e2, he]
    subst this
    rw [hb1] at hb2
    cases hb2
    rw [hc1] at hc2
    cases hc2
    rfl
  have hget : ∀ {i b}, un.str.unitBricks[i]? = some b → ∃ bb, (i, bb) ∈ bs ∧ createBrick b = .ok bb := by
    intro i b hb'
    have hin : i ∈ creationOrder un.str := (mem_creationOrder hi).2 (List.getElem?_eq_some_iff.1 hb').1
    rw [← hfst] at hin
    obtain ⟨⟨i', bb⟩, hm, rfl⟩ := List.mem_map.1 hin
    obtain ⟨b', h1, h2⟩ := hmem.1 hm
    simp only at hb'
    rw [hb'] at h1
    cases h1
    exact ⟨bb, hm, h2⟩
  refine ⟨?_, ?_, ?_, ?_, ?_, hmem, hnd⟩
  · intro n i
    rw [BuiltUnit.find, lookupLast_eq hnames]
    constructor
    · intro h
      obtain ⟨⟨j, bb⟩, hm, he⟩ := List.mem_map.1 h
      cases he
      obtain ⟨b, h1, h2⟩ := hmem.1 hm
      exact ⟨b, h1, (createBrick_name h2).symm⟩
    · rintro ⟨b, h1, h2⟩
      obtain ⟨bb, hm, hc⟩ := hget h1
      exact List.mem_map.2 ⟨_, hm, by simp [createBrick_name hc, h2]⟩
  · intro n
    rw [BuiltUnit.find, lookupLast_none]
    constructor
    · intro h b hbm hn
      obtain ⟨i, hi'⟩ := List.getElem?_of_mem hbm
      obtain ⟨bb, hm, hc⟩ := hget hi'
      exact h _ (List.mem_map.2 ⟨_, hm, rfl⟩) (by simp [createBrick_name hc, hn])
    · rintro h e he hn
      obtain ⟨⟨j, bb⟩, hm, rfl⟩ := List.mem_map.1 he
      obtain ⟨b, h1, h2⟩ := hmem.1 hm
      exact h b (List.mem_of_getElem? h1) (by rw [← createBrick_name h2]; exact hn)
  · intro i b hb'
    obtain ⟨bb, hm, hc⟩ := hget hb'
    exact ⟨bb, (lookup_eq hnd).2 hm, hc⟩
  · intro n i
    rw [BuiltUnit.findSplit, lookupLast_zipIdx hsp]
    simp
  · intro n
    rw [BuiltUnit.findSplit, lookupLast_zipIdx_none]
    simp

/-- What the created components contain. -/
structure BuiltOK (inp : Input K) (bt : Built K) : Prop where
  find : ∀ {n : String} {i : ℕ}, bt.find n = some i ↔ ∃ b, inp.basin.basinBricks[i]? = some b ∧ b.name = n
  find_none : ∀ {n}, bt.find n = none ↔ ∀ b ∈ inp.basin.basinBricks, b.name ≠ n
  get : ∀ {i : ℕ} {b : Brick}, inp.basin.basinBricks[i]? = some b → ∃ bb, (bt.basinBricks : List BuiltBrick)[i]? = some bb ∧ createBrick b = .ok bb
  split : ∀ {n i}, bt.findSplit n = some i ↔ ∃ s, inp.basin.basinSplits[i]? = some s ∧ s.name = n
  split_none : ∀ {n}, bt.findSplit n = none ↔ ∀ s ∈ inp.basin.basinSplits, s.name ≠ n
  unit : ∀ {u : ℕ} {un : UnitIn K}, inp.units[u]? = some un → ∃ bu, bt.units[u]? = some bu ∧ UnitOK un bu
  area : bt.basinArea = (inp.units.map (·.area)).sum
  len : bt.units.length = inp.units.length

theorem create_ok {inp : Input K} {bt : Built K} (hd : Spec.Distinct inp) (h : create inp = .ok bt) : BuiltOK inp bt := by
  obtain ⟨hu, hb, hs⟩ := hd
  simp only [create, bind_ok] at h
  obtain ⟨bb, hbb, bs, hbs, us, hus, h⟩ := h
  cases h
  have hbs := createSplits hbs
  subst hbs
  have hn : bb.map (·.name) = inp.basin.basinBricks.map (·.name) := by
    have hF := createAll_ok.1 hbb
    clear hbb hb
    generalize inp.basin.basinBricks = l at hF
    induction hF with
    | nil => rfl
    | cons hab _ ih => simp [ih, createBrick_name hab]
  refine ⟨?_, ?_, ?_, ?_, ?_, ?_, rfl, createAll_length hus⟩
  · intro n i
    simp only [Built.find, hn]
    rw [lookupLast_zipIdx hb]
    simp
  · intro n
    simp only [Built.find, hn]
    rw [lookupLast_zipIdx_none]
    simp
  · intro i b hi
    obtain ⟨r, hr, hc⟩ := createAll_get hbb hi
    exact ⟨r, hr, hc⟩
  · intro n i
    simp only [Built.findSplit]
    rw [lookupLast_zipIdx hs]
    simp
  · intro n
    simp only [Built.findSplit]
    rw [lookupLast_zipIdx_none]
    simp
  · intro u un hun
    obtain ⟨bu, hbu, hc⟩ := createAll_get hus hun
    exact ⟨bu, hbu, createUnit_ok (hu un (List.mem_of_getElem? hun)) hc⟩

end HB.Wire
