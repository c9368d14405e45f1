import Verif.Model.Actions
import Verif.Props.Calendar
import Mathlib.Data.List.Sort
import Mathlib.Data.List.GetD
import Mathlib.Data.List.InsertIdx
import Mathlib.Data.List.Perm.Basic

/-! # C35, C36: scheduled and recurring actions -/

set_option linter.unusedSectionVars false

namespace HB

section
variable {K : Type} [LinearOrder K]

/-! ## Registration keeps the schedule sorted -/

theorem insertIdx_eq {α : Type} (l : List α) (i : ℕ) (x : α) (h : i ≤ l.length) :
    l.insertIdx i x = l.take i ++ x :: l.drop i := by
  induction l generalizing i with
  | nil => cases i with
    | zero => rfl
    | succ n => simp at h
  | cons y l ih => cases i with
    | zero => rfl
    | succ n => simp [ih n (by simpa using h)]

theorem takeWhile_len_le {α : Type} (p : α → Bool) (l : List α) : (l.takeWhile p).length ≤ l.length := by
  induction l with
  | nil => simp
  | cons x l ih => simp only [List.takeWhile_cons]; split <;> simp [ih]

theorem pairwise_insert {α : Type} (f : α → K) (l : List α) (hs : l.Pairwise fun a b => f a ≤ f b) (i : ℕ) (x : α)
    (hi : i ≤ l.length) (h1 : ∀ e ∈ l.take i, f e ≤ f x) (h2 : ∀ e ∈ l.drop i, f x ≤ f e) :
    (l.insertIdx i x).Pairwise fun a b => f a ≤ f b := by
  rw [insertIdx_eq l i x hi, List.pairwise_append]
  rw [← List.take_append_drop i l, List.pairwise_append] at hs
  refine ⟨hs.1, List.pairwise_cons.2 ⟨h2, hs.2.1⟩, ?_⟩
  intro a ha b hb
  rcases List.mem_cons.1 hb with rfl | hb
  · exact h1 a ha
  · exact hs.2.2 a ha b hb

/-- After the elements before `x` are skipped, the next ones are not before `x`. -/
theorem drop_takeWhile_ge {α : Type} (f : α → K) (x : K) (l : List α) (hs : l.Pairwise fun a b => f a ≤ f b) :
    ∀ e ∈ l.drop (l.takeWhile fun e => !decide (x ≤ f e)).length, x ≤ f e := by
  induction l with
  | nil => simp
  | cons y l ih =>
    have hp := List.pairwise_cons.1 hs
    intro e he
    by_cases hxy : x ≤ f y
    · simp only [List.takeWhile_cons, hxy, decide_true, Bool.not_true, Bool.false_eq_true, if_false,
        List.length_nil, List.drop_zero] at he
      rcases List.mem_cons.1 he with rfl | he
      · exact hxy
      · exact hxy.trans (hp.1 e he)
    · simp only [List.takeWhile_cons, hxy, decide_false, Bool.not_false, if_true, List.length_cons,
        List.drop_succ_cons] at he
      exact ih hp.2 e he

theorem take_takeWhile_lt {α : Type} (f : α → K) (x : K) (l : List α) :
    ∀ e ∈ l.take (l.takeWhile fun e => !decide (x ≤ f e)).length, f e < x := by
  induction l with
  | nil => simp
  | cons y l ih =>
    intro e he
    by_cases hxy : x ≤ f y
    · simp [List.takeWhile_cons, hxy] at he
    · simp only [List.takeWhile_cons, hxy, decide_false, Bool.not_false, if_true, List.length_cons,
        List.take_succ_cons] at he
      rcases List.mem_cons.1 he with rfl | he
      · exact not_le.1 hxy
      · exact ih e he

/-- One more date: no read outside, the schedule stays sorted, exactly that item is added. -/
theorem insertDate_ok (a : ℕ) (l : List (K × ℕ)) (i : ℕ) (d : K) (hs : l.Pairwise fun a b => a.1 ≤ b.1)
    (hi : i = 0 ∨ i < l.length) : ∃ l' i', insertDate a (l, i) d = some (l', i') ∧
      l'.Pairwise (fun a b => a.1 ≤ b.1) ∧ i' < l'.length ∧ l'.Perm ((d, a) :: l) := by
  -- the position from which the search starts
  obtain ⟨k, hk, hkl, hbefore⟩ : ∃ k, startIndex l i d = some k ∧ k ≤ l.length ∧ ∀ e ∈ l.take k, e.1 ≤ d := by
    unfold startIndex
    by_cases hl : l.isEmpty = true
    · have : l = [] := List.isEmpty_iff.1 hl
      subst this
      have : i = 0 := by rcases hi with h | h <;> [exact h; simp at h]
      exact ⟨0, by simp [this], by simp, by simp⟩
    · rw [if_neg hl]
      have hne : l ≠ [] := fun e => hl (by simp [e])
      have hi' : i < l.length := by
        rcases hi with h | h
        · rw [h]; exact List.length_pos_iff.2 hne
        · exact h
      rw [List.getElem?_eq_getElem hi']
      by_cases hgt : l[i].1 > d
      · exact ⟨0, by simp [hgt], by simp, by simp⟩
      · refine ⟨i, by simp [hgt], hi'.le, ?_⟩
        intro e he
        obtain ⟨j, hj, rfl⟩ := List.mem_take_iff_getElem.1 he
        have hj' : j < i := by omega
        exact (List.pairwise_iff_getElem.1 hs j i (by omega) hi' hj').trans (not_lt.1 hgt)
  set n := ((l.drop k).takeWhile fun e => !decide (d ≤ e.1)).length with hn
  have hnl : n ≤ (l.drop k).length := takeWhile_len_le _ _
  have hkn : k + n ≤ l.length := by rw [List.length_drop] at hnl; omega
  refine ⟨l.insertIdx (k + n) (d, a), k + n, ?_, ?_, ?_, ?_⟩
  · unfold insertDate
    dsimp only
    rw [hk]; rfl
  · apply pairwise_insert Prod.fst l hs _ _ hkn
    · intro e he
      rw [List.take_add, List.mem_append] at he
      rcases he with he | he
      · exact hbefore e he
      · exact (take_takeWhile_lt Prod.fst d (l.drop k) e he).le
    · intro e he
      rw [← List.drop_drop] at he
      exact drop_takeWhile_ge Prod.fst d (l.drop k) (hs.sublist (List.drop_sublist _ _)) e he
  · rw [List.length_insertIdx_of_le_length hkn]; omega
  · exact List.perm_insertIdx _ _ hkn

theorem insertDates_ok (a : ℕ) (ds : List K) : ∀ (l : List (K × ℕ)) (i : ℕ),
    l.Pairwise (fun a b => a.1 ≤ b.1) → (i = 0 ∨ i < l.length) → ∃ l' i', insertDates a ds (l, i) = some (l', i') ∧
      l'.Pairwise (fun a b => a.1 ≤ b.1) ∧ l'.Perm (ds.map (fun d => (d, a)) ++ l) := by
  induction ds with
  | nil => intro l i hs hi; exact ⟨l, i, rfl, hs, by simp⟩
  | cons d ds ih =>
    intro l i hs hi
    obtain ⟨l1, i1, e1, s1, b1, p1⟩ := insertDate_ok a l i d hs hi
    obtain ⟨l2, i2, e2, s2, p2⟩ := ih l1 i1 s1 (Or.inr b1)
    refine ⟨l2, i2, ?_, s2, ?_⟩
    · unfold insertDates; rw [e1]; exact e2
    · refine p2.trans ?_
      refine ((List.Perm.refl _).append p1).trans ?_
      simp only [List.map_cons, List.cons_append]
      exact List.perm_middle

/-- The schedule built by registering actions numbered from `c` on. -/
def Spec.allItems (c : ℕ) : List (List K) → List (K × ℕ)
  | [] => []
  | ds :: l => ds.map (fun d => (d, c)) ++ Spec.allItems (c + 1) l

theorem addActions_ok (acts : List (List K)) : ∀ (m : ActMgr K), m.items.Pairwise (fun a b => a.1 ≤ b.1) →
    ∃ m', m.addActions acts = some m' ∧ m'.items.Pairwise (fun a b => a.1 ≤ b.1) ∧
      m'.items.Perm (Spec.allItems m.count acts ++ m.items) ∧ m'.cursor = m.cursor ∧ m'.acur = m.acur ∧
      m'.log = m.log := by
  induction acts with
  | nil => intro m hs; exact ⟨m, rfl, hs, by simp [Spec.allItems], rfl, rfl, rfl⟩
  | cons ds l ih =>
    intro m hs
    obtain ⟨l1, i1, e1, s1, p1⟩ := insertDates_ok m.count ds m.items 0 hs (Or.inl rfl)
    obtain ⟨m2, e2, s2, p2, r⟩ := ih { m with items := l1, count := m.count + 1 } s1
    refine ⟨m2, ?_, s2, ?_, r⟩
    · unfold ActMgr.addActions ActMgr.addAction
      rw [e1]; exact e2
    · refine p2.trans ?_
      refine ((List.Perm.refl _).append p1).trans ?_
      simp only [Spec.allItems]
      rw [← List.append_assoc]
      exact List.perm_append_comm.append_right _

theorem allItems_filter (acts : List (List K)) : ∀ (c a : ℕ),
    ((Spec.allItems c acts).filter (fun e => decide (e.2 = a))).map Prod.fst =
      if a < c then [] else acts.getD (a - c) [] := by
  induction acts with
  | nil => intro c a; simp [Spec.allItems]
  | cons ds l ih =>
    intro c a
    simp only [Spec.allItems, List.filter_append, List.map_append, ih]
    have hmap : ((ds.map fun d => (d, c)).filter fun e => decide (e.2 = a)).map Prod.fst = if a = c then ds else [] := by
      by_cases h : a = c
      · subst h; rw [if_pos rfl, List.filter_eq_self.2 (by simp), List.map_map]; exact List.map_id ds
      · rw [if_neg h, List.filter_eq_nil_iff.2 (by simp; intros; exact fun e => h e.symm)]; rfl
    rw [hmap]
    rcases lt_trichotomy a c with h | h | h
    · rw [if_neg (by omega), if_pos (by omega), if_pos h]; rfl
    · subst h; simp
    · rw [if_neg (by omega), if_neg (by omega), if_neg (by omega)]
      obtain ⟨k, rfl⟩ : ∃ k, a = c + 1 + k := ⟨a - c - 1, by omega⟩
      rw [show c + 1 + k - (c + 1) = k by omega, show c + 1 + k - c = k + 1 by omega]
      rfl

/-! ## The log -/

/-- Applications of the items of a schedule, each at the first clock date that reaches it. -/
def logAll (clock : List K) : (ℕ → ℕ) → List (K × ℕ) → List (ActEntry K)
  | _, [] => []
  | cur, (d, a) :: R => match clock.find? (fun t => decide (d ≤ t)) with
    | some t => ⟨t, a, cur a⟩ :: logAll clock (Function.update cur a (cur a + 1)) R
    | none => []

theorem logAll_skip (t : K) (ts : List K) : ∀ (R : List (K × ℕ)) (cur : ℕ → ℕ), (∀ e ∈ R, t < e.1) →
    logAll (t :: ts) cur R = logAll ts cur R := by
  intro R
  induction R with
  | nil => intros; rfl
  | cons e R ih =>
    intro cur h
    obtain ⟨d, a⟩ := e
    have : ¬ d ≤ t := not_le.2 (h (d, a) (by simp))
    simp only [logAll, List.find?_cons, this, decide_false]
    rw [ih _ (fun e he => h e (by simp [he]))]

theorem applyDue_spec (t : K) (ts : List K) : ∀ (R : List (K × ℕ)) (m : ActMgr K),
    R.Pairwise (fun a b => a.1 ≤ b.1) → m.items.drop m.cursor = R →
    let m' := ActMgr.applyDue t R m
    m'.items = m.items ∧ m'.log ++ logAll ts m'.acur (m'.items.drop m'.cursor) = m.log ++ logAll (t :: ts) m.acur R := by
  intro R
  induction R with
  | nil => intro m _ hR; simp [ActMgr.applyDue, hR, logAll]
  | cons e R ih =>
    intro m hs hR
    obtain ⟨d, a⟩ := e
    have hp := List.pairwise_cons.1 hs
    dsimp only
    by_cases hd : d ≤ t
    · simp only [ActMgr.applyDue, hd, if_true]
      have hdrop : m.items.drop (m.cursor + 1) = R := by
        rw [← List.drop_drop, hR]; rfl
      have := ih { m with cursor := m.cursor + 1, acur := Function.update m.acur a (m.acur a + 1), log := m.log ++ [⟨t, a, m.acur a⟩] }
        hp.2 hdrop
      refine ⟨this.1, this.2.trans ?_⟩
      simp [logAll, List.find?_cons, hd]
    · simp only [ActMgr.applyDue, hd, if_false]
      refine ⟨trivial, ?_⟩
      rw [hR, logAll_skip]
      intro e he
      rcases List.mem_cons.1 he with rfl | he
      · exact not_le.1 hd
      · exact (not_le.1 hd).trans_le (hp.1 e he)

theorem updates_log (clock : List K) : ∀ (m : ActMgr K), (m.items.Pairwise fun a b => a.1 ≤ b.1) →
    (m.updates clock).log = m.log ++ logAll clock m.acur (m.items.drop m.cursor) := by
  induction clock with
  | nil =>
    intro m hs
    have : ∀ (cur : ℕ → ℕ) (R : List (K × ℕ)), logAll ([] : List K) cur R = [] := by
      intro cur R; cases R <;> rfl
    simp [ActMgr.updates, this]
  | cons t ts ih =>
    intro m hs
    have h := applyDue_spec t ts (m.items.drop m.cursor) m (hs.sublist (List.drop_sublist _ _)) rfl
    dsimp only at h
    have := ih (m.dateUpdate t) (by unfold ActMgr.dateUpdate; rw [h.1]; exact hs)
    show ((m.dateUpdate t).updates ts).log = _
    rw [this]
    exact h.2

theorem find_mono {clock : List K} {d d' : K} (h : d ≤ d') (hn : clock.find? (fun t => decide (d ≤ t)) = none) :
    clock.find? (fun t => decide (d' ≤ t)) = none := by
  rw [List.find?_eq_none] at hn ⊢
  intro t ht
  have := hn t ht
  simp only [decide_eq_true_eq, not_le] at this ⊢
  exact this.trans_le h

/-- Items of one action. -/
theorem logAll_filter (clock : List K) (a j : ℕ) : ∀ (R : List (K × ℕ)) (cur : ℕ → ℕ),
    R.Pairwise (fun a b => a.1 ≤ b.1) → cur a ≤ j →
    (logAll clock cur R).filter (fun e => decide (e.action = a ∧ e.item = j)) =
      match ((R.filter fun e => decide (e.2 = a)).map Prod.fst)[j - cur a]? with
      | none => []
      | some d => match clock.find? (fun t => decide (d ≤ t)) with
        | none => []
        | some t => [⟨t, a, j⟩] := by
  intro R
  have later : ∀ (R : List (K × ℕ)) (cur : ℕ → ℕ), j < cur a →
      (logAll clock cur R).filter (fun e => decide (e.action = a ∧ e.item = j)) = [] := by
    intro R
    induction R with
    | nil => intros; rfl
    | cons e R ih =>
      intro cur h
      obtain ⟨d, b⟩ := e
      simp only [logAll]
      split
      · rw [List.filter_cons, if_neg, ih]
        · by_cases hb : a = b
          · subst hb; simp; omega
          · rw [Function.update_of_ne hb]; exact h
        · simp only [decide_eq_true_eq, not_and]
          rintro rfl; omega
      · rfl
  induction R with
  | nil => intro cur _ _; simp [logAll]
  | cons e R ih =>
    intro cur hs hj
    obtain ⟨d, b⟩ := e
    have hp := List.pairwise_cons.1 hs
    simp only [logAll]
    cases hf : clock.find? (fun t => decide (d ≤ t)) with
    | none =>
      simp only [List.filter_nil]
      -- every later date is unreached too
      split
      · rfl
      · rename_i d' hd'
        have hmem : d' ∈ ((((d, b) :: R).filter fun e => decide (e.2 = a)).map Prod.fst) :=
          List.mem_of_getElem? hd'
        obtain ⟨e, he, rfl⟩ := List.mem_map.1 hmem
        have he' := (List.mem_filter.1 he).1
        have : d ≤ e.1 := by
          rcases List.mem_cons.1 he' with rfl | he'
          · exact le_rfl
          · exact hp.1 e he'
        rw [find_mono this hf]
    | some t =>
      simp only [List.filter_cons]
      by_cases hb : b = a
      · subst hb
        by_cases hjc : cur b = j
        · subst hjc
          rw [if_pos (by simp), later R _ (by simp)]
          simp [hf]
        · rw [if_neg (by simp [hjc]), ih _ hp.2 (by rw [Function.update_self]; omega)]
          rw [Function.update_self, if_pos (by simp), List.map_cons]
          obtain ⟨k, hk⟩ : ∃ k, j - cur b = k + 1 := ⟨j - cur b - 1, by omega⟩
          rw [hk, show j - (cur b + 1) = k by omega, List.getElem?_cons_succ]
      · have hba : a ≠ b := fun e => hb e.symm
        rw [if_neg (by simp [hb]), ih _ hp.2 (by rw [Function.update_of_ne hba]; exact hj),
          Function.update_of_ne hba, if_neg (by simp [hb])]

theorem logAll_mem (clock : List K) : ∀ (R : List (K × ℕ)) (cur : ℕ → ℕ), ∀ e ∈ logAll clock cur R,
    cur e.action ≤ e.item ∧ ∃ d, ((R.filter fun x => decide (x.2 = e.action)).map Prod.fst)[e.item - cur e.action]? = some d
      ∧ clock.find? (fun t => decide (d ≤ t)) = some e.time := by
  intro R
  induction R with
  | nil => intro cur e he; simp [logAll] at he
  | cons x R ih =>
    intro cur e he
    obtain ⟨d, b⟩ := x
    simp only [logAll] at he
    split at he
    · rename_i t ht
      rcases List.mem_cons.1 he with rfl | he
      · exact ⟨le_rfl, d, by simp, ht⟩
      · obtain ⟨h1, d', h2, h3⟩ := ih _ e he
        by_cases hb : b = e.action
        · subst hb
          rw [Function.update_self] at h1 h2
          refine ⟨by omega, d', ?_, h3⟩
          rw [List.filter_cons, if_pos (by simp), List.map_cons,
            show e.item - cur e.action = (e.item - (cur e.action + 1)) + 1 by omega, List.getElem?_cons_succ]
          exact h2
        · have hb' : e.action ≠ b := fun h => hb h.symm
          rw [Function.update_of_ne hb'] at h1 h2
          refine ⟨h1, d', ?_, h3⟩
          rw [List.filter_cons, if_neg (by simp [hb])]; exact h2
    · simp at he

/-- Order of the applications, in terms of the schedule. -/
theorem logAll_order (clock : List K) : ∀ (R : List (K × ℕ)) (cur : ℕ → ℕ), R.Pairwise (fun a b => a.1 ≤ b.1) →
    (logAll clock cur R).Pairwise fun e e' => ∀ d d',
      ((R.filter fun x => decide (x.2 = e.action)).map Prod.fst)[e.item - cur e.action]? = some d →
      ((R.filter fun x => decide (x.2 = e'.action)).map Prod.fst)[e'.item - cur e'.action]? = some d' → d ≤ d' := by
  intro R
  induction R with
  | nil => intros; exact List.Pairwise.nil
  | cons x R ih =>
    intro cur hs
    obtain ⟨d, b⟩ := x
    have hp := List.pairwise_cons.1 hs
    simp only [logAll]
    split
    · refine List.pairwise_cons.2 ⟨?_, ?_⟩
      · intro e' he' d1 d2 h1 h2
        simp at h1
        subst h1
        have hmem := List.mem_of_getElem? h2
        obtain ⟨y, hy, rfl⟩ := List.mem_map.1 hmem
        rcases List.mem_cons.1 (List.mem_filter.1 hy).1 with rfl | hy'
        · exact le_rfl
        · exact hp.1 y hy'
      · have step : ∀ e ∈ logAll clock (Function.update cur b (cur b + 1)) R, ∀ d1,
            ((((d, b) :: R).filter fun x => decide (x.2 = e.action)).map Prod.fst)[e.item - cur e.action]? = some d1 →
            ((R.filter fun x => decide (x.2 = e.action)).map Prod.fst)[e.item - Function.update cur b (cur b + 1) e.action]? = some d1 := by
          intro e he d1 h
          have h1 := (logAll_mem clock R _ e he).1
          by_cases hb : b = e.action
          · subst hb
            rw [Function.update_self] at h1 ⊢
            rw [List.filter_cons, if_pos (by simp), List.map_cons,
              show e.item - cur e.action = (e.item - (cur e.action + 1)) + 1 by omega, List.getElem?_cons_succ] at h
            exact h
          · have hb' : e.action ≠ b := fun h => hb h.symm
            rw [Function.update_of_ne hb']
            rw [List.filter_cons, if_neg (by simp [hb])] at h; exact h
        have := (ih (Function.update cur b (cur b + 1)) hp.2)
        rw [List.pairwise_iff_getElem] at this ⊢
        intro i k hi hk hik d1 d2 h1 h2
        exact this i k hi hk hik d1 d2 (step _ (List.getElem_mem hi) d1 h1) (step _ (List.getElem_mem hk) d2 h2)
    · exact List.Pairwise.nil

/-! ## C35 -/

/-- Date of an item of an action. -/
def Spec.due (acts : List (List K)) (a j : ℕ) : Option K := (acts.getD a [])[j]?

theorem items_of_action {acts : List (List K)} (hsort : ∀ ds ∈ acts, ds.Pairwise (· ≤ ·)) {m : ActMgr K}
    (hs : m.items.Pairwise fun a b => a.1 ≤ b.1) (hp : m.items.Perm (Spec.allItems 0 acts)) (a : ℕ) :
    (m.items.filter fun e => decide (e.2 = a)).map Prod.fst = acts.getD a [] := by
  have h1 : ((m.items.filter fun e => decide (e.2 = a)).map Prod.fst).Perm (acts.getD a []) := by
    have := ((hp.filter fun e => decide (e.2 = a)).map Prod.fst)
    rw [allItems_filter] at this
    simpa using this
  refine List.Perm.eq_of_pairwise' (r := (· ≤ ·)) ?_ ?_ h1
  · rw [List.pairwise_map]; exact hs.filter _
  · by_cases ha : a < acts.length
    · rw [List.getD_eq_getElem _ _ ha]; exact hsort _ (List.getElem_mem ha)
    · rw [List.getD_eq_default _ _ (not_lt.1 ha)]; exact List.Pairwise.nil

/-- **C35 (exactly once, at the first date that reaches it).** Whatever actions are registered and in whatever order,
registration succeeds, and after any sequence of clock dates item `j` of action `a` has been applied exactly once, at
the first clock date that is not before its date, or not at all if no clock date reaches it. -/
theorem c35_exactly_once (acts : List (List K)) (hsort : ∀ ds ∈ acts, ds.Pairwise (· ≤ ·)) :
    ∃ m, ({} : ActMgr K).addActions acts = some m ∧ ∀ (clock : List K) (a j : ℕ) (d : K), Spec.due acts a j = some d →
      (m.updates clock).log.filter (fun e => decide (e.action = a ∧ e.item = j)) =
        match clock.find? (fun t => decide (d ≤ t)) with
        | some t => [⟨t, a, j⟩]
        | none => [] := by
  obtain ⟨m, h1, h2, h3, h4, h5, h6⟩ := addActions_ok acts ({} : ActMgr K) List.Pairwise.nil
  refine ⟨m, h1, ?_⟩
  intro clock a j d hd
  have hp : m.items.Perm (Spec.allItems 0 acts) := by simpa using h3
  rw [updates_log clock m h2, h6, h4, h5]
  show (logAll clock (fun _ => 0) m.items).filter _ = _
  rw [logAll_filter clock a j m.items (fun _ => 0) h2 (Nat.zero_le _), items_of_action hsort h2 hp a]
  simp only [Nat.sub_zero]
  unfold Spec.due at hd
  rw [hd]
  show (match clock.find? (fun t => decide (d ≤ t)) with
    | none => []
    | some t => [(⟨t, a, j⟩ : ActEntry K)]) = _
  cases clock.find? (fun t => decide (d ≤ t)) <;> rfl

/-- **C35 (nothing else is applied, dates in order).** Every application is that of a registered item, and the dates of
the applied items are non-decreasing in the order of application. -/
theorem c35_in_order (acts : List (List K)) (hsort : ∀ ds ∈ acts, ds.Pairwise (· ≤ ·)) (m : ActMgr K)
    (hm : ({} : ActMgr K).addActions acts = some m) (clock : List K) :
    (∀ e ∈ (m.updates clock).log, ∃ d, Spec.due acts e.action e.item = some d ∧ d ≤ e.time ∧ e.time ∈ clock) ∧
    (m.updates clock).log.Pairwise fun e e' => ∀ d d', Spec.due acts e.action e.item = some d →
      Spec.due acts e'.action e'.item = some d' → d ≤ d' := by
  obtain ⟨m', h1, h2, h3, h4, h5, h6⟩ := addActions_ok acts ({} : ActMgr K) List.Pairwise.nil
  rw [hm] at h1; cases h1
  have hp : m.items.Perm (Spec.allItems 0 acts) := by simpa using h3
  have hlog : (m.updates clock).log = logAll clock (fun _ => 0) m.items := by
    rw [updates_log clock m h2, h6, h4, h5]; rfl
  rw [hlog]
  have hit := items_of_action hsort h2 hp
  constructor
  · intro e he
    obtain ⟨-, d, hd, hf⟩ := logAll_mem clock _ _ e he
    rw [hit] at hd
    exact ⟨d, by simpa [Spec.due] using hd, by simpa using List.find?_some hf, List.mem_of_find?_eq_some hf⟩
  · refine (logAll_order clock _ _ h2).imp ?_
    intro e e' h d d' hd hd'
    apply h d d'
    · rw [hit]; simpa [Spec.due] using hd
    · rw [hit]; simpa [Spec.due] using hd'

/-- Changes added in any order to a land cover action are stored in date order, each exactly once. -/
theorem c35_changes_sorted {P : Type} (l : List (K × P)) : ∀ (s : List (K × P)), s.Pairwise (fun a b => a.1 ≤ b.1) →
    (l.foldl (fun s c => addChange s c.1 c.2) s).Pairwise (fun a b => a.1 ≤ b.1) ∧
    (l.foldl (fun s c => addChange s c.1 c.2) s).Perm (l ++ s) := by
  induction l with
  | nil => intro s hs; exact ⟨hs, by simp⟩
  | cons c l ih =>
    intro s hs
    have hlen : insertionIndex (s.map Prod.fst) c.1 = (s.takeWhile fun e => !decide (c.1 ≤ e.1)).length := by
      unfold insertionIndex
      rw [List.takeWhile_map, List.length_map]; rfl
    have hle : insertionIndex (s.map Prod.fst) c.1 ≤ s.length := by rw [hlen]; exact takeWhile_len_le _ _
    have hs' : (addChange s c.1 c.2).Pairwise (fun a b => a.1 ≤ b.1) := by
      apply pairwise_insert Prod.fst s hs _ _ hle
      · intro e he; rw [hlen] at he; exact (take_takeWhile_lt Prod.fst c.1 s e he).le
      · intro e he; rw [hlen] at he; exact drop_takeWhile_ge Prod.fst c.1 s hs e he
    have hp : (addChange s c.1 c.2).Perm (c :: s) := List.perm_insertIdx _ _ hle
    obtain ⟨a, b⟩ := ih _ hs'
    refine ⟨a, b.trans ?_⟩
    refine ((List.Perm.refl _).append hp).trans ?_
    exact List.perm_middle

end

/-- Three actions with interleaved and equal dates, clock 1, 2, 3, 4. -/
def Demo.acts : List (List ℚ) := [[2, 5/2], [1, 5/2], [7/2]]

example : ((({} : ActMgr ℚ).addActions Demo.acts).map fun m => (m.updates [1, 2, 3, 4]).log.map fun e => (e.time, e.action, e.item))
    = some [(1, 1, 0), (2, 0, 0), (3, 1, 1), (3, 0, 1), (4, 2, 0)] := by decide +kernel

example : ∀ ds ∈ Demo.acts, ds.Pairwise (· ≤ ·) := by decide +kernel

/-- Items of the same date are applied in the reverse order of their registration: the last registered change of a
cover at a date is applied first, so the first registered one is the one that stays. -/
theorem c35_equal_dates_reversed :
    ([((5 : ℚ), "first"), (5, "second")].foldl (fun s c => addChange s c.1 c.2) []) = [(5, "second"), (5, "first")] ∧
    ((({} : ActMgr ℚ).addActions [[5], [5]]).map fun m => (m.updates [5]).log.map (·.action)) = some [1, 0] := by
  decide +kernel

/-! ## Clock of a run

`ModelHydro::Run` (ModelHydro.cpp:116-129) processes the step dated `start`, then advances the clock, which calls
`DateUpdate` with the date of the next step (TimeMachine.cpp:49-59). -/

section
variable {K : Type} [Field K] [LinearOrder K] [IsStrictOrderedRing K]

/-- Dates passed to `DateUpdate` before step `k` is processed. -/
def updatesBefore (start dt : K) (k : ℕ) : List K := (List.range k).map fun i : ℕ => start + ((i : K) + 1) * dt

/-- **C35 (with respect to the steps).** For an item dated after the start of the run: when a step is processed, the item
has been applied (once) if the date of the step has reached its date, and has not been applied otherwise. -/
theorem c35_step_partial (acts : List (List K)) (hsort : ∀ ds ∈ acts, ds.Pairwise (· ≤ ·)) (m : ActMgr K)
    (hm : ({} : ActMgr K).addActions acts = some m) (start dt : K) (hdt : 0 < dt) (a j : ℕ) (d : K)
    (hd : Spec.due acts a j = some d) (hlate : start < d) (k : ℕ) :
    ((m.updates (updatesBefore start dt k)).log.filter (fun e => decide (e.action = a ∧ e.item = j))).length =
      if d ≤ start + (k : K) * dt then 1 else 0 := by
  obtain ⟨m', h1, h2⟩ := c35_exactly_once acts hsort
  rw [hm] at h1; cases h1
  rw [h2 _ a j d hd]
  by_cases h : d ≤ start + (k : K) * dt
  · rw [if_pos h]
    have hk : k ≠ 0 := by rintro rfl; simp at h; exact absurd h (not_le.2 hlate)
    have : (updatesBefore start dt k).find? (fun t => decide (d ≤ t)) ≠ none := by
      rw [Ne, List.find?_eq_none]
      push Not
      refine ⟨start + (k : K) * dt, ?_, by simpa using h⟩
      unfold updatesBefore
      rw [List.mem_map]
      refine ⟨k - 1, by simp; omega, ?_⟩
      have : ((k - 1 : ℕ) : K) + 1 = k := by
        have : ((k - 1 : ℕ) : K) + 1 = ((k - 1 + 1 : ℕ) : K) := by push_cast; ring
        rw [this]; congr 1; omega
      rw [this]
    obtain ⟨t, ht⟩ := Option.ne_none_iff_exists'.1 this
    rw [ht]; rfl
  · rw [if_neg h]
    have : (updatesBefore start dt k).find? (fun t => decide (d ≤ t)) = none := by
      rw [List.find?_eq_none]
      intro t ht
      unfold updatesBefore at ht
      obtain ⟨i, hi, rfl⟩ := List.mem_map.1 ht
      have hi' : i + 1 ≤ k := by have := List.mem_range.1 hi; omega
      have : ((i : K) + 1) ≤ k := by exact_mod_cast hi'
      simp only [decide_eq_true_eq, not_le]
      push Not at h
      nlinarith
    rw [this]; rfl

/-- What is missing: an item dated at the start of the run is not applied when the first step, dated the same, is
processed; it is applied before the second one. -/
theorem c35_start_date_late (start dt : K) (hdt : 0 < dt) : ∃ m, ({} : ActMgr K).addActions [[start]] = some m ∧
    (m.updates (updatesBefore start dt 0)).log = [] ∧
    (m.updates (updatesBefore start dt 1)).log = [⟨start + dt, 0, 0⟩] := by
  refine ⟨⟨[(start, 0)], 1, 0, fun _ => 0, []⟩, ?_, rfl, ?_⟩
  · rfl
  · have : start ≤ start + dt := by linarith
    simp [updatesBefore, ActMgr.updates, ActMgr.dateUpdate, ActMgr.applyDue, this]

end

/-- After a reset the same clock gives the same applications. -/
theorem c35_reset {K : Type} [LinearOrder K] (m : ActMgr K) (h : m.cursor = 0 ∧ m.acur = (fun _ => 0) ∧ m.log = [])
    (clock clock' : List K) : ((m.updates clock).reset.updates clock').log = (m.updates clock').log := by
  have items : ∀ (R : List (K × ℕ)) (t : K) (m : ActMgr K), (ActMgr.applyDue t R m).items = m.items ∧
      (ActMgr.applyDue t R m).count = m.count := by
    intro R
    induction R with
    | nil => intro t m; exact ⟨rfl, rfl⟩
    | cons e R ih =>
      intro t m
      obtain ⟨d, a⟩ := e
      simp only [ActMgr.applyDue]
      split
      · exact ih t _
      · exact ⟨rfl, rfl⟩
  have all : ∀ (c : List K) (m : ActMgr K), (m.updates c).items = m.items ∧ (m.updates c).count = m.count := by
    intro c
    induction c with
    | nil => intro m; exact ⟨rfl, rfl⟩
    | cons t c ih =>
      intro m
      have := ih (m.dateUpdate t)
      have h2 := items (m.items.drop m.cursor) t m
      exact ⟨this.1.trans h2.1, this.2.trans h2.2⟩
  have : (m.updates clock).reset = m := by
    obtain ⟨i, c, cu, ac, lg⟩ := m
    obtain ⟨rfl, rfl, rfl⟩ := h
    have := all clock ⟨i, c, 0, fun _ => 0, []⟩
    unfold ActMgr.reset
    rw [this.1, this.2]
  rw [this]

/-! ## C36: recurring actions -/

section
variable {K : Type} [Field K] [LinearOrder K] [IsStrictOrderedRing K] [FloorRing K]

/-- **C36.** A recurring action declared for one valid day of the year (29 February excluded) fires at the steps whose
calendar date is that day, and at no other. -/
theorem c36_recurring_partial (month day : ℤ) (h : Spec.Date 2001 month day) (t : CTime) (ht : Spec.DateTime t) (x : K)
    (hx : toMJD t = some x) :
    firesAt (addRecursiveDate [] month day) x = true ↔ t.month = month ∧ t.day = day := by
  obtain ⟨x0, h1, h2⟩ := c42_round_trip (K := K) t ht
  rw [hx] at h1; cases h1
  have hf := h2 x (by simp)
  unfold firesAt
  rw [hf]
  have hadd : addRecursiveDate [] month day = [(month, day)] := by
    obtain ⟨m1, m2, d1, d2⟩ := h
    have hL : ¬ Spec.Leap 2001 := by decide
    unfold Spec.monthLength at d2
    simp only [hL, if_false] at d2
    unfold addRecursiveDate
    interval_cases month <;> norm_num at d2 <;>
      · simp [daysInMonth]
        omega
  rw [hadd]
  simp only [firesOn, List.map_cons, List.map_nil, List.any_cons, List.any_nil, Bool.or_false, Bool.and_eq_true,
    beq_iff_eq]
  exact ⟨fun h => ⟨h.1.symm, h.2.symm⟩, fun h => ⟨h.1.symm, h.2.symm⟩⟩

end

example : Spec.Date 2001 10 1 := ⟨by norm_num, by norm_num, by norm_num, by decide⟩

example : firesAt (addRecursiveDate [] 10 1) (60218 : ℚ) = true ∧ firesAt (addRecursiveDate [] 10 1) (60219 : ℚ) = false := by
  decide +kernel

/-- What is missing: an action declared for two dates also fires on the other combinations of their months and days
(here 1 October and 15 May: it also fires on 15 October and 1 May)... -/
theorem c36_two_dates_cross :
    (∀ y ∈ [(15, 10), (1, 5)], firesOn (addRecursiveDate (addRecursiveDate [] 10 1) 5 15) y.2 y.1 = true) := by decide

/-- ... an invalid month is replaced by January, and a day that the month does not have by its last day. -/
theorem c36_invalid_replaced (day : ℤ) (h1 : 1 ≤ day) (h2 : day ≤ 31) :
    addRecursiveDate [] 13 day = [(1, day)] ∧ addRecursiveDate [] 2 30 = [(2, 28)] := by
  refine ⟨?_, by decide⟩
  simp [addRecursiveDate, daysInMonth]
  omega

/-- With hourly steps it fires at each of the 24 steps of the day. -/
theorem c36_every_step_of_day (h : ℤ) (h0 : 0 ≤ h) (h1 : h ≤ 23) (x : ℚ) (hx : toMJD ⟨2023, 10, 1, h, 0, 0⟩ = some x) :
    firesAt (addRecursiveDate [] 10 1) x = true :=
  (c36_recurring_partial 10 1 ⟨by norm_num, by norm_num, by norm_num, by decide⟩ _
    ⟨⟨by norm_num, by norm_num, by norm_num, show (1 : ℤ) ≤ Spec.monthLength 2023 10 by decide⟩, by norm_num, by norm_num, h0, h1, by norm_num, by norm_num,
      by norm_num, by norm_num⟩ x hx).2 ⟨rfl, rfl⟩

end HB
