import Verif.Spec.CoverTable
import Verif.Props.Actions
import Mathlib.Data.List.Sort
import Mathlib.Algebra.Order.Field.Rat
import Mathlib.Data.Rat.Floor
import Mathlib.Tactic.FieldSimp

/-!
# C81: tables of land cover changes, units
-/

namespace HB.CoverTable

open HB.Spec.CoverTable

set_option linter.unusedSectionVars false

/-! ## Units -/

section
variable {K : Type} [Field K] [CharZero K]

/-- Every conversion keeps the quantity: value × size of the unit. -/
theorem c81_convert (a b : U) (f : K → K) (h : convert a b = some f) (x : K) :
    (a = b ∧ f x = x) ∨ ∃ (d : Dim) (p q : K), size a = some (d, p) ∧ size b = some (d, q) ∧ p ≠ 0 ∧ q ≠ 0 ∧ f x * q = x * p := by
  unfold convert at h
  split at h
  · next e => cases h; exact Or.inl ⟨e, rfl⟩
  · right
    split at h <;> first
      | (cases h; done)
      | (cases h
         refine ⟨_, _, _, rfl, rfl, ?_, ?_, ?_⟩ <;> first | norm_num | skip
         all_goals first | (field_simp; done) | (field_simp; ring) | (field_simp; norm_num) | (ring))

/-- Converting back gives the value again. -/
theorem c81_back (a b : U) (f : K → K) (h : convert a b = some f) : ∃ g : K → K, convert b a = some g ∧ ∀ x, g (f x) = x := by
  unfold convert at h
  split at h
  · next e => subst e; cases h; exact ⟨fun x => x, by unfold convert; rw [if_pos rfl], fun _ => rfl⟩
  · split at h <;> first
      | (cases h; done)
      | (cases h
         exact ⟨_, rfl, fun x => by first | (field_simp; done) | (field_simp; norm_num) | ring⟩)

end

/-- Brackets and spaces do not count, unless the text is the name of a member of the enumeration. -/
theorem c81_brackets (s s' : String) (h : strip s = strip s') (hs : ∀ u : U, u.member ≠ s) (hs' : ∀ u : U, u.member ≠ s') :
    parse s = parse s' := by
  have e : ∀ t : String, (∀ u : U, u.member ≠ t) → (U.all.find? fun u => u.member == t) = none := by
    intro t ht
    rw [List.find?_eq_none]
    intro u _
    simpa using ht u
  unfold parse
  rw [e s hs, e s' hs', h]

/-- The names without a space are recognised, each with its unit; the names of the members too. -/
theorem c81_names : (∀ a ∈ aliases, ' ' ∉ a.1.toList → parse a.1 = some a.2) ∧ ∀ u ∈ U.all, parse u.member = some u := by
  constructor <;> decide +kernel

/-- The documented names, with brackets or without. -/
theorem c81_documented : ∀ n ∈ names, ∀ s ∈ n.2, parse s = some n.1 ∧ parse ("(" ++ s ++ ")") = some n.1 := by
  decide +kernel

/-- Names with a space are never recognised: "square meter" of the documentation is an error. -/
theorem c81_space_names : (∀ a ∈ aliases, ' ' ∈ a.1.toList → parse a.1 = none) ∧ ("square meter", U.m2) ∈ aliases ∧
    ' ' ∈ "square meter".toList := by
  refine ⟨?_, ?_, ?_⟩ <;> decide +kernel

/-- A member of the enumeration given as a unit is read through its text: these ones are refused. -/
theorem c81_members_refused : U.all.filter (fun u => (parse u.text).isNone) = [.noUnit, .c, .k, .pc, .mjM2D, .wM2, .kpa] ∧
    ∀ u ∈ U.all, parse u.text = none ∨ parse u.text = some u := by
  constructor <;> decide +kernel

/-- mm to km is not implemented although mm to m and m to km are. -/
theorem c81_no_chain : (convert (K := ℚ) .mm .m).isSome ∧ (convert (K := ℚ) .m .km).isSome ∧ (convert (K := ℚ) .mm .km).isNone := by
  refine ⟨rfl, rfl, rfl⟩

/-! ## Tables -/

section
variable {K : Type} [Field K] [LinearOrder K]

theorem blankFrom_cons (p c : Option K) (r : List (Option K)) :
    blankFrom p (c :: r) = (match p, c with
    | some x, some y => if x = y then none else c
    | _, _ => c) :: blankFrom c r := by
  cases p <;> cases c <;> rfl

theorem blank_take (m : ℕ) : ∀ (p : Option K) (l : List (Option K)), (blankFrom p l).take m = blankFrom p (l.take m) := by
  induction m with
  | zero => intro p l; simp [blankFrom]
  | succ m ih =>
    intro p l
    cases l with
    | nil => rfl
    | cons c r => rw [blankFrom_cons, List.take_succ_cons, List.take_succ_cons, blankFrom_cons, ih]

theorem getLast_cons (c : Option K) (l : List (Option K)) : ((c :: l).filterMap id).getLast? = ((l.filterMap id).getLast?).or c := by
  cases c with
  | none => rw [List.filterMap_cons_none rfl]; simp
  | some x =>
    rw [show ((some x :: l).filterMap id) = x :: l.filterMap id from rfl, List.getLast?_cons]
    cases (l.filterMap id).getLast? <;> rfl

/-- The last value is not changed by the removal of repeated values. -/
theorem blank_last : ∀ (l : List (Option K)) (p : Option K),
    (((blankFrom p l).filterMap id).getLast?).or p = ((l.filterMap id).getLast?).or p
  | [], _ => rfl
  | c :: r, p => by
    rw [blankFrom_cons, getLast_cons, getLast_cons]
    have ih := blank_last r c
    rcases h1 : ((blankFrom c r).filterMap id).getLast? with _ | x
    · rw [h1, Option.none_or] at ih
      rw [← ih, Option.none_or]
      rcases p with _ | x <;> rcases c with _ | y <;> simp only <;> try rfl
      split
      · next e => rw [e]; rfl
      · rfl
    · rw [h1, Option.some_or] at ih
      rw [← ih, Option.some_or]

theorem blank_length : ∀ (p : Option K) (l : List (Option K)), (blankFrom p l).length = l.length
  | _, [] => rfl
  | p, c :: r => by rw [blankFrom_cons, List.length_cons, List.length_cons, blank_length]

/-- The columns up to a date are the first ones. -/
theorem filter_take {α : Type} (date : K) : ∀ (dates : List K), dates.Pairwise (· < ·) → ∃ m, ∀ cells : List α,
    (dates.zip cells).filter (fun p => decide (p.1 ≤ date)) = (dates.zip cells).take m
  | [], _ => ⟨0, fun _ => rfl⟩
  | d :: r, h => by
    rw [List.pairwise_cons] at h
    by_cases hd : d ≤ date
    · obtain ⟨m, hm⟩ := filter_take (α := α) date r h.2
      refine ⟨m + 1, fun cells => ?_⟩
      cases cells with
      | nil => simp
      | cons c cells =>
        rw [List.zip_cons_cons, List.filter_cons_of_pos (by simpa using hd), List.take_succ_cons, hm]
    · refine ⟨0, fun cells => ?_⟩
      rw [List.take_zero, List.filter_eq_nil_iff]
      rintro ⟨a, b⟩ hab
      have ha := (List.of_mem_zip hab).1
      simp only [decide_eq_true_eq, not_le]
      rcases List.mem_cons.1 ha with rfl | ha
      · exact not_le.1 hd
      · exact _root_.lt_trans (not_le.1 hd) (h.1 a ha)

theorem take_values : ∀ (dates : List K) (cells : List (Option K)) (m : ℕ),
    ((dates.zip cells).take m).filterMap Prod.snd = (cells.take (min m dates.length)).filterMap id
  | [], _, m => by simp
  | _ :: _, [], m => by simp
  | d :: dates, c :: cells, 0 => by simp
  | d :: dates, c :: cells, m + 1 => by
    rw [List.zip_cons_cons, List.take_succ_cons, List.length_cons, Nat.succ_min_succ, List.take_succ_cons]
    have ih := take_values dates cells m
    cases c with
    | none => rw [List.filterMap_cons_none rfl, List.filterMap_cons_none rfl, ih]
    | some x =>
      rw [show ((d, some x) :: List.take m (dates.zip cells)).filterMap Prod.snd =
        x :: (List.take m (dates.zip cells)).filterMap Prod.snd from rfl, ih]
      rfl

theorem zip_sorted {α : Type} : ∀ (dates : List K) (cells : List α), dates.Pairwise (· < ·) →
    (dates.zip cells).Pairwise (fun a b => a.1 < b.1)
  | [], _, _ => by simp
  | _ :: _, [], _ => by simp
  | d :: dates, c :: cells, h => by
    rw [List.pairwise_cons] at h
    rw [List.zip_cons_cons, List.pairwise_cons]
    refine ⟨?_, zip_sorted dates cells h.2⟩
    rintro ⟨a, b⟩ hab
    exact h.1 a (List.of_mem_zip hab).1

/-- The table says the same with and without the repeated values. -/
theorem tableAt_blank (dates : List K) (hd : dates.Pairwise (· < ·)) (cells : List (Option K)) (date : K) :
    tableAt dates (blank cells) date = tableAt dates cells date := by
  obtain ⟨m, hm⟩ := filter_take (α := Option K) date dates hd
  unfold tableAt
  rw [hm, hm, take_values, take_values, blank, blank_take]
  simpa using blank_last (cells.take (min m dates.length)) none

/-- The changes of a unit in the calls are those of its row, in the order of the columns. -/
theorem calls_filter (cover : String) (f : K → K) (dates : List K) (rows : List (Line ℤ K)) (hn : (rows.map (·.key)).Nodup)
    (r : Line ℤ K) (hr : r ∈ rows) :
    (calls cover f dates rows).filter (fun c => decide (c.2.1 = r.key ∧ c.2.2.1 = cover)) =
      (dates.zip r.cells).filterMap fun p => p.2.map fun a => (p.1, (r.key, cover, f a)) := by
  have hcol : ∀ (j : ℕ) (d : K), (rows.filterMap fun r => ((r.cells[j]?).join).map fun a => ((d, (r.key, cover, f a)) : Change K)).filter
      (fun c => decide (c.2.1 = r.key ∧ c.2.2.1 = cover)) = (((r.cells[j]?).join).map fun a => (d, (r.key, cover, f a))).toList := by
    intro j d
    induction rows with
    | nil => cases hr
    | cons q rows ih =>
      rw [List.map_cons, List.nodup_cons] at hn
      rcases List.mem_cons.1 hr with rfl | hr'
      · have h0 : (rows.filterMap fun r => ((r.cells[j]?).join).map fun a => ((d, (r.key, cover, f a)) : Change K)).filter
            (fun c => decide (c.2.1 = r.key ∧ c.2.2.1 = cover)) = [] := by
          rw [List.filter_eq_nil_iff]
          intro c hc
          rw [List.mem_filterMap] at hc
          obtain ⟨q, hq, hqc⟩ := hc
          rw [Option.map_eq_some_iff] at hqc
          obtain ⟨a, -, rfl⟩ := hqc
          simp only [decide_eq_true_eq, not_and]
          intro e
          exact absurd (e ▸ List.mem_map_of_mem (f := fun r : Line ℤ K => r.key) hq) hn.1
        rcases hj : (r.cells[j]?).join with _ | a
        · rw [List.filterMap_cons_none (by rw [hj]; rfl), h0]; rfl
        · rw [List.filterMap_cons_some (by rw [hj]; rfl), List.filter_cons_of_pos (by simp), h0]; rfl
      · have hne : q.key ≠ r.key := by
          intro e
          exact hn.1 (e ▸ List.mem_map_of_mem (f := fun r : Line ℤ K => r.key) hr')
        rcases hj : (q.cells[j]?).join with _ | a
        · rw [List.filterMap_cons_none (by rw [hj]; rfl), ih hn.2 hr']
        · rw [List.filterMap_cons_some (by rw [hj]; rfl), List.filter_cons_of_neg (by simp [hne]), ih hn.2 hr']
  unfold calls
  rw [List.filter_flatMap]
  rw [List.flatMap_congr (g := fun j => (((r.cells[j]?).join).map fun a => (dates.getD j 0, (r.key, cover, f a))).toList)
    fun j _ => hcol j _]
  clear hcol hn hr
  generalize r.cells = cells
  induction dates generalizing cells with
  | nil => simp
  | cons d dates ih =>
    rw [List.length_cons, List.range_succ_eq_map, List.flatMap_cons, List.flatMap_map]
    cases cells with
    | nil => simp
    | cons c cells =>
      rw [List.zip_cons_cons]
      have := ih cells
      simp only [List.getElem?_cons_succ, List.getD_cons_succ, List.getElem?_cons_zero, List.getD_cons_zero, Option.join_some] at this ⊢
      rw [this]
      cases c <;> simp

/-- The stored changes of a unit and a cover, in order, when nothing was stored for them before. -/
theorem stored_filter (l s : List (Change K)) (hs : s.Pairwise (fun a b => a.1 ≤ b.1)) (p : Change K → Bool)
    (hp : s.filter p = []) (hl : (l.filter p).Pairwise (fun a b => a.1 < b.1)) :
    (l.foldl (fun s c => addChange s c.1 c.2) s).filter p = l.filter p := by
  obtain ⟨h1, h2⟩ := c35_changes_sorted l s hs
  have hperm : ((l.foldl (fun s c => addChange s c.1 c.2) s).filter p).Perm (l.filter p) := by
    have := h2.filter p
    rwa [List.filter_append, hp, List.append_nil] at this
  have hsort : ((l.foldl (fun s c => addChange s c.1 c.2) s).filter p).Pairwise (fun a b => a.1 ≤ b.1) :=
    List.Pairwise.filter _ h1
  have hnd : ∀ a ∈ l.filter p, ∀ b ∈ l.filter p, a.1 = b.1 → a = b := by
    intro a ha b hb hab
    by_contra hne
    have := List.Pairwise.forall_of_forall_of_flip (R := fun a b : Change K => a ≠ b → a.1 ≠ b.1) (l := l.filter p)
      (by intro x _ h; exact absurd rfl h) (hl.imp fun h _ => h.ne) (hl.imp fun h _ => h.ne')
    exact this ha hb hne hab
  have hle : (l.filter p).Pairwise (fun a b => a.1 ≤ b.1) := hl.imp fun h => h.le
  refine List.Perm.eq_of_pairwise ?_ hsort hle hperm
  intro a b ha hb hab hba
  exact hnd a (hperm.mem_iff.1 ha) b hb (le_antisymm hab hba)

theorem insertIdx_filter {α : Type} (p : α → Bool) (a : α) (ha : p a = false) : ∀ (l : List α) (n : ℕ),
    (l.insertIdx n a).filter p = l.filter p
  | l, 0 => by simp [ha]
  | [], n + 1 => by simp
  | x :: l, n + 1 => by
    rw [List.insertIdx_succ_cons, List.filter_cons, List.filter_cons, insertIdx_filter p a ha l n]

theorem stored_none (p : Change K → Bool) : ∀ (l s : List (Change K)), (∀ c ∈ l, p c = false) →
    (l.foldl (fun s c => addChange s c.1 c.2) s).filter p = s.filter p
  | [], _, _ => rfl
  | c :: l, s, h => by
    rw [List.foldl_cons, stored_none p l _ fun c hc => h c (List.mem_cons_of_mem _ hc), addChange,
      insertIdx_filter p (c.1, c.2) (h c List.mem_cons_self)]

theorem calls_mem (cover : String) (f : K → K) (dates : List K) (rows : List (Line ℤ K)) :
    ∀ c ∈ calls cover f dates rows, c.2.2.1 = cover ∧ c.2.1 ∈ rows.map (·.key) := by
  intro c hc
  unfold calls at hc
  rw [List.mem_flatMap] at hc
  obtain ⟨j, -, hc⟩ := hc
  rw [List.mem_filterMap] at hc
  obtain ⟨r, hr, hc⟩ := hc
  rw [Option.map_eq_some_iff] at hc
  obtain ⟨a, -, rfl⟩ := hc
  exact ⟨rfl, List.mem_map_of_mem hr⟩

/-- **C81**: after a file has been loaded, the area in force at any date is the one of the file, converted to m². -/
theorem c81_in_force (cover unit : String) (dates : List K) (hd : dates.Pairwise (· < ·)) (rows : List (Line ℤ K))
    (hn : (rows.map (·.key)).Nodup) (s s' : List (Change K)) (hs : s.Pairwise (fun a b => a.1 ≤ b.1))
    (h : populate cover unit dates rows s = .ok s') :
    s'.Pairwise (fun a b => a.1 ≤ b.1) ∧
    (∀ r ∈ rows, (∀ c ∈ s, c.2.1 = r.key → c.2.2.1 ≠ cover) → ∀ f : K → K, ((parse unit).bind fun u => convert u .m2) = some f →
      ∀ date, areaAt s' cover r.key date = (tableAt dates r.cells date).map f) ∧
    ∀ (u : ℤ) (other : String), (other = cover → u ∉ rows.map (·.key)) → ∀ date, areaAt s' other u date = areaAt s other u date := by
  unfold populate at h
  simp only at h
  set rows' : List (Line ℤ K) := rows.map fun r => ⟨r.key, blank r.cells⟩ with hrows'
  have hkeys : rows'.map (·.key) = rows.map (·.key) := by
    rw [hrows', List.map_map]; rfl
  split at h
  · next f hf =>
    cases h
    refine ⟨(c35_changes_sorted _ s hs).1, ?_, ?_⟩
    · intro r hr hnew f' hf' date
      rw [hf] at hf'; cases hf'
      have hr' : (⟨r.key, blank r.cells⟩ : Line ℤ K) ∈ rows' := List.mem_map.2 ⟨r, hr, rfl⟩
      have hc := calls_filter cover f dates rows' (by rw [hkeys]; exact hn) _ hr'
      simp only at hc
      have hp : s.filter (fun c => decide (c.2.1 = r.key ∧ c.2.2.1 = cover)) = [] := by
        rw [List.filter_eq_nil_iff]
        intro c hcs
        simp only [decide_eq_true_eq, not_and]
        exact hnew c hcs
      have hz : (dates.zip (blank r.cells)).Pairwise (fun a b => a.1 < b.1) := by
        exact zip_sorted _ _ hd
      have hl : ((calls cover f dates rows').filter fun c => decide (c.2.1 = r.key ∧ c.2.2.1 = cover)).Pairwise
          (fun a b => a.1 < b.1) := by
        rw [hc, List.pairwise_filterMap]
        refine hz.imp ?_
        intro a b hab x hx y hy
        rw [Option.map_eq_some_iff] at hx hy
        obtain ⟨_, -, rfl⟩ := hx
        obtain ⟨_, -, rfl⟩ := hy
        exact hab
      have hst := stored_filter (calls cover f dates rows') s hs _ hp hl
      unfold areaAt
      rw [List.filter_comm, hst, hc, ← tableAt_blank dates hd, tableAt, ← List.getLast?_map]
      congr 1
      generalize dates.zip (blank r.cells) = z
      induction z with
      | nil => rfl
      | cons a z ih =>
        obtain ⟨d, c⟩ := a
        cases c with
        | none =>
          rw [List.filterMap_cons_none rfl, ih]
          by_cases hda : d ≤ date
          · rw [List.filter_cons_of_pos (by simpa using hda), List.filterMap_cons_none rfl]
          · rw [List.filter_cons_of_neg (by simpa using hda)]
        | some x =>
          rw [List.filterMap_cons_some (f := fun p : K × Option K => p.2.map fun a => ((p.1, (r.key, cover, f a)) : Change K))
            (b := (d, (r.key, cover, f x))) rfl]
          by_cases hda : d ≤ date
          · rw [List.filter_cons_of_pos (by simpa using hda), List.filter_cons_of_pos (by simpa using hda),
              List.filterMap_cons_some (f := Prod.snd) (b := x) rfl, List.map_cons, List.map_cons, ih]
          · rw [List.filter_cons_of_neg (by simpa using hda), List.filter_cons_of_neg (by simpa using hda), ih]
    · intro u other ho date
      unfold areaAt
      rw [List.filter_comm, stored_none _ _ s ?_, List.filter_comm]
      intro c hc
      obtain ⟨h1, h2⟩ := calls_mem _ _ _ _ c hc
      rw [hkeys] at h2
      rw [decide_eq_false_iff_not]
      rintro ⟨e1, e2⟩
      exact ho (e2.symm.trans h1) (e1 ▸ h2)
  · next hno =>
    split at h
    · cases h
      refine ⟨hs, ?_, fun _ _ _ _ => rfl⟩
      intro r _ _ f hf
      rw [hno] at hf; cases hf
    · cases h

end

section
variable {K : Type} [Field K] [LinearOrder K]

/-- A file is refused exactly when an area would have to be read in a unit that is not known or is not an area. -/
theorem c81_refused (cover unit : String) (dates : List K) (rows : List (Line ℤ K)) (s : List (Change K)) :
    populate cover unit dates rows s = .error .data ↔
      ((parse unit).bind fun u => convert (K := K) u .m2) = none ∧
        ∃ r ∈ rows, ∃ x : K, x ∈ (r.cells.take dates.length).filterMap id := by
  have hb : ∀ (m : ℕ) (l : List (Option K)), (∃ x : K, x ∈ (l.take m).filterMap id) ↔
      ∃ j, j < m ∧ ∃ x : K, ((blank l)[j]?).join = some x := by
    intro m l
    have key : ∀ (l : List (Option K)), (∃ x : K, x ∈ l.filterMap id) ↔ ((l.filterMap id).getLast?).isSome = true := by
      intro l
      rw [List.getLast?_isSome]
      constructor
      · rintro ⟨x, hx⟩ h0; rw [h0] at hx; cases hx
      · intro h0
        obtain ⟨x, hx⟩ := List.exists_mem_of_ne_nil _ h0
        exact ⟨x, hx⟩
    have h0 := blank_last (l.take m) none
    rw [Option.or_none, Option.or_none, ← blank_take] at h0
    rw [key, ← h0, ← key]
    constructor
    · rintro ⟨x, hx⟩
      rw [List.mem_filterMap] at hx
      obtain ⟨a, ha, e⟩ := hx
      obtain ⟨j, hj⟩ := List.mem_iff_getElem?.1 ha
      rw [List.getElem?_take] at hj
      split at hj
      · next hjm => exact ⟨j, hjm, x, by rw [blank, hj]; exact e⟩
      · cases hj
    · rintro ⟨j, hjm, x, hx⟩
      rcases hc : (blank l)[j]? with _ | c
      · rw [hc] at hx; cases hx
      · rw [hc] at hx
        refine ⟨x, List.mem_filterMap.2 ⟨c, ?_, hx⟩⟩
        rw [List.mem_iff_getElem?]
        exact ⟨j, by rw [List.getElem?_take, if_pos hjm]; exact hc⟩
  have hcall : calls cover id dates (rows.map fun r => (⟨r.key, blank r.cells⟩ : Line ℤ K)) = [] ↔
      ¬ ∃ r ∈ rows, ∃ x : K, x ∈ (r.cells.take dates.length).filterMap id := by
    unfold calls
    rw [List.flatMap_eq_nil_iff]
    constructor
    · rintro h ⟨r, hr, hx⟩
      obtain ⟨j, hj, x, hx⟩ := (hb _ _).1 hx
      have := h j (List.mem_range.2 hj)
      rw [List.filterMap_eq_nil_iff] at this
      have := this _ (List.mem_map.2 ⟨r, hr, rfl⟩)
      simp [hx] at this
    · intro h j hj
      rw [List.filterMap_eq_nil_iff]
      rintro q hq
      obtain ⟨r, hr, rfl⟩ := List.mem_map.1 hq
      simp only [Option.map_eq_none_iff]
      by_contra hne
      obtain ⟨x, hx⟩ := Option.ne_none_iff_exists'.1 hne
      exact h ⟨r, hr, (hb _ _).2 ⟨j, List.mem_range.1 hj, x, hx⟩⟩
  unfold populate
  simp only
  split
  · next f hf => rw [hf]; simp
  · next hf =>
    rw [hf]
    split
    · next h0 => simp only [reduceCtorEq, true_and, false_iff]; exact hcall.1 h0
    · next h0 =>
      simp only [true_and, true_iff]
      by_contra hne
      exact h0 (hcall.2 hne)

/-- With ids: what is checked is that each id lies between the least and the greatest one. -/
theorem c81_by_id (ids : List ℤ) (cover unit : String) (dates : List K) (rows : List (Line ℤ K)) (s s' : List (Change K))
    (h : loadById ids cover unit dates rows s = .ok s') :
    populate cover unit dates rows s = .ok s' ∧ ∀ r ∈ rows, (∃ i ∈ ids, i ≤ r.key) ∧ ∃ i ∈ ids, r.key ≤ i := by
  unfold loadById at h
  split at h
  · next hc =>
    refine ⟨h, fun r hr => ?_⟩
    have := List.all_eq_true.1 hc r hr
    rw [Bool.and_eq_true] at this
    simpa [List.any_eq_true] using this
  · cases h

variable [FloorRing K]

theorem mapM_match (units : List (ℤ × K)) : ∀ (rows : List (Line K K)) (rs : List (Line ℤ K)),
    rows.mapM (matchLine units) = .ok rs → List.Forall₂ (fun r q => matchLine units r = .ok q) rows rs
  | [], rs, h => by
    rw [List.mapM_nil] at h
    cases h
    exact .nil
  | r :: rows, rs, h => by
    rw [List.mapM_cons] at h
    rcases h1 : matchLine units r with e | q
    · rw [h1] at h; cases h
    · rw [h1] at h
      rcases h2 : rows.mapM (matchLine units) with e | qs
      · rw [h2] at h; cases h
      · rw [h2] at h
        cases h
        exact .cons h1 (mapM_match units rows qs h2)

/-- With elevations: each row goes to the first unit with the same integer part of the elevation, a row without such a unit is
an error; then the areas in force are those of the file. -/
theorem c81_by_elevation (units : List (ℤ × K)) (cover unit : String) (dates : List K) (rows : List (Line K K))
    (s s' : List (Change K)) (h : loadByElevation units cover unit dates rows s = .ok s') :
    ∃ rs : List (Line ℤ K), populate cover unit dates rs s = .ok s' ∧
      List.Forall₂ (fun r q => q.cells = r.cells ∧ ∃ (before after : List (ℤ × K)) (e : K), units = before ++ (q.key, e) :: after ∧
        Terrain.trunc e = Terrain.trunc r.key ∧ ∀ u ∈ before, Terrain.trunc u.2 ≠ Terrain.trunc r.key) rows rs := by
  unfold loadByElevation at h
  split at h
  · next rs hrs =>
    refine ⟨rs, h, (mapM_match units rows rs hrs).imp ?_⟩
    intro r q hq
    unfold matchLine at hq
    split at hq
    · next u hu =>
      cases hq
      obtain ⟨h1, before, after, h2, h3⟩ := List.find?_eq_some_iff_append.1 hu
      refine ⟨rfl, before, after, u.2, h2, by simpa using h1, fun v hv => ?_⟩
      simpa using h3 v hv
    · cases hq
  · cases h

/-- Units whose elevations have different integer parts: every area goes to the unit of that elevation. -/
theorem c81_elevations_apart (units : List (ℤ × K)) (hu : (units.map fun u => Terrain.trunc u.2).Nodup) (cover unit : String) (dates : List K)
    (hd : dates.Pairwise (· < ·)) (rows : List (Line K K)) (hn : (rows.map fun r => Terrain.trunc r.key).Nodup)
    (hi : (units.map Prod.fst).Nodup) (s' : List (Change K))
    (h : loadByElevation units cover unit dates rows [] = .ok s') (f : K → K)
    (hf : ((parse unit).bind fun u => convert u .m2) = some f) (r : Line K K) (hr : r ∈ rows) (id : ℤ) (e : K) (he : (id, e) ∈ units)
    (hre : Terrain.trunc e = Terrain.trunc r.key) (date : K) :
    areaAt s' cover id date = (tableAt dates r.cells date).map f := by
  obtain ⟨rs, h1, h2⟩ := c81_by_elevation units cover unit dates rows [] s' h
  have inj : ∀ u ∈ units, ∀ v ∈ units, Terrain.trunc u.2 = Terrain.trunc v.2 → u = v :=
    fun u hu' v hv huv => List.inj_on_of_nodup_map hu hu' hv huv
  have inj2 : ∀ u ∈ units, ∀ v ∈ units, u.1 = v.1 → u = v :=
    fun u hu' v hv huv => List.inj_on_of_nodup_map hi hu' hv huv
  have hkeys : (rs.map (·.key)).Nodup := by
    clear h h1 hr hre
    induction h2 with
    | nil => exact List.nodup_nil
    | @cons r q rows rs hq hrest ih =>
      rw [List.map_cons, List.nodup_cons] at hn ⊢
      refine ⟨?_, ih hn.2⟩
      intro hmem
      obtain ⟨q', hq', e1⟩ := List.mem_map.1 hmem
      obtain ⟨r', hr', -, b', a', e', hb', ht', -⟩ : ∃ r' ∈ rows, q'.cells = r'.cells ∧ ∃ (before after : List (ℤ × K)) (e : K),
          units = before ++ (q'.key, e) :: after ∧ Terrain.trunc e = Terrain.trunc r'.key ∧
            ∀ u ∈ before, Terrain.trunc u.2 ≠ Terrain.trunc r'.key := by
        clear ih hn hq hmem e1
        induction hrest with
        | nil => cases hq'
        | cons hh _ ih =>
          rcases List.mem_cons.1 hq' with rfl | hq'
          · exact ⟨_, List.mem_cons_self, hh⟩
          · obtain ⟨r', hr', hh⟩ := ih hq'
            exact ⟨r', List.mem_cons_of_mem _ hr', hh⟩
      obtain ⟨-, b, a, e0, hb, ht, -⟩ := hq
      have m1 : (q.key, e0) ∈ units := by rw [hb]; simp
      have m2 : (q'.key, e') ∈ units := by rw [hb']; simp
      have := inj2 _ m1 _ m2 e1.symm
      have he' : e0 = e' := congrArg Prod.snd this
      apply hn.1
      rw [List.mem_map]
      exact ⟨r', hr', by rw [← ht', ← ht, he']⟩
  obtain ⟨q, hq, hc, b, a, e0, hb, ht, -⟩ : ∃ q ∈ rs, q.cells = r.cells ∧ ∃ (before after : List (ℤ × K)) (e : K),
      units = before ++ (q.key, e) :: after ∧ Terrain.trunc e = Terrain.trunc r.key ∧
        ∀ u ∈ before, Terrain.trunc u.2 ≠ Terrain.trunc r.key := by
    clear h h1 hkeys hn
    induction h2 with
    | nil => cases hr
    | cons hh _ ih =>
      rcases List.mem_cons.1 hr with rfl | hr
      · exact ⟨_, List.mem_cons_self, hh⟩
      · obtain ⟨q, hq, hh⟩ := ih hr
        exact ⟨q, List.mem_cons_of_mem _ hq, hh⟩
  have m1 : (q.key, e0) ∈ units := by rw [hb]; simp
  have huq := inj _ m1 _ he (by rw [ht, hre])
  have hid : q.key = id := congrArg Prod.fst huq
  have := (c81_in_force cover unit dates hd rs hkeys [] s' List.Pairwise.nil h1).2.1 q hq (by intro c hc; cases hc) f hf date
  rw [← hid, this, hc]

end

/-! ## Yearly values -/

section
variable {K : Type} [Field K] [LinearOrder K] [IsStrictOrderedRing K]

/-- Interpolated values are between the bounds of the values. -/
theorem c81_interp_bounds (x lo hi : K) : ∀ (l : List (K × K)), l ≠ [] → l.Pairwise (fun a b => a.1 < b.1) →
    (∀ p ∈ l, lo ≤ p.2 ∧ p.2 ≤ hi) → lo ≤ interp x l ∧ interp x l ≤ hi
  | [], h, _, _ => absurd rfl h
  | [p], _, _, hb => hb p (by simp)
  | p :: q :: r, _, hs, hb => by
    have hp := hb p (by simp)
    have hq := hb q (by simp)
    unfold interp
    split
    · exact hp
    · next h1 =>
      split
      · next h2 =>
        have hpq : p.1 < q.1 := (List.pairwise_cons.1 hs).1 q (by simp)
        have hd : 0 < q.1 - p.1 := sub_pos.2 hpq
        have e : (q.2 - p.2) / (q.1 - p.1) * (x - p.1) + p.2 =
            ((x - p.1) * q.2 + (q.1 - x) * p.2) / (q.1 - p.1) := by
          field_simp; ring
        have w1 : 0 ≤ x - p.1 := by linarith [not_le.1 h1]
        have w2 : 0 ≤ q.1 - x := by linarith
        rw [e]
        constructor
        · rw [le_div_iff₀ hd]
          nlinarith [mul_le_mul_of_nonneg_left hq.1 w1, mul_le_mul_of_nonneg_left hp.1 w2]
        · rw [div_le_iff₀ hd]
          nlinarith [mul_le_mul_of_nonneg_left hq.2 w1, mul_le_mul_of_nonneg_left hp.2 w2]
      · exact c81_interp_bounds x lo hi (q :: r) (by simp) (List.pairwise_cons.1 hs).2
          fun p' hp' => hb p' (List.mem_cons_of_mem _ hp')

/-- At the dates of the table the values are those of the table. -/
theorem c81_interp_nodes : ∀ (l : List (K × K)), l.Pairwise (fun a b => a.1 < b.1) → ∀ p ∈ l, interp p.1 l = p.2
  | [], _, _, h => by cases h
  | [p], _, q, h => by
    rw [List.mem_singleton] at h
    rw [h]
    rfl
  | p :: q :: r, hs, p', h => by
    unfold interp
    rcases List.mem_cons.1 h with rfl | h
    · rw [if_pos le_rfl]
    · have h1 := (List.pairwise_cons.1 hs).1 p' h
      rw [if_neg (not_le.2 h1)]
      have h2 : ¬ p'.1 < q.1 := by
        rcases List.mem_cons.1 h with rfl | h
        · exact lt_irrefl _
        · exact not_lt.2 ((List.pairwise_cons.1 (List.pairwise_cons.1 hs).2).1 p' h).le
      rw [if_neg h2]
      exact c81_interp_nodes (q :: r) (List.pairwise_cons.1 hs).2 p' h

/-- Between two dates the value is on the straight line. -/
theorem c81_interp_between (x : K) : ∀ (l : List (K × K)) (p q : K × K) (before after : List (K × K)), l = before ++ p :: q :: after →
    l.Pairwise (fun a b => a.1 < b.1) → p.1 ≤ x → x ≤ q.1 → (interp x l - p.2) * (q.1 - p.1) = (q.2 - p.2) * (x - p.1)
  | [], p, q, b, a, h, _, _, _ => by simp at h
  | [p0], p, q, b, a, h, _, _, _ => by
    have := congrArg List.length h
    simp at this
    omega
  | p0 :: q0 :: r, p, q, b, a, h, hs, hp, hq => by
    have hs' := hs
    cases b with
    | nil =>
      simp only [List.nil_append, List.cons.injEq] at h
      obtain ⟨rfl, rfl, rfl⟩ := h
      have hpq : p0.1 < q0.1 := (List.pairwise_cons.1 hs).1 q0 (by simp)
      have hd : q0.1 - p0.1 ≠ 0 := (sub_pos.2 hpq).ne'
      unfold interp
      split
      · next h1 => rw [_root_.le_antisymm h1 hp]; ring
      · split
        · field_simp; ring
        · next h2 =>
          have hx : x = q0.1 := _root_.le_antisymm hq (not_lt.1 h2)
          rw [hx, c81_interp_nodes (q0 :: r) (List.pairwise_cons.1 hs).2 q0 (by simp)]
    | cons b0 b =>
      rw [List.cons_append, List.cons.injEq] at h
      obtain ⟨rfl, h⟩ := h
      have hlt : ∀ c ∈ q0 :: r, p0.1 < c.1 := (List.pairwise_cons.1 hs).1
      have hpm : p ∈ q0 :: r := by rw [h]; simp
      unfold interp
      rw [if_neg (not_le.2 (lt_of_lt_of_le (hlt p hpm) hp))]
      have h2 : ¬ x < q0.1 := by
        rw [not_lt]
        refine _root_.le_trans ?_ hp
        rcases List.mem_cons.1 hpm with e | e
        · rw [e]
        · exact ((List.pairwise_cons.1 (List.pairwise_cons.1 hs).2).1 p e).le
      rw [if_neg h2]
      exact c81_interp_between x (q0 :: r) p q b a h (List.pairwise_cons.1 hs).2 hp hq

omit [IsStrictOrderedRing K] in
/-- The covers of a unit interpolated one by one add up to their interpolated total (constant: the area of the unit, by
`c81_interp_bounds`). -/
theorem c81_interp_add (x : K) : ∀ (times ys zs : List K), ys.length = times.length → zs.length = times.length →
    interp x (times.zip ys) + interp x (times.zip zs) = interp x (times.zip (List.zipWith (· + ·) ys zs))
  | [], _, _, _, _ => by simp [interp]
  | [t], [y], [z], _, _ => by simp [interp]
  | t :: t' :: r, y :: y' :: ys, z :: z' :: zs, hy, hz => by
    have ih := c81_interp_add x (t' :: r) (y' :: ys) (z' :: zs) (by simpa using hy) (by simpa using hz)
    simp only [List.zip_cons_cons, List.zipWith_cons_cons] at ih ⊢
    unfold interp
    simp only
    split
    · rfl
    · split
      · ring
      · exact ih
  | [t], [], _, hy, _ => by simp at hy
  | [t], _ :: _ :: _, _, hy, _ => by simp at hy
  | [t], [_], [], _, hz => by simp at hz
  | [t], [_], _ :: _ :: _, _, hz => by simp at hz
  | t :: t' :: r, [], _, hy, _ => by simp at hy
  | t :: t' :: r, [_], _, hy, _ => by simp at hy
  | t :: t' :: r, _ :: _ :: _, [], _, hz => by simp at hz
  | t :: t' :: r, _ :: _ :: _, [_], _, hz => by simp at hz

end

/-! ## Examples and findings -/

/-- Two elevation bands, areas in km², one value missing, one repeated. -/
def demoRows : List (Line ℚ ℚ) := [⟨4310, [some (3 / 100), some (1 / 100), some (1 / 100)]⟩, ⟨42745 / 10, [some (1 / 50), none, some 0]⟩]

def demoUnits : List (ℤ × ℚ) := [(1, 4274), (2, 43104 / 10)]

theorem c81_demo : (loadByElevation demoUnits "ice" "km2" [10, 20, 30] demoRows []).toOption =
    some [(10, (1, "ice", 20000)), (10, (2, "ice", 30000)), (20, (2, "ice", 10000)), (30, (1, "ice", 0))] := by
  decide +kernel

/-- The hypotheses of `c81_elevations_apart` are met by it. -/
theorem c81_demo_hyp : (demoUnits.map fun u => Terrain.trunc u.2).Nodup ∧ ([10, 20, 30] : List ℚ).Pairwise (· < ·) ∧
    (demoRows.map fun r => Terrain.trunc r.key).Nodup ∧ (demoUnits.map Prod.fst).Nodup ∧
    areaAt [(10, (1, "ice", 20000)), (10, (2, "ice", 30000)), (20, (2, "ice", 10000)), (30, (1, "ice", 0))] "ice" 1 (25 : ℚ) = some 20000 ∧
    tableAt [10, 20, 30] [some (1 / 50 : ℚ), none, some 0] 25 = some (1 / 50) := by
  refine ⟨?_, ?_, ?_, ?_, ?_, ?_⟩ <;> decide +kernel

/-- Two units of the same elevation (as with aspect classes): the first one receives the areas of both rows, at equal dates the
first row counts; the second unit never changes. -/
theorem c81_same_elevation : (loadByElevation [(1, (4274 : ℚ)), (2, 4274)] "ice" "m2" [10] [⟨4274, [some 500]⟩, ⟨4274, [some 300]⟩] []).toOption =
    some [(10, (1, "ice", 300)), (10, (1, "ice", 500))] := by
  decide +kernel

/-- An id that no unit has is accepted when it is between the others. -/
theorem c81_unknown_id : (loadById [1, 5] "ice" "m2" [10] [⟨3, [some (500 : ℚ)]⟩] []).toOption = some [(10, (3, "ice", 500))] := by
  decide +kernel

/-- Debris growing over ice, ice file loaded first, debris file second: at equal dates the debris is applied first. -/
theorem c81_reversed_covers : (((loadById [1] "ice" "m2" [10] [⟨1, [some (50 : ℚ)]⟩] []).toOption.bind fun s =>
    (loadById [1] "debris" "m2" [10] [⟨1, [some 50]⟩] s).toOption)) = some [(10, (1, "debris", 50)), (10, (1, "ice", 50))] := by
  decide +kernel

/-- Half of the way between 1 January of years 0 and 2. -/
theorem c81_interp_demo : yearly [(0 : ℚ), 730, 1461] [0, 365, 730, 1461] [100, 50, 0] = [100, 75, 50, 0] := by
  decide +kernel

end HB.CoverTable
