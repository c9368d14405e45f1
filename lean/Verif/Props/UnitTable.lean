import Verif.Model.UnitTableLemmas

/-!
# C83: the table of hydro units gives the model fractions that describe the map

See `Spec/UnitTable.lean` for the vocabulary.
-/

namespace HB.UnitTable

open HB.Spec.UnitTable

set_option linter.unusedSectionVars false

variable {K : Type} [Field K] [LinearOrder K] [IsStrictOrderedRing K]

/-- The row once the cover has its area. -/
def changed (g name : String) (a : K) (r : Row K) : Row K :=
  (r.set name (some (a / r.area))).set g (((r.set name (some (a / r.area))).frac g).map fun x => x - a / r.area)

theorem findIdx_id (rows : List (Row K)) (hn : (rows.map Row.id).Nodup) (i : ℕ) (r : Row K) (h : rows[i]? = some r) :
    rows.findIdx? (fun x => x.id == r.id) = some i := by
  rw [List.findIdx?_eq_some_iff_getElem]
  obtain ⟨hi, he⟩ := List.getElem?_eq_some_iff.1 h
  refine ⟨hi, by simp [he], fun j hj => ?_⟩
  intro hh
  have hh := eq_of_beq hh
  have := (List.nodup_iff_injective_getElem.1 hn) (a₁ := ⟨j, by simpa using by omega⟩) (a₂ := ⟨i, by simpa using hi⟩)
    (by simp [hh, he])
  rw [Fin.mk.injEq] at this
  omega

theorem set_eq_map (rows : List (Row K)) (hn : (rows.map Row.id).Nodup) (i : ℕ) (r : Row K) (h : rows[i]? = some r)
    (f : Row K → Row K) : rows.set i (f r) = rows.map fun x => if x.id = r.id then f x else x := by
  obtain ⟨hi, he⟩ := List.getElem?_eq_some_iff.1 h
  apply List.ext_getElem
  · simp
  · intro j h1 h2
    rw [List.getElem_set, List.getElem_map]
    by_cases hij : i = j
    · subst hij
      rw [if_pos rfl, he, if_pos rfl]
    · rw [if_neg hij, if_neg]
      intro hh
      have hj : j < rows.length := by simpa using h1
      have := (List.nodup_iff_injective_getElem.1 hn) (a₁ := ⟨j, by simpa using hj⟩) (a₂ := ⟨i, by simpa using hi⟩)
        (by simp [hh, he])
      rw [Fin.mk.injEq] at this
      omega

/-- Room for a cover in a row. -/
def Room (g : String) (a : K) (r : Row K) : Prop :=
  r.area ≠ 0 ∧ 0 ≤ a / r.area ∧ a / r.area ≤ 1 ∧ ∃ x, r.frac g = some x ∧ a / r.area ≤ x

theorem setOne_ok (g name : String) (hne : g ≠ name) (rows : List (Row K)) (hn : (rows.map Row.id).Nodup) (ch : ℤ × K)
    (r : Row K) (hr : r ∈ rows) (hid : r.id = ch.1) (room : Room g ch.2 r) :
    setOne g name rows ch = .ok (rows.map fun x => if x.id = ch.1 then changed g name ch.2 x else x) := by
  obtain ⟨i, hi⟩ := List.mem_iff_getElem?.1 hr
  obtain ⟨h0, h1, h2, x, hx, hle⟩ := room
  have hg : (r.set name (some (ch.2 / r.area))).frac g = some x := by
    unfold Row.set
    simp only
    rw [Function.update_of_ne hne, hx]
  have hix := findIdx_id rows hn i r hi
  rw [hid] at hix
  rw [← hid, ← set_eq_map rows hn i r hi (changed g name ch.2)]
  have hnl : ¬ (x - ch.2 / r.area < -(1 / 10 ^ 8)) := by
    have : (0 : K) < 1 / 10 ^ 8 := by positivity
    intro hh; linarith
  simp only [setOne, hix, hi, if_neg h0, if_pos (show 0 ≤ ch.2 / r.area ∧ ch.2 / r.area ≤ 1 from ⟨h1, h2⟩), hg, Option.map_some,
    if_neg hnl, changed]

theorem changed_id (g name : String) (a : K) (r : Row K) : (changed g name a r).id = r.id := rfl

theorem setAll_ok (g name : String) (hne : g ≠ name) (ch : List (ℤ × K)) (hd : (ch.map Prod.fst).Nodup) (rows : List (Row K))
    (hn : (rows.map Row.id).Nodup) (hk : ∀ e ∈ ch, ∃ r ∈ rows, r.id = e.1)
    (room : ∀ e ∈ ch, ∀ r ∈ rows, r.id = e.1 → Room g e.2 r) :
    ch.foldlM (setOne g name) rows =
      .ok (rows.map fun r => if r.id ∈ ch.map Prod.fst then changed g name (get ch r.id) r else r) := by
  induction ch generalizing rows with
  | nil =>
    simp only [List.foldlM_nil, List.map_nil, List.not_mem_nil, if_false, List.map_id']
    rfl
  | cons e ch ih =>
    rw [List.map_cons, List.nodup_cons] at hd
    obtain ⟨r, hr, hid⟩ := hk e (by simp)
    have h1 := setOne_ok g name hne rows hn e r hr hid (room e (by simp) r hr hid)
    rw [List.foldlM_cons, h1]
    have hids : (rows.map fun x => if x.id = e.1 then changed g name e.2 x else x).map Row.id = rows.map Row.id := by
      rw [List.map_map]
      apply List.map_congr_left
      intro x _
      simp only [Function.comp]
      split <;> rfl
    have hstep := ih hd.2 (rows.map fun x => if x.id = e.1 then changed g name e.2 x else x) (by rw [hids]; exact hn)
      (fun e' he' => by
        obtain ⟨r', hr', hid'⟩ := hk e' (List.mem_cons_of_mem _ he')
        refine ⟨_, List.mem_map_of_mem hr', ?_⟩
        split
        · exact hid'
        · exact hid')
      (fun e' he' r' hr' hid' => by
        obtain ⟨x, hx, rfl⟩ := List.mem_map.1 hr'
        have hxid : x.id = e'.1 := by
          rw [← hid']; split <;> rfl
        have hxe : x.id ≠ e.1 := by
          rw [hxid]
          intro hh
          exact hd.1 (hh ▸ List.mem_map_of_mem he')
        rw [if_neg hxe]
        exact room e' (List.mem_cons_of_mem _ he') x hx hxid)
    refine Eq.trans hstep ?_
    congr 1
    rw [List.map_map]
    apply List.map_congr_left
    intro x _
    simp only [Function.comp]
    by_cases hx : x.id = e.1
    · rw [if_pos hx]
      have hnot : x.id ∉ ch.map Prod.fst := by rw [hx]; exact hd.1
      rw [changed_id, if_neg hnot, if_pos (by rw [hx]; simp), get_cons, if_pos hx.symm, get_absent _ _ hnot, add_zero]
    · rw [if_neg hx, get_cons, if_neg (fun h : e.1 = x.id => hx h.symm), zero_add]
      have : (x.id ∈ (e :: ch).map Prod.fst) ↔ x.id ∈ ch.map Prod.fst := by
        rw [List.map_cons, List.mem_cons]
        exact ⟨fun h => h.resolve_left hx, Or.inr⟩
      simp only [this]

/-! ## The cover that takes the rest -/

theorem isGeneric_iff (c : String × String) : isGeneric c = true ↔ Soil c := by
  unfold isGeneric aliases Soil
  rw [Bool.or_eq_true, List.contains_iff_mem, List.contains_iff_mem]

theorem generic_rest {covers : List (String × String)} {g : String} (h : Rest covers g) : generic covers = g := by
  obtain ⟨b, c, a, rfl, hc, rfl, hb⟩ := h
  unfold generic
  have : (b ++ c :: a).find? isGeneric = some c := by
    rw [List.find?_append]
    rw [List.find?_eq_none.2 (fun x hx => by rw [isGeneric_iff]; exact hb x hx)]
    rw [Option.none_or, List.find?_cons_of_pos ((isGeneric_iff c).2 hc)]
  rw [this]

theorem rest_append {covers : List (String × String)} {g : String} (h : Rest covers g) (l : List (String × String)) :
    Rest (covers ++ l) g := by
  obtain ⟨b, c, a, rfl, hc, rfl, hb⟩ := h
  exact ⟨b, c, a ++ l, by simp, hc, rfl, hb⟩

theorem rest_mem {covers : List (String × String)} {g : String} (h : Rest covers g) : ∃ c ∈ covers, c.1 = g ∧ Soil c := by
  obtain ⟨b, c, a, rfl, hc, rfl, hb⟩ := h
  exact ⟨c, by simp, rfl, hc⟩

theorem foldl_set (covers : List (String × String)) (r : Row K) (n : String) :
    (covers.foldl (fun r c => r.set c.1 (some 0)) r).frac n = if n ∈ covers.map Prod.fst then some 0 else r.frac n := by
  induction covers generalizing r with
  | nil => simp
  | cons c covers ih =>
    rw [List.foldl_cons, ih, List.map_cons]
    by_cases hn : n ∈ covers.map Prod.fst
    · rw [if_pos hn, if_pos (List.mem_cons_of_mem _ hn)]
    · rw [if_neg hn]
      by_cases hc : n = c.1
      · rw [if_pos (by rw [hc]; simp), hc]; simp [Row.set]
      · rw [if_neg (by rw [List.mem_cons]; exact not_or.2 ⟨hc, hn⟩)]
        simp [Row.set, Function.update_of_ne hc]

/-- **C83 (start)**: `initialize_land_cover_fractions` gives the whole unit to the cover that takes the rest. -/
theorem c83_start (t : Table K) (g : String) (h : Rest t.covers g) : Started (initFractions t) g := by
  intro r hr c hc
  obtain ⟨r0, hr0, rfl⟩ := List.mem_map.1 hr
  rw [generic_rest h]
  have hc' : c ∈ t.covers := hc
  by_cases hg : c.1 = g
  · rw [if_pos hg, hg]; simp [Row.set]
  · rw [if_neg hg]
    simp only [Row.set]
    rw [Function.update_of_ne hg]
    exact (foldl_set t.covers r0 c.1).trans (if_pos (List.mem_map_of_mem hc'))

end HB.UnitTable
