import Verif.Props.UnitTable

/-! # C83: land covers from a map -/

namespace HB.UnitTable

open HB.Spec.UnitTable

set_option linter.unusedSectionVars false

variable {K : Type} [Field K] [LinearOrder K] [IsStrictOrderedRing K]

section
variable (px : K) (cells : List (ℤ × ℤ)) (mapping : List (ℤ × String)) (t : Table K) (g : String)

def W (u : ℤ) (n : String) : K := (cellsWith cells mapping u n : K) / (cellsOf cells u : K)

def ty (t : Table K) (n : String) : String := ((t.covers.find? fun c => c.1 == n).map Prod.snd).getD (coverType n)

theorem find_cover {covers : List (String × String)} (hn : (covers.map Prod.fst).Nodup) {c : String × String} (hc : c ∈ covers) :
    covers.find? (fun x => x.1 == c.1) = some c := by
  induction covers with
  | nil => cases hc
  | cons a l ih =>
    rw [List.map_cons, List.nodup_cons] at hn
    rcases List.mem_cons.1 hc with rfl | h
    · rw [List.find?_cons_of_pos (by simp)]
    · rw [List.find?_cons_of_neg, ih hn.2 h]
      intro hh
      exact hn.1 ((eq_of_beq hh) ▸ List.mem_map_of_mem h)

/-- The state of the loop over the covers. -/
structure Inv (P : List String) (t' : Table K) : Prop where
  pre : ∃ l, t'.covers = t.covers ++ l ∧ ∀ c ∈ l, c.1 ∈ P ∧ c.2 = coverType c.1
  names : (t'.covers.map Prod.fst).Nodup
  rests : t'.rows.map rest = t.rows.map rest
  other : ∀ r ∈ t'.rows, ∀ c ∈ t'.covers, c.1 ≠ g →
    r.frac c.1 = some (if c.1 ∈ P ∧ ¬ Soil (c.1, ty t c.1) then W (K := K) cells mapping r.id c.1 else 0)
  gen : ∀ r ∈ t'.rows, r.frac g = some (1 - (P.map fun n => if Soil (n, ty t n) then 0 else W (K := K) cells mapping r.id n).sum)
  has : ∀ n ∈ P, ∀ cl u, u ≠ 0 → (cl, n) ∈ mapping → (u, cl) ∈ cells → n ∈ t'.covers.map Prod.fst

variable {px cells mapping t g}

theorem ty_old (hn : (t.covers.map Prod.fst).Nodup) {c : String × String} (hc : c ∈ t.covers) : ty t c.1 = c.2 := by
  unfold ty; rw [find_cover hn hc]; rfl

theorem ty_new {n : String} (h : n ∉ t.covers.map Prod.fst) : ty t n = coverType n := by
  unfold ty
  rw [List.find?_eq_none.2]
  · rfl
  · intro x hx hh
    exact h ((eq_of_beq hh) ▸ List.mem_map_of_mem hx)

theorem ty_any {P : List String} {t' : Table K} (hpre : ∃ l, t'.covers = t.covers ++ l ∧ ∀ c ∈ l, c.1 ∈ P ∧ c.2 = coverType c.1)
    (hn : (t'.covers.map Prod.fst).Nodup) {c : String × String} (hc : c ∈ t'.covers) : ty t c.1 = c.2 := by
  obtain ⟨l, hl, hl'⟩ := hpre
  rw [hl, List.map_append, List.nodup_append] at hn
  rw [hl, List.mem_append] at hc
  rcases hc with hc | hc
  · exact ty_old hn.1 hc
  · rw [(hl' c hc).2, ty_new]
    intro hh
    exact hn.2.2 _ hh _ (List.mem_map_of_mem hc) rfl

theorem rows_of {rows rows' : List (Row K)} (h : rows'.map rest = rows.map rest) :
    rows'.map Row.id = rows.map Row.id ∧ ∀ r ∈ rows', ∃ r0 ∈ rows, rest r = rest r0 := by
  constructor
  · have := congrArg (List.map Prod.fst) h
    simpa [List.map_map, Function.comp_def, rest] using this
  · intro r hr
    have : rest r ∈ rows.map rest := h ▸ List.mem_map_of_mem hr
    obtain ⟨r0, h0, he⟩ := List.mem_map.1 this
    exact ⟨r0, h0, he.symm⟩

theorem rest_id {r r0 : Row K} (h : rest r = rest r0) : r.id = r0.id ∧ r.area = r0.area :=
  ⟨congrArg Prod.fst h, congrArg (fun x => x.2.1) h⟩

theorem W_nonneg (u : ℤ) (n : String) : 0 ≤ W (K := K) cells mapping u n := by unfold W; positivity

theorem sum_W_le (hf : (mapping.map Prod.fst).Nodup) (u : ℤ) (P : List String) (hP : P.Nodup) (q : String → Prop) [DecidablePred q] :
    (P.map fun n => if q n then 0 else W (K := K) cells mapping u n).sum ≤ 1 := by
  have h1 : (P.map fun n => if q n then 0 else W (K := K) cells mapping u n).sum ≤
      (P.map fun n => W (K := K) cells mapping u n).sum := by
    apply List.sum_le_sum
    intro n _
    split
    · exact W_nonneg u n
    · exact le_refl _
  refine h1.trans ?_
  have h2 : (P.map fun n => W (K := K) cells mapping u n).sum =
      ((P.map fun n => cellsWith cells mapping u n).sum : ℕ) / (cellsOf cells u : K) := by
    clear h1 hP
    induction P with
    | nil => simp
    | cons p P ih => rw [List.map_cons, List.sum_cons, ih, List.map_cons, List.sum_cons, Nat.cast_add, add_div]; rfl
  rw [h2]
  apply div_le_one_of_le₀
  · exact_mod_cast sum_with_le cells mapping hf u P hP
  · positivity

/-- The facts once the cover is registered. -/
theorem step_set (hm : OnMap px cells mapping t) (hg : Rest t.covers g) {P : List String} {name : String} (hP : (P ++ [name]).Nodup)
    {t1 : Table K}
    (pre : ∃ l, t1.covers = t.covers ++ l ∧ ∀ c ∈ l, c.1 ∈ P ++ [name] ∧ c.2 = coverType c.1)
    (names : (t1.covers.map Prod.fst).Nodup) (rests : t1.rows.map rest = t.rows.map rest)
    (other : ∀ r ∈ t1.rows, ∀ c ∈ t1.covers, c.1 ≠ g →
      r.frac c.1 = some (if c.1 ∈ P ∧ ¬ Soil (c.1, ty t c.1) then W (K := K) cells mapping r.id c.1 else 0))
    (gen : ∀ r ∈ t1.rows, r.frac g =
      some (1 - (P.map fun n => if Soil (n, ty t n) then 0 else W (K := K) cells mapping r.id n).sum))
    (has : ∀ n ∈ P ++ [name], ∀ cl u, u ≠ 0 → (cl, n) ∈ mapping → (u, cl) ∈ cells → n ∈ t1.covers.map Prod.fst)
    (hname : name ∈ t1.covers.map Prod.fst) :
    ∃ t', (if isGeneric (name, ((t1.covers.find? fun c => c.1 == name).map Prod.snd).getD "") then .ok t1
      else setFrom name t1 (coverAreas px cells mapping name)) = Except.ok t' ∧ Inv cells mapping t g (P ++ [name]) t' := by
  have hnP : name ∉ P := by
    intro h
    exact (List.nodup_append.1 hP).2.2 _ h _ (by simp) rfl
  obtain ⟨c0, hc0, hc0n⟩ := List.mem_map.1 hname
  have hty : ((t1.covers.find? fun c => c.1 == name).map Prod.snd).getD "" = ty t name := by
    rw [← hc0n, find_cover names hc0, ty_any pre names hc0]; rfl
  rw [hty]
  have hgs : Soil (g, ty t g) := by
    obtain ⟨c, hc, h, hs'⟩ := rest_mem hg
    rw [← h, ty_old hm.names hc]; exact hs'
  by_cases hs : Soil (name, ty t name)
  · rw [if_pos ((isGeneric_iff _).2 hs)]
    refine ⟨t1, rfl, pre, names, rests, ?_, ?_, has⟩
    · intro r hr c hc hcg
      rw [other r hr c hc hcg]
      congr 1
      by_cases hcn : c.1 = name
      · rw [if_neg (fun h => hnP (hcn ▸ h.1)), if_neg]
        rw [hcn]; exact fun h => h.2 hs
      · have : (c.1 ∈ P ++ [name]) ↔ c.1 ∈ P := by simp [hcn]
        simp only [this]
    · intro r hr
      rw [gen r hr, List.map_append, List.sum_append]
      simp [hs]
  · rw [if_neg (fun h => hs ((isGeneric_iff _).1 h))]
    have hgn : g ≠ name := fun h => hs (h ▸ hgs)
    obtain ⟨l, hl, _⟩ := pre
    have hgen : generic t1.covers = g := by rw [hl]; exact generic_rest (rest_append hg l)
    obtain ⟨d1, d2, d3⟩ := coverAreas_spec px cells mapping hm.classes name
    obtain ⟨hids, hrow⟩ := rows_of rests
    have harea : ∀ r ∈ t1.rows, r.id ≠ 0 ∧ r.area = px * (cellsOf cells r.id : K) := by
      intro r hr
      obtain ⟨r0, h0, he⟩ := hrow r hr
      obtain ⟨e1, e2⟩ := rest_id he
      rw [e1, e2]
      exact ⟨hm.numbered r0 h0, hm.areas r0 h0⟩
    have hfrac : ∀ r ∈ t1.rows, get (coverAreas px cells mapping name) r.id / r.area = W cells mapping r.id name := by
      intro r hr
      obtain ⟨h0, ha⟩ := harea r hr
      rw [d3 r.id h0, ha, W, mul_comm (cellsWith cells mapping r.id name : K), mul_div_mul_left _ _ hm.pixel.ne']
    have hsum : ∀ u, (P.map fun n => if Soil (n, ty t n) then 0 else W (K := K) cells mapping u n).sum +
        W cells mapping u name ≤ 1 := by
      intro u
      have := sum_W_le (K := K) (cells := cells) hm.classes u (P ++ [name]) hP (fun n => Soil (n, ty t n))
      rw [List.map_append, List.sum_append] at this
      simpa [hs] using this
    have hset := setAll_ok g name hgn (coverAreas px cells mapping name) d1 t1.rows (by rw [hids]; exact hm.ids)
      (by
        intro e he
        obtain ⟨h0, cl, _, hc⟩ := (d2 e.1).1 (List.mem_map_of_mem he)
        obtain ⟨r, hr, hrid⟩ := hm.known _ hc h0
        have : r.id ∈ t1.rows.map Row.id := hids ▸ List.mem_map_of_mem hr
        obtain ⟨r1, hr1, h1⟩ := List.mem_map.1 this
        exact ⟨r1, hr1, h1.trans hrid⟩)
      (by
        intro e he r hr hid
        have he2 : e.2 = get (coverAreas px cells mapping name) r.id := by rw [hid, get_mem _ d1 e he]
        obtain ⟨h0, cl, hmem, hc⟩ := (d2 e.1).1 (List.mem_map_of_mem he)
        have hpos : 0 < cellsOf cells r.id := by
          unfold cellsOf
          exact List.countP_pos_iff.2 ⟨_, hc, by simp [hid]⟩
        obtain ⟨_, ha⟩ := harea r hr
        have hx := gen r hr
        have hnn : 0 ≤ (P.map fun n => if Soil (n, ty t n) then 0 else W (K := K) cells mapping r.id n).sum := by
          apply List.sum_nonneg
          intro x hx
          obtain ⟨n, _, rfl⟩ := List.mem_map.1 hx
          split
          · exact le_refl _
          · exact W_nonneg _ _
        have hs' := hsum r.id
        refine ⟨?_, ?_, ?_, _, hx, ?_⟩
        · rw [ha]
          have : (0 : K) < cellsOf cells r.id := by exact_mod_cast hpos
          exact (mul_pos hm.pixel this).ne'
        · rw [he2, hfrac r hr]; exact W_nonneg _ _
        · rw [he2, hfrac r hr]; linarith
        · rw [he2, hfrac r hr]; linarith)
    unfold setFrom
    rw [hgen, hset]
    refine ⟨_, rfl, ⟨l, hl, ?_⟩, names, ?_, ?_, ?_, has⟩
    · assumption
    · rw [← rests]
      simp only [List.map_map]
      apply List.map_congr_left
      intro r _
      simp only [Function.comp]
      split <;> rfl
    · intro r' hr' c hc hcg
      obtain ⟨r, hr, rfl⟩ := List.mem_map.1 hr'
      have hc : c ∈ t1.covers := hc
      have hold := other r hr c hc hcg
      by_cases hcn : c.1 = name
      · rw [hcn, if_pos (show name ∈ P ++ [name] ∧ ¬ Soil (name, ty t name) from ⟨by simp, hs⟩)]
        by_cases hin : r.id ∈ (coverAreas px cells mapping name).map Prod.fst
        · rw [if_pos hin]
          show (changed g name _ r).frac name = some (W cells mapping r.id name)
          rw [← hfrac r hr]
          simp only [changed, Row.set]
          rw [Function.update_of_ne hgn.symm, Function.update_self]
        · rw [if_neg hin]
          rw [← hcn, hold, if_neg (fun h => hnP (hcn ▸ h.1))]
          congr 1
          rw [W, hcn, with_zero, Nat.cast_zero, zero_div]
          rintro ⟨cl, h1, h2⟩
          exact hin ((d2 r.id).2 ⟨(harea r hr).1, cl, h1, h2⟩)
      · have hP' : (c.1 ∈ P ++ [name]) ↔ c.1 ∈ P := by simp [hcn]
        simp only [hP']
        split
        · show (changed g name _ r).frac c.1 = some (if c.1 ∈ P ∧ ¬ Soil (c.1, ty t c.1) then W cells mapping r.id c.1 else 0)
          rw [← hold]
          simp only [changed, Row.set]
          rw [Function.update_of_ne hcg, Function.update_of_ne hcn]
        · exact hold
    · intro r' hr'
      obtain ⟨r, hr, rfl⟩ := List.mem_map.1 hr'
      have hold := gen r hr
      rw [List.map_append, List.sum_append]
      simp only [List.map_cons, List.map_nil, List.sum_cons, List.sum_nil, add_zero, if_neg hs]
      split
      · show (changed g name _ r).frac g = some (1 - ((P.map fun n => if Soil (n, ty t n) then 0 else W cells mapping r.id n).sum +
          W cells mapping r.id name))
        rw [← hfrac r hr]
        simp only [changed, Row.set]
        rw [Function.update_self, Function.update_of_ne hgn, hold]
        simp only [Option.map_some, Option.some.injEq]
        ring
      · next hin =>
        rw [hold]
        have : W (K := K) cells mapping r.id name = 0 := by
          rw [W, with_zero, Nat.cast_zero, zero_div]
          rintro ⟨cl, h1, h2⟩
          exact hin ((d2 r.id).2 ⟨(harea r hr).1, cl, h1, h2⟩)
        rw [this, add_zero]

theorem step_ok (hm : OnMap px cells mapping t) (hg : Rest t.covers g) {P : List String} {name : String} (hP : (P ++ [name]).Nodup)
    {t1 : Table K} (inv : Inv cells mapping t g P t1) :
    ∃ t', applyOne px cells mapping t1 name = .ok t' ∧ Inv cells mapping t g (P ++ [name]) t' := by
  have hnP : name ∉ P := by
    intro h
    exact (List.nodup_append.1 hP).2.2 _ h _ (by simp) rfl
  obtain ⟨d1, d2, d3⟩ := coverAreas_spec px cells mapping hm.classes name
  obtain ⟨l, hl, hl'⟩ := inv.pre
  have hgin : g ∈ t1.covers.map Prod.fst := by
    obtain ⟨c, hc, h, _⟩ := rest_mem hg
    rw [hl, List.map_append, List.mem_append]
    exact .inl (h ▸ List.mem_map_of_mem hc)
  unfold applyOne
  simp only
  by_cases hz : coverAreas px cells mapping name = []
  · rw [if_pos hz]
    rw [hz] at d2
    have hno : ∀ u, u ≠ 0 → ¬ ∃ cl, (cl, name) ∈ mapping ∧ (u, cl) ∈ cells := by
      intro u hu h
      have := (d2 u).2 ⟨hu, h⟩
      simp at this
    have hW : ∀ r ∈ t1.rows, W (K := K) cells mapping r.id name = 0 := by
      intro r hr
      obtain ⟨r0, h0, he⟩ := (rows_of inv.rests).2 r hr
      rw [W, with_zero _ _ _ _ (hno r.id (by rw [(rest_id he).1]; exact hm.numbered r0 h0)), Nat.cast_zero, zero_div]
    refine ⟨t1, rfl, ⟨l, hl, fun c hc => ⟨List.mem_append_left _ (hl' c hc).1, (hl' c hc).2⟩⟩, inv.names, inv.rests, ?_, ?_, ?_⟩
    · intro r hr c hc hcg
      rw [inv.other r hr c hc hcg]
      congr 1
      by_cases hcn : c.1 = name
      · rw [if_neg (fun h => hnP (hcn ▸ h.1)), hcn, hW r hr, ite_self]
      · have : (c.1 ∈ P ++ [name]) ↔ c.1 ∈ P := by simp [hcn]
        simp only [this]
    · intro r hr
      rw [inv.gen r hr, List.map_append, List.sum_append]
      simp [hW r hr]
    · intro n hn cl u hu h1 h2
      rcases List.mem_append.1 hn with h | h
      · exact inv.has n h cl u hu h1 h2
      · rw [List.mem_singleton] at h
        subst h
        exact absurd ⟨cl, h1, h2⟩ (hno u hu)
  · rw [if_neg hz]
    by_cases hin : name ∈ t1.covers.map Prod.fst
    · have hany : t1.covers.any (fun c => c.1 == name) = true := by
        obtain ⟨c, hc, h⟩ := List.mem_map.1 hin
        exact List.any_eq_true.2 ⟨c, hc, beq_iff_eq.2 h⟩
      rw [if_pos hany]
      refine step_set hm hg hP ⟨l, hl, fun c hc => ⟨List.mem_append_left _ (hl' c hc).1, (hl' c hc).2⟩⟩ inv.names inv.rests
        inv.other inv.gen ?_ hin
      intro n hn cl u hu h1 h2
      rcases List.mem_append.1 hn with h | h
      · exact inv.has n h cl u hu h1 h2
      · rw [List.mem_singleton] at h
        rw [h]; exact hin
    · have hany : ¬ t1.covers.any (fun c => c.1 == name) = true := by
        intro h
        obtain ⟨c, hc, h⟩ := List.any_eq_true.1 h
        exact hin ((eq_of_beq h) ▸ List.mem_map_of_mem hc)
      rw [if_neg hany]
      unfold addCover
      rw [if_neg hany]
      have hgn : g ≠ name := fun h => hin (h ▸ hgin)
      refine step_set (t1 := ⟨t1.covers ++ [(name, coverType name)], t1.rows.map fun r => r.set name (some 0)⟩) hm hg hP
        ⟨l ++ [(name, coverType name)], by rw [hl, List.append_assoc], ?_⟩ ?_ ?_ ?_ ?_ ?_ ?_
      · intro c hc
        rcases List.mem_append.1 hc with h | h
        · exact ⟨List.mem_append_left _ (hl' c h).1, (hl' c h).2⟩
        · rw [List.mem_singleton] at h
          subst h
          simp
      · rw [List.map_append]
        refine List.nodup_append.2 ⟨inv.names, by simp, ?_⟩
        intro x hx y hy hxy
        simp only [List.map_cons, List.map_nil, List.mem_singleton] at hy
        subst hy; subst hxy
        exact hin hx
      · rw [← inv.rests]
        simp only [List.map_map]
        apply List.map_congr_left
        intro r _
        rfl
      · intro r' hr' c hc hcg
        obtain ⟨r, hr, rfl⟩ := List.mem_map.1 hr'
        have hid : (r.set name (some 0)).id = r.id := rfl
        rw [hid]
        rcases List.mem_append.1 hc with h | h
        · have hcn : c.1 ≠ name := fun hh => hin (hh ▸ List.mem_map_of_mem h)
          rw [← inv.other r hr c h hcg]
          simp only [Row.set]
          rw [Function.update_of_ne hcn]
        · rw [List.mem_singleton] at h
          subst h
          rw [if_neg (fun h => hnP h.1)]
          simp [Row.set]
      · intro r' hr'
        obtain ⟨r, hr, rfl⟩ := List.mem_map.1 hr'
        have hid : (r.set name (some 0)).id = r.id := rfl
        rw [hid, ← inv.gen r hr]
        simp only [Row.set]
        rw [Function.update_of_ne hgn]
      · intro n hn cl u hu h1 h2
        rw [List.map_append, List.mem_append]
        rcases List.mem_append.1 hn with h | h
        · exact .inl (inv.has n h cl u hu h1 h2)
        · rw [List.mem_singleton] at h
          right; simp [h]
      · simp

theorem loop_ok (hm : OnMap px cells mapping t) (hg : Rest t.covers g) (names : List String) (P : List String)
    (hP : (P ++ names).Nodup) (t1 : Table K) (inv : Inv cells mapping t g P t1) :
    ∃ t', names.foldlM (applyOne px cells mapping) t1 = .ok t' ∧ Inv cells mapping t g (P ++ names) t' := by
  induction names generalizing P t1 with
  | nil => exact ⟨t1, rfl, by simpa using inv⟩
  | cons n names ih =>
    rw [List.append_cons] at hP
    obtain ⟨t2, h2, inv2⟩ := step_ok hm hg (List.nodup_append.1 hP).1 inv
    obtain ⟨t3, h3, inv3⟩ := ih (P ++ [n]) hP t2 inv2
    refine ⟨t3, ?_, by rw [List.append_cons]; exact inv3⟩
    rw [List.foldlM_cons, h2]
    exact h3

theorem mem_coverNames (n : String) : n ∈ coverNames mapping ↔ ∃ cl, (cl, n) ∈ mapping := by
  unfold coverNames
  rw [List.mem_insertionSort, List.mem_dedup, List.mem_map]
  constructor
  · rintro ⟨m, hm, rfl⟩; exact ⟨m.1, hm⟩
  · rintro ⟨cl, h⟩; exact ⟨_, h, rfl⟩

/-- **C83 (map)**: from a table where everything belongs to the soil cover, a map of classes is always accepted; the units keep
their ids, areas and properties; every cover of the mapping found in a unit is registered; the fraction of every cover that is not a
soil cover is the share of the cells of the unit that have one of its classes; the other soil covers keep zero; the
fractions are between 0 and 1 and add up to 1. -/
theorem c83_map (px : K) (cells : List (ℤ × ℤ)) (mapping : List (ℤ × String)) (t : Table K) (g : String)
    (hm : OnMap px cells mapping t) (hg : Rest t.covers g) (hs : Started t g) :
    ∃ t', extract px cells mapping t = .ok t' ∧ t'.rows.map rest = t.rows.map rest ∧ t.covers <+: t'.covers ∧
      (∀ n cl u, u ≠ 0 → (cl, n) ∈ mapping → (u, cl) ∈ cells → n ∈ t'.covers.map Prod.fst) ∧
      ∀ r ∈ t'.rows, Whole t'.covers r ∧ ∀ c ∈ t'.covers,
        (¬ Soil c → r.frac c.1 = some ((cellsWith cells mapping r.id c.1 : K) / (cellsOf cells r.id : K))) ∧
        (Soil c → c.1 ≠ g → r.frac c.1 = some 0) := by
  have hnd : (coverNames mapping).Nodup := (List.perm_insertionSort _ _).nodup_iff.2 (List.nodup_dedup _)
  have inv0 : Inv cells mapping t g [] t := by
    refine ⟨⟨[], by simp, by simp⟩, hm.names, rfl, ?_, ?_, by simp⟩
    · intro r hr c hc hcg
      rw [hs r hr c hc, if_neg hcg]; simp
    · intro r hr
      obtain ⟨c, hc, h, _⟩ := rest_mem hg
      have := hs r hr c hc
      rw [if_pos h, h] at this
      rw [this]; simp
  obtain ⟨t', ht', inv⟩ := loop_ok hm hg (coverNames mapping) [] (by simpa using hnd) t inv0
  rw [List.nil_append] at inv
  obtain ⟨l, hl, _⟩ := inv.pre
  have hgs : Soil (g, ty t g) := by
    obtain ⟨c, hc, h, hs'⟩ := rest_mem hg
    rw [← h, ty_old hm.names hc]; exact hs'
  have hty : ∀ c ∈ t'.covers, (c.1, ty t c.1) = c := by
    intro c hc
    rw [ty_any inv.pre inv.names hc]
  have hzero : ∀ (u : ℤ) (n : String), n ∉ coverNames mapping → W (K := K) cells mapping u n = 0 := by
    intro u n hn
    rw [W, with_zero, Nat.cast_zero, zero_div]
    rintro ⟨cl, h1, _⟩
    exact hn ((mem_coverNames n).2 ⟨cl, h1⟩)
  have hval : ∀ r ∈ t'.rows, ∀ c ∈ t'.covers, c.1 ≠ g → r.frac c.1 = some (if Soil c then 0 else W cells mapping r.id c.1) := by
    intro r hr c hc hcg
    rw [inv.other r hr c hc hcg, hty c hc]
    congr 1
    by_cases h : Soil c
    · rw [if_pos h, if_neg (fun hh => hh.2 h)]
    · rw [if_neg h]
      by_cases hcn : c.1 ∈ coverNames mapping
      · rw [if_pos ⟨hcn, h⟩]
      · rw [if_neg (fun hh => hcn hh.1), hzero r.id c.1 hcn]
  refine ⟨t', ht', inv.rests, ⟨l, hl.symm⟩, fun n cl u hu h1 h2 => inv.has n ((mem_coverNames n).2 ⟨cl, h1⟩) cl u hu h1 h2, ?_⟩
  intro r hr
  have hr0 : r.id ≠ 0 := by
    obtain ⟨r0, h0, he⟩ := (rows_of inv.rests).2 r hr
    rw [(rest_id he).1]; exact hm.numbered r0 h0
  have hsum := sum_W_le (K := K) (cells := cells) hm.classes r.id (coverNames mapping) hnd (fun n => Soil (n, ty t n))
  have hnn : 0 ≤ ((coverNames mapping).map fun n => if Soil (n, ty t n) then 0 else W (K := K) cells mapping r.id n).sum := by
    apply List.sum_nonneg
    intro x hx
    obtain ⟨n, _, rfl⟩ := List.mem_map.1 hx
    split
    · exact le_refl _
    · exact W_nonneg _ _
  refine ⟨⟨?_, ?_⟩, ?_⟩
  · intro c hc
    by_cases hcg : c.1 = g
    · rw [hcg]
      exact ⟨_, inv.gen r hr, by linarith, by linarith⟩
    · refine ⟨_, hval r hr c hc hcg, ?_, ?_⟩
      · split
        · exact le_refl _
        · exact W_nonneg _ _
      · split
        · exact zero_le_one
        · have := sum_W_le (K := K) (cells := cells) hm.classes r.id [c.1] (by simp) (fun _ => False)
          simpa using this
  · have hconv : (t'.covers.map fun c => (r.frac c.1).getD 0) = (t'.covers.map Prod.fst).map fun n => (r.frac n).getD 0 := by
      rw [List.map_map]; rfl
    rw [hconv, ← List.sum_toFinset _ inv.names]
    have hgin : g ∈ (t'.covers.map Prod.fst).toFinset := by
      obtain ⟨c, hc, h, _⟩ := rest_mem hg
      rw [List.mem_toFinset, hl, List.map_append, List.mem_append]
      exact .inl (h ▸ List.mem_map_of_mem hc)
    rw [← Finset.add_sum_erase _ _ hgin, inv.gen r hr, ← List.sum_toFinset _ hnd]
    have : ∑ n ∈ (coverNames mapping).toFinset, (if Soil (n, ty t n) then 0 else W (K := K) cells mapping r.id n) =
        ∑ n ∈ (t'.covers.map Prod.fst).toFinset.erase g, (r.frac n).getD 0 := by
      have hv : ∀ n ∈ (t'.covers.map Prod.fst).toFinset.erase g,
          (r.frac n).getD 0 = if Soil (n, ty t n) then 0 else W cells mapping r.id n := by
        intro n hn
        rw [Finset.mem_erase, List.mem_toFinset] at hn
        obtain ⟨c, hc, rfl⟩ := List.mem_map.1 hn.2
        rw [hval r hr c hc hn.1, hty c hc]; rfl
      rw [Finset.sum_congr rfl hv]
      apply Finset.sum_congr_of_eq_on_inter
      · intro n hn hnot
        by_cases h : Soil (n, ty t n)
        · rw [if_pos h]
        · rw [if_neg h, W, with_zero, Nat.cast_zero, zero_div]
          rintro ⟨cl, h1, h2⟩
          apply hnot
          rw [Finset.mem_erase, List.mem_toFinset]
          refine ⟨fun hh => h (hh ▸ hgs), inv.has n (List.mem_toFinset.1 hn) cl r.id hr0 h1 h2⟩
      · intro n _ hnot
        rw [List.mem_toFinset] at hnot
        rw [hzero r.id n hnot, ite_self]
      · intro n _ _; rfl
    rw [this]
    simp
  · intro c hc
    constructor
    · intro h
      have hcg : c.1 ≠ g := by
        intro hh
        apply h
        rw [← hty c hc, hh]; exact hgs
      rw [hval r hr c hc hcg, if_neg h]; rfl
    · intro h hcg
      rw [hval r hr c hc hcg, if_pos h]

end
end HB.UnitTable
