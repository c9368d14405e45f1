import Verif.Props.UnitTable3
import Mathlib.Data.Rat.Defs
import Mathlib.Algebra.Order.Field.Rat

/-! # C83: loading, initialising one cover, examples and limits -/

namespace HB.UnitTable

open HB.Spec.UnitTable HB.Basin

set_option linter.unusedSectionVars false

variable {K : Type} [Field K] [LinearOrder K] [IsStrictOrderedRing K]

theorem find_area {areas : List (String × K)} (hn : (areas.map Prod.fst).Nodup) {a : String × K} (ha : a ∈ areas) (f : K → Option K) :
    ((((areas.map fun a => (a.1, f a.2)).find? fun p => p.1 == a.1).map Prod.snd).join) = f a.2 := by
  induction areas with
  | nil => cases ha
  | cons b l ih =>
    rw [List.map_cons, List.nodup_cons] at hn
    rw [List.map_cons]
    rcases List.mem_cons.1 ha with rfl | h
    · rw [List.find?_cons_of_pos (by simp)]; rfl
    · rw [List.find?_cons_of_neg, ih hn.2 h]
      intro hh
      have hh' : b.1 = a.1 := eq_of_beq hh
      exact hn.1 (hh' ▸ List.mem_map_of_mem h)

/-- **C83 (loaded)**: a unit read with one area per cover (not all zero, in m² or km²) has the sum of the areas, in m², as its area;
its fractions are between 0 and 1, add up to 1, and times the area of the unit they give the areas of the file. -/
theorem c83_loaded (unit : String) (k : K) (hk : (unit = "m2" ∧ k = 1) ∨ (unit = "km2" ∧ k = 1000000)) (id : ℤ) (elev : K)
    (covers : List (String × String)) (areas : List (String × K)) (hc : covers.map Prod.fst = areas.map Prod.fst)
    (hn : (areas.map Prod.fst).Nodup) (h0 : ∀ a ∈ areas, 0 ≤ a.2) (hpos : ∃ a ∈ areas, 0 < a.2) :
    ∃ r, loadRow unit id elev areas = .ok r ∧ r.id = id ∧ r.elev = elev ∧ r.area = k * (areas.map Prod.snd).sum ∧ 0 < r.area ∧
      Whole covers r ∧ ∀ a ∈ areas, ∃ x, r.frac a.1 = some x ∧ x * r.area = k * a.2 := by
  have hsum : 0 < (areas.map Prod.snd).sum := by
    obtain ⟨a, ha, hap⟩ := hpos
    obtain ⟨p, q, rfl⟩ := List.append_of_mem ha
    have hp : 0 ≤ (p.map Prod.snd).sum := List.sum_nonneg (by
      intro x hx; obtain ⟨b, hb, rfl⟩ := List.mem_map.1 hx; exact h0 b (by simp [hb]))
    have hq : 0 ≤ (q.map Prod.snd).sum := List.sum_nonneg (by
      intro x hx; obtain ⟨b, hb, rfl⟩ := List.mem_map.1 hx; exact h0 b (by simp [hb]))
    rw [List.map_append, List.sum_append, List.map_cons, List.sum_cons]
    linarith
  have hf : ∃ f : K → K, ((CoverTable.parse unit).bind fun u => CoverTable.convert (K := K) u .m2) = some f ∧ ∀ x, f x = k * x := by
    rcases hk with ⟨rfl, rfl⟩ | ⟨rfl, rfl⟩
    · have : CoverTable.parse "m2" = some .m2 := by decide +kernel
      rw [this]
      exact ⟨fun x => x, rfl, fun x => (one_mul x).symm⟩
    · have : CoverTable.parse "km2" = some .km2 := by decide +kernel
      rw [this]
      exact ⟨fun x => x * 1000000, rfl, fun x => mul_comm x _⟩
  have hkpos : 0 < k := by
    rcases hk with ⟨_, rfl⟩ | ⟨_, rfl⟩
    · exact one_pos
    · positivity
  obtain ⟨f, hf, hfk⟩ := hf
  have hp : portions areas = .ok ((areas.map Prod.snd).sum, areas.map fun a => (a.1, some (a.2 / (areas.map Prod.snd).sum))) := by
    unfold portions
    simp only
    rw [if_neg hsum.ne']
  have hfr := fun (a : String × K) (ha : a ∈ areas) =>
    find_area hn ha (fun x => some (x / (areas.map Prod.snd).sum))
  unfold loadRow
  rw [hp, hf]
  refine ⟨_, rfl, rfl, rfl, hfk _, ?_, ⟨?_, ?_⟩, ?_⟩
  · show 0 < f _
    rw [hfk]; exact mul_pos hkpos hsum
  · intro c hcm
    have : c.1 ∈ areas.map Prod.fst := hc ▸ List.mem_map_of_mem hcm
    obtain ⟨a, ha, hac⟩ := List.mem_map.1 this
    rw [← hac]
    refine ⟨_, hfr a ha, div_nonneg (h0 a ha) hsum.le, div_le_one_of_le₀ ?_ hsum.le⟩
    exact List.single_le_sum (by
      intro x hx; obtain ⟨b, hb, rfl⟩ := List.mem_map.1 hx; exact h0 b hb) _ (List.mem_map_of_mem ha)
  · simp only
    have e : (covers.map fun c => ((((areas.map fun a => (a.1, some (a.2 / (areas.map Prod.snd).sum))).find?
        fun p => p.1 == c.1).map Prod.snd).join).getD 0) =
        areas.map fun a => a.2 / (areas.map Prod.snd).sum := by
      have e1 : (covers.map fun c => ((((areas.map fun a => (a.1, some (a.2 / (areas.map Prod.snd).sum))).find?
          fun p => p.1 == c.1).map Prod.snd).join).getD 0) = (covers.map Prod.fst).map fun n =>
          ((((areas.map fun a => (a.1, some (a.2 / (areas.map Prod.snd).sum))).find? fun p => p.1 == n).map Prod.snd).join).getD 0 := by
        rw [List.map_map]; rfl
      rw [e1, hc, List.map_map]
      apply List.map_congr_left
      intro a ha
      simp only [Function.comp]
      rw [hfr a ha]; rfl
    rw [e]
    have e2 : ∀ (l : List (String × K)) (s : K), (l.map fun a => a.2 / s).sum = (l.map Prod.snd).sum / s := by
      intro l s
      induction l with
      | nil => simp
      | cons b l ih => rw [List.map_cons, List.sum_cons, ih, List.map_cons, List.sum_cons, add_div]
    rw [e2, div_self hsum.ne']
  · intro a ha
    refine ⟨_, hfr a ha, ?_⟩
    show _ * f _ = _
    rw [hfk]
    field_simp

/-- **C83 (single area)**: a unit read with its area only has that area in m² and, once handed over, belongs entirely to the first
cover. -/
theorem c83_single (unit : String) (k : K) (hk : (unit = "m2" ∧ k = 1) ∨ (unit = "km2" ∧ k = 1000000)) (id : ℤ) (elev area : K)
    (first : String × String) (covers : List (String × String)) (hn : ((first :: covers).map Prod.fst).Nodup) (d : Decl K) :
    ∃ (r : Row K) (calls : List (Cmd K)) (d' : Decl K), loadSingle unit (first :: covers) id elev area = .ok r ∧
      populate ⟨first :: covers, [r]⟩ = .ok calls ∧ d.run calls = .ok d' ∧
      d'.units = [⟨id, k * area, elev, ⟨first.1, first.2, 1⟩ :: covers.map fun c => ⟨c.1, c.2, 0⟩, [], []⟩] := by
  rw [List.map_cons, List.nodup_cons] at hn
  have hf : ∃ f : K → K, ((CoverTable.parse unit).bind fun u => CoverTable.convert (K := K) u .m2) = some f ∧ ∀ x, f x = k * x := by
    rcases hk with ⟨rfl, rfl⟩ | ⟨rfl, rfl⟩
    · have : CoverTable.parse "m2" = some .m2 := by decide +kernel
      rw [this]
      exact ⟨fun x => x, rfl, fun x => (one_mul x).symm⟩
    · have : CoverTable.parse "km2" = some .km2 := by decide +kernel
      rw [this]
      exact ⟨fun x => x * 1000000, rfl, fun x => mul_comm x _⟩
  obtain ⟨f, hf, hfk⟩ := hf
  have hload : loadSingle unit (first :: covers) id elev area =
      .ok ⟨id, k * area, elev, fun n => if n = first.1 then some 1 else none, []⟩ := by
    unfold loadSingle
    rw [hf]
    simp only [List.headD_cons, hfk]
    rfl
  have hrow : ∀ r : Row K, r = ⟨id, k * area, elev, fun n => if n = first.1 then some 1 else none, []⟩ →
      rowCmds (first :: covers) r = .ok (cmds (first :: covers) r) := by
    rintro r rfl
    unfold rowCmds
    rw [mapM_pure _ (fun c => Cmd.cover c.1 c.2 (((if c.1 = first.1 then some 1 else none : Option K)).getD 0)) (first :: covers)]
    · rfl
    · intro c _
      by_cases h : c.1 = first.1
      · simp only [h, if_true, checked_ok (zero_le_one' K) (_root_.le_refl _)]
        rfl
      · have : checked (none : Option K) = .ok 0 := by
          have := checked_ok (K := K) (_root_.le_refl 0) (zero_le_one' K)
          exact this
        simp only [h, if_false, this]
        rfl
  obtain ⟨s, hs⟩ := run_rows (first :: covers)
    [(⟨id, k * area, elev, fun n => if n = first.1 then some 1 else none, []⟩ : Row K)] (⟨[], d.laterals, none⟩ : Decl K)
  refine ⟨_, Cmd.clear :: cmds (first :: covers) ⟨id, k * area, elev, fun n => if n = first.1 then some 1 else none, []⟩,
    ⟨[unitOf (first :: covers) ⟨id, k * area, elev, fun n => if n = first.1 then some 1 else none, []⟩], d.laterals, s⟩, hload, ?_, ?_, ?_⟩
  · unfold populate
    simp only [List.insertionSort_cons, List.insertionSort_nil, List.orderedInsert_nil]
    rw [mapM_pure _ (cmds (first :: covers)) _ (by intro r hr; rw [List.mem_singleton] at hr; exact hrow r hr)]
    simp
  · simp only [Decl.run, Decl.step, Out.bind]
    simpa using hs
  · simp only [unitOf, List.map_cons, if_true, Option.getD_some, List.filterMap_nil]
    congr 3
    apply List.map_congr_left
    intro c hc
    rw [if_neg]
    · rfl
    · intro h
      exact hn.1 (h ▸ List.mem_map_of_mem hc)

/-- **C83 (one cover)**: initialising a cover (not the one that takes the rest) with areas for known and distinct units, each within what
is left to the rest, is accepted; only the fractions of that cover and of the rest change, only in those units: the
cover gets area over area of the unit, the rest gives it; if the cover had nothing there, the fractions still add up to 1. -/
theorem c83_one_cover (t : Table K) (g name : String) (hg : Rest t.covers g) (hgn : g ≠ name) (hids : (t.rows.map Row.id).Nodup)
    (hcov : (t.covers.map Prod.fst).Nodup) (hname : name ∈ t.covers.map Prod.fst)
    (ch : List (ℤ × K)) (hd : (ch.map Prod.fst).Nodup) (hk : ∀ e ∈ ch, ∃ r ∈ t.rows, r.id = e.1)
    (hroom : ∀ e ∈ ch, ∀ r ∈ t.rows, r.id = e.1 → 0 < r.area ∧ 0 ≤ e.2 ∧ e.2 ≤ r.area ∧ ∃ x, r.frac g = some x ∧ e.2 ≤ x * r.area) :
    ∃ t', setFrom name t ch = .ok t' ∧ t'.covers = t.covers ∧ t'.rows.map rest = t.rows.map rest ∧
      ∀ (i : ℕ) (r r' : Row K), t.rows[i]? = some r → t'.rows[i]? = some r' →
        (∀ n, n ≠ name → n ≠ g → r'.frac n = r.frac n) ∧
        (r.id ∉ ch.map Prod.fst → r' = r) ∧
        (∀ a, (r.id, a) ∈ ch → r'.frac name = some (a / r.area) ∧ r'.frac g = (r.frac g).map fun x => x - a / r.area) ∧
        (r.frac name = some 0 → Whole t.covers r → Whole t.covers r') := by
  have hset := setAll_ok g name hgn ch hd t.rows hids hk (by
    intro e he r hr hid
    obtain ⟨h1, h2, h3, x, hx, h4⟩ := hroom e he r hr hid
    exact ⟨h1.ne', div_nonneg h2 h1.le, div_le_one_of_le₀ h3 h1.le, x, hx, (div_le_iff₀ h1).2 h4⟩)
  unfold setFrom
  rw [generic_rest hg, hset]
  refine ⟨_, rfl, rfl, ?_, ?_⟩
  · simp only [List.map_map]
    apply List.map_congr_left
    intro r _
    simp only [Function.comp]
    split <;> rfl
  · intro i r r' hr hr'
    simp only [List.getElem?_map, hr, Option.map_some, Option.some.injEq] at hr'
    by_cases hin : r.id ∈ ch.map Prod.fst
    · rw [if_pos hin] at hr'
      obtain ⟨e, he, heid⟩ := List.mem_map.1 hin
      have hget : get ch r.id = e.2 := by rw [← heid]; exact get_mem ch hd e he
      rw [hget] at hr'
      have hoth : ∀ n, n ≠ name → n ≠ g → r'.frac n = r.frac n := by
        intro n h1 h2
        subst hr'
        simp only [changed, Row.set]
        rw [Function.update_of_ne h2, Function.update_of_ne h1]
      have hnm : r'.frac name = some (e.2 / r.area) := by
        subst hr'
        simp only [changed, Row.set]
        rw [Function.update_of_ne hgn.symm, Function.update_self]
      have hgg : r'.frac g = (r.frac g).map fun x => x - e.2 / r.area := by
        subst hr'
        simp only [changed, Row.set]
        rw [Function.update_self, Function.update_of_ne hgn]
      refine ⟨hoth, fun h => absurd hin h, ?_, ?_⟩
      · intro a ha
        have : a = e.2 := by
          have := List.inj_on_of_nodup_map hd ha he heid.symm
          rw [← this]
        subst this
        exact ⟨hnm, hgg⟩
      · intro hz hw
        obtain ⟨h1, h2, h3, x, hx, h4⟩ := hroom e he r (List.mem_of_getElem? hr) heid.symm
        have hdx : e.2 / r.area ≤ x := (div_le_iff₀ h1).2 h4
        have hd0 : 0 ≤ e.2 / r.area := div_nonneg h2 h1.le
        have hgin : g ∈ (t.covers.map Prod.fst).toFinset := by
          obtain ⟨c, hc, h, _⟩ := rest_mem hg
          rw [List.mem_toFinset]
          exact h ▸ List.mem_map_of_mem hc
        refine ⟨?_, ?_⟩
        · intro c hc
          by_cases hcn : c.1 = name
          · rw [hcn]
            exact ⟨_, hnm, hd0, div_le_one_of_le₀ h3 h1.le⟩
          · by_cases hcg : c.1 = g
            · rw [hcg]
              obtain ⟨c', hc', hcg', _⟩ := rest_mem hg
              obtain ⟨x', hx', _, hx1⟩ := hw.1 c' hc'
              rw [hcg', hx] at hx'
              cases hx'
              refine ⟨x - e.2 / r.area, by rw [hgg, hx]; rfl, by linarith, by linarith⟩
            · rw [hoth c.1 hcn hcg]
              exact hw.1 c hc
        · have hsum := hw.2
          have conv : ∀ q : Row K, (t.covers.map fun c => (q.frac c.1).getD 0) = (t.covers.map Prod.fst).map fun n => (q.frac n).getD 0 := by
            intro q; rw [List.map_map]; rfl
          rw [conv, ← List.sum_toFinset _ hcov] at hsum ⊢
          have hnin : name ∈ (t.covers.map Prod.fst).toFinset.erase g := by
            rw [Finset.mem_erase, List.mem_toFinset]; exact ⟨hgn.symm, hname⟩
          rw [← Finset.add_sum_erase _ _ hgin, ← Finset.add_sum_erase _ _ hnin] at hsum ⊢
          have hrest : ∑ n ∈ ((t.covers.map Prod.fst).toFinset.erase g).erase name, (r'.frac n).getD 0 =
              ∑ n ∈ ((t.covers.map Prod.fst).toFinset.erase g).erase name, (r.frac n).getD 0 := by
            apply Finset.sum_congr rfl
            intro n hn
            rw [Finset.mem_erase, Finset.mem_erase] at hn
            rw [hoth n hn.1 hn.2.1]
          rw [hrest, hgg, hnm]
          rw [hz] at hsum
          rw [hx] at hsum ⊢
          simp only [Option.map_some, Option.getD_some] at hsum ⊢
          linarith
    · rw [if_neg hin] at hr'
      subst hr'
      refine ⟨fun _ _ _ => rfl, fun _ => rfl, fun a ha => absurd (List.mem_map_of_mem (f := Prod.fst) ha) hin, fun _ h => h⟩

/-! ## Examples and limits -/

namespace Demo

def table : Table ℚ :=
  ⟨[("open", "open"), ("glacier", "glacier")], [⟨1, 400, 2000, fun _ => none, [("slope", .inl (12, "degrees"))]⟩, ⟨2, 200, 3000, fun _ => none, []⟩]⟩

def cells : List (ℤ × ℤ) := [(1, 70), (1, 70), (1, 10), (1, 50), (2, 70), (2, 20), (0, 70)]
def mapping : List (ℤ × String) := [(70, "glacier"), (10, "forest"), (50, "urban")]

def view (t : Except Err (Table ℚ)) : Option (List (String × String) × List (ℤ × List (Option ℚ))) :=
  t.toOption.map fun t => (t.covers, t.rows.map fun r => (r.id, t.covers.map fun c => r.frac c.1))

theorem rest_open : Rest table.covers "open" := ⟨[], ("open", "open"), [("glacier", "glacier")], rfl, by decide, rfl, by simp⟩

theorem on_map : OnMap 100 cells mapping (initFractions table) where
  pixel := by norm_num
  classes := by decide
  ids := by decide
  numbered := by
    intro r hr
    simp only [initFractions, table, List.map_cons, List.map_nil, List.mem_cons, List.not_mem_nil, or_false] at hr
    rcases hr with rfl | rfl <;> decide
  areas := by
    intro r hr
    simp only [initFractions, table, List.map_cons, List.map_nil, List.mem_cons, List.not_mem_nil, or_false] at hr
    rcases hr with rfl | rfl <;> decide +kernel
  known := by
    have h : ∀ c ∈ cells, c.1 = 0 ∨ c.1 = 1 ∨ c.1 = 2 := by decide
    intro c hc h0
    rcases h c hc with h | h | h
    · exact absurd h h0
    · exact ⟨_, by simp only [initFractions, table, List.map_cons]; exact List.mem_cons_self, h.symm⟩
    · exact ⟨_, by simp only [initFractions, table, List.map_cons]; exact List.mem_cons_of_mem _ List.mem_cons_self, h.symm⟩
  names := by decide

/-- The hypotheses of `c83_map` are met, and the fractions are those of the map. -/
theorem c83_demo : view (extract 100 cells mapping (initFractions table)) =
    some ([("open", "open"), ("glacier", "glacier"), ("forest", "forest"), ("urban", "generic_land_cover")],
      [(1, [some (1 / 4), some (1 / 2), some (1 / 4), some 0]), (2, [some (1 / 2), some (1 / 2), some 0, some 0])]) := by
  decide +kernel

example : ∃ t', extract 100 cells mapping (initFractions table) = .ok t' ∧ ∀ r ∈ t'.rows, Whole t'.covers r := by
  obtain ⟨t', h, _, _, _, hw⟩ := c83_map 100 cells mapping (initFractions table) "open" on_map rest_open (c83_start table "open" rest_open)
  exact ⟨t', h, fun r hr => (hw r hr).1⟩

/-- **Limit**: the cover `urban` of the map is registered but gets nothing, its cell is given to `open`: a cover whose name is not one of
glacier, forest, lake, open is registered with a generic type, and generic covers are skipped. -/
theorem c83_unknown_cover : cellsWith cells mapping 1 "urban" = 1 ∧ cellsOf cells 1 = 4 ∧
    (view (extract 100 cells mapping (initFractions table))).bind (fun v => (v.2.find? fun r => r.1 == 1).bind fun r => r.2[3]?) =
      some (some 0) := by
  refine ⟨by decide, by decide, by decide +kernel⟩

/-- **Limit**: initialising the same cover twice with 0.3 takes 0.6 from the rest: the fractions add up to 0.7, and the
calls go through. -/
theorem c83_twice :
    view ((setFrom "glacier" (initFractions table) [(1, (120 : ℚ))]).bind fun t => setFrom "glacier" t [(1, 120)]) =
      some (table.covers, [(1, [some (4 / 10), some (3 / 10)]), (2, [some 1, some 0])]) ∧
    ((((setFrom "glacier" (initFractions table) [(1, (120 : ℚ))]).bind fun t => setFrom "glacier" t [(1, 120)]).bind populate).isOk = true) := by
  refine ⟨by decide +kernel, by decide +kernel⟩

/-- **Limit**: initialising the cover that takes the rest gives it nothing at all. -/
theorem c83_rest_itself : view (setFrom "open" (initFractions table) [(1, (120 : ℚ))]) =
    some (table.covers, [(1, [some 0, some 0]), (2, [some 1, some 0])]) := by
  decide +kernel

/-- **Limit**: a unit whose covers have no area in the file is handed over with all its fractions at zero. -/
theorem c83_empty_unit : ((loadRow "m2" 7 (1500 : ℚ) [("open", 0), ("glacier", 0)]).bind fun r =>
      populate ⟨table.covers, [r]⟩).toOption =
    some [.clear, .unit 7 0 1500, .cover "open" "open" 0, .cover "glacier" "glacier" 0] := by
  decide +kernel

/-- A file with areas in km². -/
theorem c83_loaded_demo : ((loadRow "km2" 3 (1500 : ℚ) [("open", 3), ("glacier", 1)]).toOption.map fun r =>
    (r.area, r.frac "open", r.frac "glacier")) = some (4000000, some (3 / 4), some (1 / 4)) := by
  decide +kernel

/-- The calls of the example: highest unit first. -/
theorem c83_calls_demo : ((extract 100 cells mapping (initFractions table)).bind populate).toOption =
    some [.clear, .unit 2 200 3000, .cover "open" "open" (1 / 2), .cover "glacier" "glacier" (1 / 2), .cover "forest" "forest" 0,
      .cover "urban" "generic_land_cover" 0, .unit 1 400 2000, .propD "slope" 12 "degrees", .cover "open" "open" (1 / 4),
      .cover "glacier" "glacier" (1 / 2), .cover "forest" "forest" (1 / 4), .cover "urban" "generic_land_cover" 0] := by
  decide +kernel

end Demo

end HB.UnitTable
