import Verif.Model.Totals
import Verif.Spec.Totals
import Mathlib.Algebra.BigOperators.Ring.Finset
import Mathlib.Algebra.BigOperators.Field
import Mathlib.Data.List.Infix
import Mathlib.Data.List.GetD
import Mathlib.Data.List.Nodup
import Mathlib.Data.Rat.Defs
import Mathlib.Algebra.Field.Rat
import Mathlib.Tactic.Ring
import Mathlib.Tactic.NormNum

/-!
# C50 — reported totals agree with the recorded series
-/
set_option linter.unusedSectionVars false

namespace HB

open Finset

theorem containsStr_iff (s p : String) : containsStr s p = true ↔ p.toList <:+: s.toList := by
  unfold containsStr
  rw [List.any_eq_true]
  constructor
  · rintro ⟨t, ht, hp⟩
    exact (List.isPrefixOf_iff_prefix.mp hp).isInfix.trans ((List.mem_tails _ _).mp ht).isInfix
  · rintro ⟨a, b, h⟩
    exact ⟨p.toList ++ b, (List.mem_tails _ _).mpr ⟨a, by simpa using h⟩,
      List.isPrefixOf_iff_prefix.mpr (List.prefix_append _ _)⟩

theorem startsWith_iff (s p : String) : startsWith s p = true ↔ p.toList <+: s.toList := List.isPrefixOf_iff_prefix

/-- A label starts with `name:` exactly when `name` is its component. -/
theorem prefix_colon_iff (name l : List Char) (hn : ':' ∉ name) (hl : ':' ∈ l) :
    (name ++ [':']) <+: l ↔ l.takeWhile (· ≠ ':') = name := by
  constructor
  · rintro ⟨r, rfl⟩
    rw [List.append_assoc, List.takeWhile_append_of_pos (by
      intro a ha; simp only [ne_eq, decide_eq_true_eq]; rintro rfl; exact hn ha)]
    simp
  · rintro rfl
    have h := List.takeWhile_append_dropWhile (p := fun c => decide (c ≠ ':')) (l := l)
    have hd : l.dropWhile (fun c => decide (c ≠ ':')) ≠ [] := by
      intro e
      rw [e, List.append_nil] at h
      have hm : ':' ∈ l.takeWhile (fun c => decide (c ≠ ':')) := by rw [h]; exact hl
      have := List.all_takeWhile (p := fun c => decide (c ≠ ':')) (l := l)
      rw [List.all_eq_true] at this
      exact absurd (this _ hm) (by simp)
    obtain ⟨a, r, har⟩ := List.exists_cons_of_ne_nil hd
    have ha : a = ':' := by
      have := List.head_dropWhile_not (fun c => decide (c ≠ ':')) hd
      rw [decide_eq_false_iff_not, not_not] at this
      rw [← this]; symm; rw [List.head_eq_iff_head?_eq_some, har]; rfl
    rw [ha] at har
    exact ⟨r, by rw [List.append_assoc, List.singleton_append, ← har]; exact h⟩

/-- The prefixes searched by the code are exactly the components of the cover. -/
theorem owns_iff (c label : String) (hc : ':' ∉ c.toList) (hl : ':' ∈ label.toList) :
    (startsWith label (c ++ ":") || startsWith label (c ++ "_snowpack:") || startsWith label (c ++ "_canopy:")) = true ↔
      Spec.Owns c label := by
  simp only [Bool.or_eq_true, startsWith_iff, String.toList_append, Spec.Owns, Spec.component]
  have e1 : (":" : String).toList = [':'] := rfl
  have e2 : ("_snowpack:" : String).toList = "_snowpack".toList ++ [':'] := rfl
  have e3 : ("_canopy:" : String).toList = "_canopy".toList ++ [':'] := rfl
  rw [e1, e2, e3, ← List.append_assoc, ← List.append_assoc, prefix_colon_iff _ _ hc hl,
    prefix_colon_iff _ _ (by simp [hc]) hl, prefix_colon_iff _ _ (by simp [hc]) hl, or_assoc]

/-- At most one cover owns a component. -/
theorem owns_unique (covers : List String) (h : Spec.CoverNames covers) (label : String) (a b : String) (ha : a ∈ covers)
    (hb : b ∈ covers) (h1 : Spec.Owns a label) (h2 : Spec.Owns b label) : a = b := by
  have tl : ∀ x y : String, x.toList = y.toList → x = y := fun x y e => String.toList_injective e
  have last : ∀ x y : List Char, x ++ "_snowpack".toList ≠ y ++ "_canopy".toList := by
    intro x y e
    have := congrArg List.getLast? e
    simp at this
  have cab := h.clash a ha b hb
  have cba := h.clash b hb a ha
  rcases h1 with h1 | h1 | h1 <;> rcases h2 with h2 | h2 | h2
  · exact tl _ _ (h1.symm.trans h2)
  · exact absurd (h1.symm.trans h2) cab.1
  · exact absurd (h1.symm.trans h2) cab.2
  · exact absurd (h2.symm.trans h1) cba.1
  · exact tl _ _ (List.append_cancel_right (h1.symm.trans h2))
  · exact absurd (h1.symm.trans h2) (last _ _)
  · exact absurd (h2.symm.trans h1) cba.2
  · exact absurd (h2.symm.trans h1) (last _ _)
  · exact tl _ _ (List.append_cancel_right (h1.symm.trans h2))

section
variable {K : Type} [Field K]

/-- The code's fraction is the specified weight. -/
theorem fractionFor_eq (T : LogTable K) (hn : Spec.CoverNames T.fracLabels) (w : String → ℕ → ℕ → K)
    (hw : Spec.IsWeight T w) (label : String) (hl : ':' ∈ label.toList) (t u : ℕ) :
    T.fractionFor label t u = w label t u := by
  unfold LogTable.fractionFor
  rcases hf : fractionIndex T.fracLabels label with _ | j
  · simp only
    unfold fractionIndex at hf
    rw [List.findIdx?_eq_none_iff] at hf
    rw [hw.whole label fun c hc ho => ?_]
    have := (owns_iff c label (hn.colon c hc) hl).mpr ho
    rw [hf c hc] at this; cases this
  · simp only
    unfold fractionIndex at hf
    rw [List.findIdx?_eq_some_iff_getElem] at hf
    obtain ⟨hj, ho, -⟩ := hf
    have ho' := (owns_iff _ label (hn.colon _ (List.getElem_mem hj)) hl).mp ho
    rw [hw.cover j _ (List.getElem?_eq_getElem hj) label ho' hl]
    rfl

theorem nanSum_some (l : List (Option K)) (hl : ∀ x ∈ l, x.isSome) (a : K) :
    l.foldl nanAdd (some a) = some (a + (l.map fun x => x.getD 0).sum) := by
  induction l generalizing a with
  | nil => simp
  | cons x r ih =>
    obtain ⟨v, rfl⟩ := Option.isSome_iff_exists.mp (hl x List.mem_cons_self)
    rw [List.foldl_cons]
    simp only [nanAdd, Option.bind_some, Option.map_some]
    rw [ih fun y hy => hl y (List.mem_cons_of_mem _ hy)]
    simp [add_assoc]

/-- Without NaN the sum is the ordinary one. -/
theorem nanSum_eq (l : List (Option K)) (hl : ∀ x ∈ l, x.isSome) : nanSum l = some (l.map fun x => x.getD 0).sum := by
  unfold nanSum; rw [nanSum_some l hl]; simp

theorem list_range_sum (n : ℕ) (f : ℕ → K) : ((List.range n).map f).sum = ∑ t ∈ range n, f t := by
  induction n with
  | zero => simp
  | succ n ih => rw [List.range_succ, List.map_append, List.sum_append, ih, Finset.sum_range_succ]; simp

theorem nanSum_rows (n : ℕ) (f : ℕ → Option K) (h : ∀ t < n, (f t).isSome) :
    nanSum ((List.range n).map f) = some (∑ t ∈ range n, (f t).getD 0) := by
  rw [nanSum_eq _ (by
    intro x hx
    obtain ⟨t, ht, rfl⟩ := List.mem_map.mp hx
    exact h t (List.mem_range.mp ht)), List.map_map, ← list_range_sum]
  rfl

/-- Every sub-basin value of every row was recorded. -/
def LogTable.BasinRecorded (T : LogTable K) : Prop := ∀ i < T.basinLabels.length, ∀ t < T.rows, (T.basinVals i t).isSome

/-- **C50 (discharge).** If "outlet" is recorded and no other sub-basin label contains that word, the reported total is the
sum of the reported discharge series. -/
theorem c50_discharge_partial (T : LogTable K) (hrec : T.BasinRecorded) (hin : "outlet" ∈ T.basinLabels)
    (hnd : T.basinLabels.Nodup) (hone : ∀ l ∈ T.basinLabels, "outlet".toList <:+: l.toList → l = "outlet") :
    ∃ series, T.outletDischarge = some series ∧ series.length = T.rows ∧ (∀ x ∈ series, x.isSome) ∧
      T.totalOutletDischarge = some (series.map fun x => x.getD 0).sum := by
  have hidx : T.basinLabels.idxOf "outlet" < T.basinLabels.length := List.idxOf_lt_length_iff.mpr hin
  refine ⟨(List.range T.rows).map (T.basinVals (T.basinLabels.idxOf "outlet")), by
    unfold LogTable.outletDischarge; rw [if_pos hin], by simp, ?_, ?_⟩
  · intro x hx
    obtain ⟨t, ht, rfl⟩ := List.mem_map.mp hx
    exact hrec _ hidx t (List.mem_range.mp ht)
  · have hind : indicesFor T.basinLabels "outlet" = [T.basinLabels.idxOf "outlet"] := by
      unfold indicesFor
      have hiff : ∀ i ∈ List.range T.basinLabels.length, containsStr (T.basinLabels.getD i "") "outlet" =
          decide (i = T.basinLabels.idxOf "outlet") := by
        intro i hi
        have hi := List.mem_range.mp hi
        rw [Bool.eq_iff_iff, containsStr_iff, decide_eq_true_eq]
        rw [List.getD_eq_getElem _ _ hi]
        constructor
        · intro h
          have := hone _ (List.getElem_mem hi) h
          have h2 : T.basinLabels[T.basinLabels.idxOf "outlet"] = "outlet" := List.getElem_idxOf hidx
          exact (List.Nodup.getElem_inj_iff hnd).mp (this.trans h2.symm)
        · rintro rfl
          rw [List.getElem_idxOf hidx]
      rw [List.filter_congr hiff]
      have key : ∀ n k, k < n → (List.range n).filter (fun i => decide (i = k)) = [k] := by
        intro n
        induction n with
        | zero => intro k hk; omega
        | succ n ih =>
          intro k hk
          rw [List.range_succ, List.filter_append]
          by_cases hkn : k = n
          · subst hkn
            have : (List.range k).filter (fun i => decide (i = k)) = [] := by
              rw [List.filter_eq_nil_iff]
              intro a ha
              have := List.mem_range.mp ha
              simp; omega
            rw [this]; simp
          · rw [ih k (by omega)]
            have : ¬ n = k := fun e => hkn e.symm
            simp [this]
      exact key _ _ hidx
    unfold LogTable.totalOutletDischarge LogTable.totalSubBasin
    rw [hind]
    simp only [List.map_cons, List.map_nil]
    rw [nanSum_rows _ _ fun t ht => hrec _ hidx t ht, nanSum_eq _ (by simp), List.map_map]
    simp only [List.map_cons, List.map_nil, List.sum_cons, List.sum_nil, add_zero, Option.getD_some]
    rw [← list_range_sum]; rfl

theorem matrixMean_eq (T : LogTable K) (f : ℕ → ℕ → K) :
    T.matrixMean f = ∑ t ∈ range T.rows, Spec.mean T fun u => f t u := by
  unfold LogTable.matrixMean Spec.mean
  rw [Finset.sum_div]
  refine Finset.sum_congr rfl fun t _ => ?_
  congr 1
  exact Finset.sum_congr rfl fun u _ => mul_comm _ _

theorem list_map_sum_comm (l : List ℕ) (n : ℕ) (f : ℕ → ℕ → K) :
    (l.map fun i => ∑ t ∈ range n, f i t).sum = ∑ t ∈ range n, (l.map fun i => f i t).sum := by
  induction l with
  | nil => simp
  | cons a r ih => simp only [List.map_cons, List.sum_cons, ih, Finset.sum_add_distrib]

/-- **C50 (evapotranspiration).** The reported total is the sum over the rows of what leaves the catchment: the recorded
sub-basin values plus, for each hydro-unit flux to the atmosphere, the area mean of the recorded values, each weighted by
the recorded fraction of its land cover; cells never recorded (component absent from the unit) count for nothing. -/
theorem c50_et (T : LogTable K) (hrec : T.BasinRecorded) (hb : ∀ i ∈ T.basinEt, i < T.basinLabels.length)
    (hn : Spec.CoverNames T.fracLabels) (hl : ∀ i ∈ T.unitEt, ':' ∈ (T.unitLabels.getD i "").toList)
    (w : String → ℕ → ℕ → K) (hw : Spec.IsWeight T w) :
    T.totalET = some (∑ t ∈ range T.rows, ((T.basinEt.map fun i => (T.basinVals i t).getD 0).sum +
      (T.unitEt.map fun i => Spec.unitAmount T w i t).sum)) := by
  unfold LogTable.totalET
  rw [nanSum_eq _ (by
    intro x hx
    obtain ⟨i, hi, rfl⟩ := List.mem_map.mp hx
    rw [nanSum_rows _ _ fun t ht => hrec i (hb i hi) t ht]; rfl)]
  simp only [nanAdd, Option.bind_some, Option.map_some, Option.some.injEq]
  rw [Finset.sum_add_distrib, ← list_map_sum_comm, ← list_map_sum_comm, List.map_map]
  congr 1
  · congr 1
    apply List.map_congr_left
    intro i hi
    simp only [Function.comp]
    rw [nanSum_rows _ _ fun t ht => hrec i (hb i hi) t ht]; rfl
  · congr 1
    apply List.map_congr_left
    intro i hi
    rw [matrixMean_eq]
    refine Finset.sum_congr rfl fun t _ => ?_
    unfold Spec.unitAmount
    congr 1
    funext u
    rw [fractionFor_eq T hn w hw _ (hl i hi), mul_comm]; rfl

theorem indices_filter (labels : List String) (tag : String) (p : String → Prop) [DecidablePred p]
    (h : ∀ l ∈ labels, (tag.toList <:+: l.toList ↔ p l)) :
    indicesFor labels tag = (List.range labels.length).filter fun i => decide (p (labels.getD i "")) := by
  unfold indicesFor
  apply List.filter_congr
  intro i hi
  have hi := List.mem_range.mp hi
  rw [Bool.eq_iff_iff, containsStr_iff, decide_eq_true_eq, List.getD_eq_getElem _ _ hi]
  exact h _ (List.getElem_mem hi)

/-- **C50 (storage change).** For the content `tag` (`:water_content`, `:snow_content`, `:ice_content`): the reported change
is the content of the catchment at the last row minus its content before the first step.  Only labels ending with the tag
are counted (hypothesis: no label contains it elsewhere); hydro-unit contents are area means weighted by the land cover
fraction recorded at the last row, respectively the first row (extents never change before the first step, C35). -/
theorem c50_storage (T : LogTable K) (tag : String) (hrec : T.BasinRecorded) (hrows : 0 < T.rows)
    (hinit : ∀ i < T.basinLabels.length, (T.basinInit i).isSome)
    (hn : Spec.CoverNames T.fracLabels) (hcolon : ':' ∈ tag.toList) (isContent : String → Prop) [DecidablePred isContent]
    (hic : ∀ l, isContent l ↔ Spec.IsContent l tag)
    (hend : ∀ l ∈ T.basinLabels ++ T.unitLabels, tag.toList <:+: l.toList → Spec.IsContent l tag)
    (w : String → ℕ → ℕ → K) (hw : Spec.IsWeight T w) :
    T.storageChange tag =
      some ((((List.range T.basinLabels.length).filter fun i => decide (isContent (T.basinLabels.getD i ""))).map
          fun i => (T.basinVals i (T.rows - 1)).getD 0 - (T.basinInit i).getD 0).sum +
        (((List.range T.unitLabels.length).filter fun i => decide (isContent (T.unitLabels.getD i ""))).map
          fun i => Spec.unitAmount T w i (T.rows - 1) -
            Spec.mean T fun u => w (T.unitLabels.getD i "") 0 u * (T.unitInit i u).getD 0).sum) := by
  have hiff : ∀ l ∈ T.basinLabels ++ T.unitLabels, (tag.toList <:+: l.toList ↔ isContent l) := by
    intro l hl
    rw [hic]
    refine ⟨hend l hl, ?_⟩
    rintro ⟨name, rfl⟩
    rw [String.toList_append]
    exact (List.suffix_append _ _).isInfix
  have hb := indices_filter T.basinLabels tag isContent fun l hl => hiff l (List.mem_append_left _ hl)
  have hu := indices_filter T.unitLabels tag isContent fun l hl => hiff l (List.mem_append_right _ hl)
  obtain ⟨bi, hbi⟩ : ∃ bi, bi = (List.range T.basinLabels.length).filter fun i =>
    decide (isContent (T.basinLabels.getD i "")) := ⟨_, rfl⟩
  obtain ⟨ui, hui⟩ : ∃ ui, ui = (List.range T.unitLabels.length).filter fun i =>
    decide (isContent (T.unitLabels.getD i "")) := ⟨_, rfl⟩
  rw [← hbi] at hb ⊢
  rw [← hui] at hu ⊢
  have hbl : ∀ i ∈ bi, i < T.basinLabels.length := by
    intro i hi; rw [hbi] at hi; exact List.mem_range.mp (List.mem_filter.mp hi).1
  have hul : ∀ i ∈ ui, ':' ∈ (T.unitLabels.getD i "").toList := by
    intro i hi; rw [hui] at hi
    obtain ⟨h1, h2⟩ := List.mem_filter.mp hi
    obtain ⟨name, hname⟩ := (hic _).mp (of_decide_eq_true h2)
    rw [hname, String.toList_append]
    exact List.mem_append_right _ hcolon
  have hfin : T.basinFinal tag = some (bi.map fun i => (T.basinVals i (T.rows - 1)).getD 0).sum := by
    unfold LogTable.basinFinal
    rw [hb, nanSum_eq, List.map_map]
    · rfl
    · intro x hx
      obtain ⟨i, hi, rfl⟩ := List.mem_map.mp hx
      exact hrec i (hbl i hi) _ (by omega)
  have hini : T.basinInitial tag = some (bi.map fun i => (T.basinInit i).getD 0).sum := by
    unfold LogTable.basinInitial
    rw [hb, nanSum_eq, List.map_map]
    · rfl
    · intro x hx
      obtain ⟨i, hi, rfl⟩ := List.mem_map.mp hx
      exact hinit i (hbl i hi)
  have hrow : ∀ (t : ℕ) (v : ℕ → ℕ → Option K), (ui.map fun i => T.rowMean fun u =>
      nanToZero (v i u) * T.fractionFor (T.unitLabels.getD i "") t u).sum =
      (ui.map fun i => Spec.mean T fun u => w (T.unitLabels.getD i "") t u * (v i u).getD 0).sum := by
    intro t v
    congr 1
    apply List.map_congr_left
    intro i hi
    unfold LogTable.rowMean Spec.mean
    congr 1
    refine Finset.sum_congr rfl fun u _ => ?_
    dsimp only
    rw [fractionFor_eq T hn w hw _ (hul i hi), nanToZero]; ring
  have hsub : ∀ (l : List ℕ) (f g : ℕ → K), (l.map f).sum - (l.map g).sum = (l.map fun i => f i - g i).sum := by
    intro l f g
    induction l with
    | nil => simp
    | cons a r ih => simp only [List.map_cons, List.sum_cons, ← ih]; ring
  unfold LogTable.storageChange
  rw [hfin, hini]
  simp only [Option.bind_some, Option.map_some, Option.some.injEq]
  have huf : T.unitsFinal tag = (ui.map fun i => Spec.unitAmount T w i (T.rows - 1)).sum := by
    unfold LogTable.unitsFinal
    rw [hu, hrow (T.rows - 1) fun i u => T.unitVals i (T.rows - 1) u]; rfl
  have hui' : T.unitsInitial tag =
      (ui.map fun i => Spec.mean T fun u => w (T.unitLabels.getD i "") 0 u * (T.unitInit i u).getD 0).sum := by
    unfold LogTable.unitsInitial
    rw [hu, hrow 0 fun i u => T.unitInit i u]
  rw [huf, hui', ← hsub, ← hsub]
  ring

/-- Weights always exist when the names are sane: the specification is not void. -/
theorem c50_weights_exist (T : LogTable K) (hn : Spec.CoverNames T.fracLabels) : ∃ w, Spec.IsWeight T w := by
  classical
  refine ⟨fun label t u => if h : ∃ (j : ℕ) (c : String), T.fracLabels[j]? = some c ∧ Spec.Owns c label then
    (T.fracs h.choose t u).getD 0 else 1, ?_, ?_⟩
  · intro j c hj label ho _ t u
    have h : ∃ (j : ℕ) (c : String), T.fracLabels[j]? = some c ∧ Spec.Owns c label := ⟨j, c, hj, ho⟩
    simp only [dif_pos h]
    obtain ⟨c', hc', ho'⟩ := h.choose_spec
    obtain ⟨l1, g1⟩ := List.getElem?_eq_some_iff.mp hj
    obtain ⟨l2, g2⟩ := List.getElem?_eq_some_iff.mp hc'
    have e : c = c' := owns_unique _ hn label c c' (g1 ▸ List.getElem_mem l1) (g2 ▸ List.getElem_mem l2) ho ho'
    have : h.choose = j := (List.Nodup.getElem_inj_iff hn.nodup).mp (g2.trans (e ▸ g1.symm))
    rw [this]
  · intro label hno t u
    have h : ¬ ∃ (j : ℕ) (c : String), T.fracLabels[j]? = some c ∧ Spec.Owns c label := by
      rintro ⟨j, c, hj, ho⟩
      obtain ⟨l1, g1⟩ := List.getElem?_eq_some_iff.mp hj
      exact hno c (g1 ▸ List.getElem_mem l1) ho
    simp only [dif_neg h]

end

/-! ## Concrete tables -/

namespace TotalsDemo

/-- Two units (areas 1 and 3), two rows; a ground cover in both units, a glacier in the first one only. -/
def table : LogTable ℚ where
  rows := 2
  units := 2
  areas u := if u = 0 then 1 else 3
  basinLabels := ["outlet", "slow:water_content"]
  basinInit i := if i = 1 then some 10 else some 0
  basinVals i t := if i = 0 then some (t + 1) else some (12 + t)
  unitLabels := ["ground:water_content", "glacier_snowpack:water_content", "ground:et:output", "soil:et:output"]
  unitInit i u := if i = 0 then some 4 else if i = 1 ∧ u = 0 then some 8 else none
  unitVals i t u := if i = 0 then some (8 + t) else if i = 1 then (if u = 0 then some 16 else none) else some (u + 1)
  fracLabels := ["ground", "glacier"]
  fracs j _ u := if j = 0 then (if u = 0 then some (1 / 2) else some 1) else (if u = 0 then some (1 / 2) else none)
  basinEt := []
  unitEt := [2, 3]

/-- The same with fractions that were not recorded (the default). -/
def noFractions : LogTable ℚ := { table with fracLabels := [] }

/-- A catchment-level store named after the outlet. -/
def outletLake : LogTable ℚ := { table with basinLabels := ["outlet", "outlet_lake:water_content"] }

theorem names : Spec.CoverNames table.fracLabels := ⟨by decide, by decide, by decide⟩

/-- The hypotheses of the three theorems are met. -/
example : table.BasinRecorded ∧ "outlet" ∈ table.basinLabels ∧ table.basinLabels.Nodup ∧
    (∀ l ∈ table.basinLabels, "outlet".toList <:+: l.toList → l = "outlet") ∧ Spec.CoverNames table.fracLabels ∧
    (∀ i ∈ table.unitEt, ':' ∈ (table.unitLabels.getD i "").toList) ∧
    (∀ l ∈ table.basinLabels ++ table.unitLabels, ":water_content".toList <:+: l.toList →
      Spec.IsContent l ":water_content") ∧ (∃ w, Spec.IsWeight table w) := by
  refine ⟨?_, by decide, by decide, ?_, names, by decide, ?_, c50_weights_exist table names⟩
  · intro i _ t _
    simp only [table]; split_ifs <;> rfl
  · intro l hl h
    have := (containsStr_iff l "outlet").mpr h
    simp only [table, List.mem_cons, List.not_mem_nil, or_false] at hl
    rcases hl with rfl | rfl
    · rfl
    · exact absurd this (by decide +kernel)
  · intro l hl h
    have h := (containsStr_iff l ":water_content").mpr h
    simp only [table, List.cons_append, List.nil_append, List.mem_cons, List.not_mem_nil, or_false] at hl
    rcases hl with rfl | rfl | rfl | rfl | rfl | rfl
    · exact absurd h (by decide +kernel)
    · exact ⟨"slow", by decide +kernel⟩
    · exact ⟨"ground", by decide +kernel⟩
    · exact ⟨"glacier_snowpack", by decide +kernel⟩
    · exact absurd h (by decide +kernel)
    · exact absurd h (by decide +kernel)

/-- Numbers: discharge 1+2; evapotranspiration; storage change. -/
example : table.totalOutletDischarge = some 3 ∧ table.totalET = some (27 / 4) ∧
    table.storageChange ":water_content" = some (67 / 8) := by decide +kernel

end TotalsDemo

/-- A store whose name contains "outlet" is added to the total discharge. -/
theorem c50_outlet_by_substring : TotalsDemo.outletLake.outletDischarge = some [some 1, some 2] ∧
    TotalsDemo.outletLake.totalOutletDischarge = some 28 := by decide +kernel

/-- Without recorded fractions (the default) the land cover contents and fluxes count for the whole unit. -/
theorem c50_fractions_not_recorded : TotalsDemo.table.totalET = some (27 / 4) ∧
    TotalsDemo.noFractions.totalET = some 7 ∧
    TotalsDemo.table.storageChange ":water_content" = some (67 / 8) ∧
    TotalsDemo.noFractions.storageChange ":water_content" = some 10 := by decide +kernel

/-- The fraction-weighted branch of the item totals is never taken for the contents that exist: for
`ground:water_content` the total ignores the land cover fraction. -/
theorem c50_item_total_ignores_fraction : TotalsDemo.table.totalHydroUnits "ground:water_content" true = some 17 ∧
    (∀ name : String, ∀ tag ∈ [":water_content", ":snow_content", ":ice_content"],
      containsStr name ":content" = false → ':' ∉ name.toList → containsStr (name ++ tag) ":content" = false) := by
  refine ⟨by decide +kernel, ?_⟩
  intro name tag htag _ hcol
  rw [Bool.eq_false_iff]
  intro h
  rw [containsStr_iff, String.toList_append] at h
  obtain ⟨a, b, hab⟩ := h
  have key : ∀ (n r x : List Char), ':' ∉ n → ':' ∉ r → ∀ a b, a ++ (':' :: x) ++ b = n ++ (':' :: r) → x ++ b = r := by
    intro n r x hn hr a b hab
    have e : a ++ (':' :: (x ++ b)) = n ++ (':' :: r) := by simpa using hab
    rcases List.append_eq_append_iff.mp e with ⟨c, rfl, h2⟩ | ⟨c, rfl, h2⟩
    · rcases c with _ | ⟨y, c⟩
      · simpa using h2
      · simp only [List.cons_append, List.cons.injEq] at h2
        exact absurd (h2.1 ▸ List.mem_append_right _ List.mem_cons_self) hn
    · rcases c with _ | ⟨y, c⟩
      · simpa using h2.symm
      · simp only [List.cons_append, List.cons.injEq] at h2
        exact absurd (h2.2 ▸ List.mem_append_right _ List.mem_cons_self) hr
  have e0 : (":content" : String).toList = ':' :: "content".toList := rfl
  simp only [List.mem_cons, List.not_mem_nil, or_false] at htag
  rw [e0] at hab
  rcases htag with rfl | rfl | rfl
  · have := key name.toList "water_content".toList "content".toList hcol (by decide) a b hab
    simp at this
  · have := key name.toList "snow_content".toList "content".toList hcol (by decide) a b hab
    simp at this
  · have := key name.toList "ice_content".toList "content".toList hcol (by decide) a b hab
    simp at this

end HB
