import Verif.Model.Setup
import Verif.Spec.Setup
import Verif.Model.PredefinedReady4
import Verif.Props.Basin2
import Verif.Props.Structures
import Verif.Props.DateText
import Verif.Props.Names
import Mathlib.Algebra.BigOperators.Group.Finset.Basic

/-!
# Lemmas on setting up a model (C73)
-/

set_option linter.unusedSectionVars false

namespace HB.Setup

open HB.Names HB.Wire HB.Basin

variable {K : Type} [Field K] [LinearOrder K] [IsStrictOrderedRing K]

/-- Writing good descriptions works, and gives the described structures. -/
theorem write_ok {bas : List String} : ∀ {vs : List Wire.Variant}, (∀ v ∈ vs, Good v bas) →
    ∃ ws, write vs = .ok ws ∧ ws.map (·.desc) = vs ∧
      ∀ w ∈ ws, Good w.desc bas ∧ w.str = Spec.complete w.desc ∧ ∃ a, generateOne w.desc = .ok a ∧ a.str = w.str
  | [], _ => ⟨[], rfl, rfl, by simp⟩
  | v :: l, h => by
    obtain ⟨ws, h1, h2, h3⟩ := write_ok (vs := l) fun v hv => h v (List.mem_cons_of_mem _ hv)
    have hg := h v List.mem_cons_self
    obtain ⟨a, ha, hs⟩ := generateOne_yields hg.names hg.build hg.plan
    refine ⟨⟨v, a.str⟩ :: ws, ?_, by simp [h2], ?_⟩
    · rw [write, ha, h1]; rfl
    · intro w hw
      rcases List.mem_cons.1 hw with rfl | hw
      · exact ⟨hg, hs, a, ha, rfl⟩
      · exact h3 w hw

/-- The covers of a described structure. -/
theorem coverList (v : Wire.Variant) :
    ((Spec.complete v).covers.filterMap fun i => ((Spec.complete v).unitBricks[i]?).map (·.name)) = v.base.covers.map (·.name) := by
  rw [complete_covers]
  apply List.ext_getElem?
  intro k
  have : ∀ l : List ℕ, (∀ i ∈ l, ∃ c, v.base.covers[i]? = some c) →
      (l.filterMap fun i => ((Spec.complete v).unitBricks[i]?).map (·.name)) = l.map fun i => ((v.base.covers[i]?).map (·.name)).getD "" := by
    intro l
    induction l with
    | nil => intro _; rfl
    | cons i l ih =>
      intro hl
      obtain ⟨c, hc⟩ := hl i List.mem_cons_self
      rw [List.filterMap_cons, cover_get hc, List.map_cons, hc, ih fun j hj => hl j (List.mem_cons_of_mem _ hj)]
      rfl
  rw [this (List.range (nc v)) (fun i hi => ⟨_, List.getElem?_eq_getElem (by simpa [nc] using hi)⟩)]
  rw [List.getElem?_map, List.getElem?_map]
  by_cases hk : k < nc v
  · rw [List.getElem?_range hk, List.getElem?_eq_getElem (by simpa [nc] using hk)]
    simp [List.getElem?_eq_getElem (show k < v.base.covers.length by simpa [nc] using hk)]
    rfl
  · rw [List.getElem?_eq_none (by simpa using hk), List.getElem?_eq_none (by simpa [nc] using hk)]
    rfl

theorem coverNames_list (v : Wire.Variant) :
    ((Spec.complete v).covers.map fun i => ((Spec.complete v).unitBricks[i]?).map (·.name)) = (v.base.covers.map (·.name)).map some := by
  rw [complete_covers]
  apply List.ext_getElem?
  intro k
  rw [List.getElem?_map, List.getElem?_map, List.getElem?_map]
  cases hk : v.base.covers[k]? with
  | none =>
    rw [List.getElem?_eq_none_iff.2]
    · rfl
    · rw [List.length_range]; exact List.getElem?_eq_none_iff.1 hk
  | some c =>
    rw [List.getElem?_range (n := nc v) ((List.getElem?_eq_some_iff.1 hk).1)]
    simp only [Option.map_some]
    rw [cover_get hk]
    rfl

theorem coverSet_complete (v : Wire.Variant) : coverSet (Spec.complete v) = (v.base.covers.map (·.name)).toFinset := by
  unfold coverSet
  rw [coverList]

theorem coverNames_nodup {v : Wire.Variant} (h : Spec.GoodNames v.base) : (v.base.covers.map (·.name)).Nodup := by
  have := h.distinct
  have e : ((Spec.base v.base).unitBricks.map (·.name)) = v.base.covers.map (·.name) ++ ((Spec.base v.base).unitBricks.drop v.base.covers.length).map (·.name) := by
    conv_lhs => rw [← List.take_append_drop v.base.covers.length (Spec.base v.base).unitBricks, List.map_append]
    congr 1
    unfold Spec.base
    simp only [List.append_assoc]
    rw [List.take_append_of_le_length (by simp), List.take_of_length_le (by simp), List.map_map]
    rfl
  rw [e] at this
  exact (List.nodup_append.1 this).1

theorem coverSet_card {v : Wire.Variant} (h : Spec.GoodNames v.base) : (coverSet (Spec.complete v)).card = v.base.covers.length := by
  rw [coverSet_complete, List.toFinset_card_of_nodup (coverNames_nodup h), List.length_map]

/-- The covers of a unit that count when its structure is chosen are those with an extent. -/
theorem present_iff {u : UnitDecl K} (hf : ∀ c ∈ u.covers, c.fraction = 0 ∨ 1 / 10 ^ 8 < c.fraction ∧ c.fraction ≤ 1) (x : String) :
    x ∈ presentCovers (u.covers.map fun c => (c.name, c.fraction)) ↔ ∃ c ∈ u.covers, c.name = x ∧ c.fraction ≠ 0 := by
  rw [c48_present]
  have e : (10 : K) ^ 8 = 100000000 := by norm_num
  have e8 : (0 : K) < 1 / 10 ^ 8 := by positivity
  constructor
  · rintro ⟨f, hm, hlt⟩
    obtain ⟨c, hc, he⟩ := List.mem_map.1 hm
    cases he
    refine ⟨c, hc, rfl, fun h0 => ?_⟩
    rw [h0, abs_zero, ← e] at hlt
    exact absurd hlt (not_lt.2 e8.le)
  · rintro ⟨c, hc, rfl, h0⟩
    refine ⟨c.fraction, List.mem_map.2 ⟨c, hc, rfl⟩, ?_⟩
    rcases hf c hc with h | h
    · exact absurd h h0
    · rw [abs_of_pos (e8.trans h.1), ← e]; exact h.1

/-- The structure chosen has the covers of the unit, and none of the others that have them has fewer. -/
theorem chosen_spec {bas : List String} {ws : List Written} (hne : ws ≠ [])
    (hw : ∀ w ∈ ws, Good w.desc bas ∧ w.str = Spec.complete w.desc) {u : UnitDecl K}
    (hf : ∀ c ∈ u.covers, c.fraction = 0 ∨ 1 / 10 ^ 8 < c.fraction ∧ c.fraction ≤ 1)
    (ht : ∃ w ∈ ws, ∀ c ∈ u.covers, c.fraction ≠ 0 → c.name ∈ w.desc.base.covers.map (·.name)) :
    ∃ w ∈ ws, chosen ws u = some w ∧ (∀ c ∈ u.covers, c.fraction ≠ 0 → c.name ∈ w.desc.base.covers.map (·.name)) ∧
      ∀ w' ∈ ws, (∀ c ∈ u.covers, c.fraction ≠ 0 → c.name ∈ w'.desc.base.covers.map (·.name)) →
        w.desc.base.covers.length ≤ w'.desc.base.covers.length := by
  set present := presentCovers (u.covers.map fun c => (c.name, c.fraction)) with hpr
  have hsub : ∀ w ∈ ws, (present ⊆ coverSet w.str ↔ ∀ c ∈ u.covers, c.fraction ≠ 0 → c.name ∈ w.desc.base.covers.map (·.name)) := by
    intro w hwm
    rw [(hw w hwm).2, coverSet_complete]
    constructor
    · intro h c hc h0
      exact List.mem_toFinset.1 (h ((present_iff hf _).2 ⟨c, hc, rfl, h0⟩))
    · intro h x hx
      obtain ⟨c, hc, rfl, h0⟩ := (present_iff hf _).1 hx
      exact List.mem_toFinset.2 (h c hc h0)
  obtain ⟨cs, h1, h2, h3⟩ := c48_tightest (ws.map fun w => coverSet w.str) present (by simpa using hne)
  rw [List.getElem?_map] at h1
  obtain ⟨w, hw1, rfl⟩ := Option.map_eq_some_iff.1 h1
  have hwm : w ∈ ws := List.mem_of_getElem? hw1
  obtain ⟨w0, hw0, hw0c⟩ := ht
  have key : present ⊆ coverSet w.str ∧ ∀ w' ∈ ws, present ⊆ coverSet w'.str → (coverSet w.str).card ≤ (coverSet w'.str).card := by
    rcases h3 with h3 | ⟨h3, h4, -⟩
    · rw [List.length_map] at h3
      obtain ⟨x, rfl⟩ := List.length_eq_one_iff.1 h3
      have e1 := List.mem_singleton.1 hwm
      have e2 := List.mem_singleton.1 hw0
      refine ⟨(hsub w hwm).2 (by rw [e1, ← e2]; exact hw0c), fun w' hw' _ => ?_⟩
      rw [List.mem_singleton.1 hw', e1]
    · by_cases hm : present ∈ ws.map fun w => coverSet w.str
      · rw [h3 hm]
        exact ⟨fun _ h => h, fun w' _ h => Finset.card_le_card h⟩
      · obtain ⟨a, b⟩ := h4 hm ⟨_, List.mem_map.2 ⟨w0, hw0, rfl⟩, (hsub w0 hw0).2 hw0c⟩
        exact ⟨a, fun w' hw' h => b _ (List.mem_map.2 ⟨w', hw', rfl⟩) h⟩
  refine ⟨w, hwm, hw1, (hsub w hwm).1 key.1, fun w' hw' h => ?_⟩
  have := key.2 w' hw' ((hsub w' hw').2 h)
  rwa [(hw w hwm).2, (hw w' hw').2, coverSet_card (hw w hwm).1.names, coverSet_card (hw w' hw').1.names] at this

/-- All units. -/
theorem chooseAll_spec {ws : List Written} {Q : UnitDecl K → Written → Prop} :
    ∀ {us : List (UnitDecl K)} {bs : List (BUnit K)}, us.length = bs.length → (∀ u ∈ us, ∃ w, chosen ws u = some w ∧ Q u w) →
    ∃ sel, chooseAll ws us bs = some sel ∧ sel.length = us.length ∧
      ∀ (k : ℕ) (u : UnitDecl K) (b : BUnit K), us[k]? = some u → bs[k]? = some b → ∃ w, sel[k]? = some (w, b) ∧ Q u w
  | [], [], _, _ => ⟨[], rfl, rfl, by simp⟩
  | u :: us, b :: bs, hlen, h => by
    obtain ⟨w, hw, hq⟩ := h u List.mem_cons_self
    obtain ⟨sel, h1, h2, h3⟩ := chooseAll_spec (us := us) (bs := bs) (by simpa using hlen) fun u hu => h u (List.mem_cons_of_mem _ hu)
    refine ⟨(w, b) :: sel, by rw [chooseAll, hw, h1], by simp [h2], ?_⟩
    intro k u' b' hu' hb'
    cases k with
    | zero =>
      simp only [List.getElem?_cons_zero, Option.some.injEq] at hu' hb'
      subst hu' hb'
      exact ⟨w, rfl, hq⟩
    | succ k => exact h3 k u' b' hu' hb'

end HB.Setup
