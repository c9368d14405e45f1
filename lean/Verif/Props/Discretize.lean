import Verif.Spec.Discretize
import Mathlib.Tactic.Linarith
import Mathlib.Tactic.Positivity
import Mathlib.Tactic.FieldSimp
import Mathlib.Tactic.Ring
import Mathlib.Algebra.Order.Field.Rat
import Mathlib.Data.Rat.Floor

/-!
# C82: discretisation of a catchment
-/

namespace HB.Discretize

open HB.Spec.Discretize

set_option linter.unusedSectionVars false

section
variable {K : Type} [Field K] [LinearOrder K] [FloorRing K]

theorem within_iff (lo hi : K) (v : Option K) : within lo hi v = true ↔ ∃ x, v = some x ∧ lo ≤ x ∧ x < hi := by
  cases v <;> simp [within]

theorem holds_iff (c : Cell K) (cl : Class K) : cl.holds c = true ↔ Inside c cl := by
  cases cl with
  | band k lo hi => cases k <;> exact within_iff _ _ _
  | aspect a =>
    cases a
    · unfold Class.holds Inside
      rcases c.aspect with _ | x <;> simp
    all_goals exact within_iff _ _ _
  | sub i => simp [Class.holds, Inside]

theorem inUnit_iff (combo : List (Class K)) (c : Cell K) : inUnit combo c = true ↔ InCombo combo c := by
  unfold inUnit InCombo
  rw [Bool.and_eq_true, List.all_eq_true, Option.isSome_iff_ne_none]
  simp only [holds_iff]

/-! ## Products -/

theorem product_mem {α : Type} : ∀ (l : List (List α)) (t : List α), t ∈ product l ↔ List.Forall₂ (fun x s => x ∈ s) t l
  | [], t => by
    simp only [product, List.mem_singleton]
    constructor
    · rintro rfl; exact .nil
    · intro h; cases h; rfl
  | s :: l, t => by
    simp only [product, List.mem_flatMap, List.mem_map]
    constructor
    · rintro ⟨x, hx, t', ht, rfl⟩
      exact .cons hx ((product_mem l t').1 ht)
    · intro h
      cases h with
      | cons hx ht => exact ⟨_, hx, _, (product_mem l _).2 ht, rfl⟩

theorem product_exists {α : Type} (p : α → Prop) : ∀ (l : List (List α)),
    (∃ t ∈ product l, ∀ x ∈ t, p x) ↔ ∀ s ∈ l, ∃ x ∈ s, p x
  | [] => by simp [product]
  | s :: l => by
    have ih := product_exists p l
    simp only [product, List.mem_flatMap, List.mem_map, List.forall_mem_cons]
    rw [← ih]
    constructor
    · rintro ⟨_, ⟨x, hx, t, ht, rfl⟩, h⟩
      rw [List.forall_mem_cons] at h
      exact ⟨⟨x, hx, h.1⟩, t, ht, h.2⟩
    · rintro ⟨⟨x, hx, h1⟩, t, ht, h2⟩
      exact ⟨x :: t, ⟨x, hx, t, ht, rfl⟩, by rw [List.forall_mem_cons]; exact ⟨h1, h2⟩⟩

theorem product_apart {α β : Type} (inside : β → α → Prop) (cells : List β) : ∀ (l : List (List α)),
    (∀ s ∈ l, s.Pairwise fun a b => ∀ c ∈ cells, ¬ (inside c a ∧ inside c b)) →
    (product l).Pairwise fun s t => ∀ c ∈ cells, ¬ ((∀ x ∈ s, inside c x) ∧ ∀ x ∈ t, inside c x)
  | [], _ => by simp [product]
  | s :: l, h => by
    have ih := product_apart inside cells l fun s hs => h s (List.mem_cons_of_mem _ hs)
    simp only [product]
    rw [List.pairwise_flatMap]
    constructor
    · intro x _
      rw [List.pairwise_map]
      refine ih.imp ?_
      intro s t hst c hc hh
      exact hst c hc ⟨fun y hy => hh.1 y (List.mem_cons_of_mem _ hy), fun y hy => hh.2 y (List.mem_cons_of_mem _ hy)⟩
    · refine (h s List.mem_cons_self).imp ?_
      intro a b hab u hu v hv c hc hh
      obtain ⟨u', -, rfl⟩ := List.mem_map.1 hu
      obtain ⟨v', -, rfl⟩ := List.mem_map.1 hv
      exact hab c hc ⟨hh.1 a List.mem_cons_self, hh.2 b List.mem_cons_self⟩

/-! ## The loop -/

/-- The number of the first combination that contains the cell, after `n` units, or what it was. -/
def numbered (n : ℕ) (l : List (List (Class K))) (c : Cell K) (old : ℕ) : ℕ :=
  match l.findIdx? fun combo => inUnit combo c with
  | some k => n + k + 1
  | none => old

def occupied (cells : List (Cell K)) (combo : List (Class K)) : Bool := decide ((cells.filter (inUnit combo)).length ≠ 0)

theorem zip_map_self {α β γ : Type} (f : α → β) (g : α × β → γ) (l : List α) : (l.zip (l.map f)).map g = l.map fun x => g (x, f x) := by
  induction l with
  | nil => rfl
  | cons x l ih => rw [List.map_cons, List.zip_cons_cons, List.map_cons, ih, List.map_cons]

theorem zip_filter_self {α β : Type} (f : α → β) (p : α × β → Bool) (l : List α) :
    ((l.zip (l.map f)).filter p).length = (l.filter fun x => p (x, f x)).length := by
  induction l with
  | nil => rfl
  | cons x l ih =>
    rw [List.map_cons, List.zip_cons_cons, List.filter_cons, List.filter_cons]
    split <;> simp [ih]

theorem loop_spec (cells : List (Cell K)) : ∀ (rest : List (List (Class K))) (f : Cell K → ℕ) (kept : List (List (Class K))),
    (rest.Pairwise fun a b => ∀ c ∈ cells, ¬ (inUnit a c = true ∧ inUnit b c = true)) →
    (∀ c ∈ cells, f c ≠ 0 → ∀ combo ∈ rest, inUnit combo c = false) →
    loop cells rest (cells.map f, kept) =
      .ok (cells.map fun c => numbered kept.length (rest.filter (occupied cells)) c (f c), kept ++ rest.filter (occupied cells))
  | [], f, kept, _, _ => by simp [loop, numbered]
  | combo :: rest, f, kept, hp, hf => by
    rw [List.pairwise_cons] at hp
    rw [loop]
    by_cases h0 : (cells.filter (inUnit combo)).length = 0
    · rw [if_pos h0, List.filter_cons_of_neg (by simp [occupied, h0])]
      exact loop_spec cells rest f kept hp.2 fun c hc h cb hcb => hf c hc h cb (List.mem_cons_of_mem _ hcb)
    · rw [if_neg h0, zip_filter_self f (fun p : Cell K × ℕ => inUnit combo p.1 && p.2 != 0)]
      have hz : (cells.filter fun x => inUnit combo x && f x != 0).length = 0 := by
        rw [List.length_eq_zero_iff, List.filter_eq_nil_iff]
        intro c hc
        by_cases hfc : f c = 0
        · simp [hfc]
        · simp [hf c hc hfc combo List.mem_cons_self]
      rw [if_neg (by rw [hz]; simp), zip_map_self f (fun p : Cell K × ℕ => if inUnit combo p.1 then kept.length + 1 else p.2)]
      rw [loop_spec cells rest _ _ hp.2 ?_, List.filter_cons_of_pos (by simp [occupied, h0])]
      · congr 1
        rw [Prod.mk.injEq]
        refine ⟨?_, by simp⟩
        refine List.map_congr_left fun c hc => ?_
        unfold numbered
        rw [List.findIdx?_cons]
        by_cases hcc : inUnit combo c = true
        · have hnone : ((rest.filter (occupied cells)).findIdx? fun combo => inUnit combo c) = none := by
            rw [List.findIdx?_eq_none_iff]
            intro cb hcb
            have := hp.1 cb (List.mem_of_mem_filter hcb) c hc
            rcases hb : inUnit cb c with _ | _
            · rfl
            · exact absurd ⟨hcc, hb⟩ this
          rw [hnone]
          simp [hcc]
        · simp only [hcc]
          rcases (rest.filter (occupied cells)).findIdx? fun combo => inUnit combo c with _ | k
          · simp
          · simp only [Option.map_some, List.length_append, List.length_singleton]
            simp
            omega
      · intro c hc hne cb hcb
        by_cases hcc : inUnit combo c = true
        · have := hp.1 cb hcb c hc
          rcases hb : inUnit cb c with _ | _
          · rfl
          · exact absurd ⟨hcc, hb⟩ this
        · simp only [hcc] at hne
          exact hf c hc hne cb (List.mem_cons_of_mem _ hcb)

/-- **C82**: the units of a discretisation whose classes exclude each other.  It never fails; the units are exactly the
combinations with at least one cell, without repetition; a cell has number `k + 1` exactly when it is in the `k`-th combination,
and no number exactly when it is outside of the catchment or in no class of some criterion. -/
theorem c82_units (cells : List (Cell K)) (criteria : List (List (Class K))) (hx : ∀ classes ∈ criteria, Exclusive cells classes) :
    ∃ ids kept, discretize cells criteria = .ok (ids, kept) ∧ ids.length = cells.length ∧
      (∀ combo, combo ∈ kept ↔ OneOfEach criteria combo ∧ ∃ c ∈ cells, InCombo combo c) ∧ kept.Nodup ∧
      ∀ (i : ℕ) (c : Cell K), cells[i]? = some c →
        (∀ (k : ℕ) (combo : List (Class K)), kept[k]? = some combo → InCombo combo c → ids[i]? = some ((k + 1) % 65536)) ∧
        (¬ Covered criteria c → ids[i]? = some 0) ∧
        (kept.length < 65536 → (∀ (k : ℕ) (combo : List (Class K)), kept[k]? = some combo → (ids[i]? = some (k + 1) ↔ InCombo combo c)) ∧
          (ids[i]? = some 0 ↔ ¬ Covered criteria c)) := by
  have hap : (product criteria).Pairwise fun a b => ∀ c ∈ cells, ¬ (inUnit a c = true ∧ inUnit b c = true) := by
    refine (product_apart Inside cells criteria hx).imp ?_
    intro a b hab c hc hh
    rw [inUnit_iff, inUnit_iff] at hh
    exact hab c hc ⟨hh.1.2, hh.2.2⟩
  have hl := loop_spec cells (product criteria) (fun _ => 0) [] hap (fun c _ h => absurd rfl h)
  set kept := (product criteria).filter (occupied cells) with hkept
  have hmem : ∀ combo, combo ∈ kept ↔ OneOfEach criteria combo ∧ ∃ c ∈ cells, InCombo combo c := by
    intro combo
    rw [hkept, List.mem_filter, product_mem]
    unfold OneOfEach occupied
    rw [decide_eq_true_eq, Ne, List.length_eq_zero_iff, List.filter_eq_nil_iff]
    simp only [inUnit_iff]
    push Not
    rfl
  have hpk : kept.Pairwise fun a b => ∀ c ∈ cells, ¬ (inUnit a c = true ∧ inUnit b c = true) := hap.filter _
  have huniq : ∀ (k k' : ℕ) (a b : List (Class K)) (c : Cell K), c ∈ cells → kept[k]? = some a → kept[k']? = some b →
      inUnit a c = true → inUnit b c = true → k = k' := by
    intro k k' a b c hc ha hb iha ihb
    rw [List.pairwise_iff_getElem] at hpk
    obtain ⟨h1, rfl⟩ := List.getElem?_eq_some_iff.1 ha
    obtain ⟨h2, rfl⟩ := List.getElem?_eq_some_iff.1 hb
    rcases Nat.lt_trichotomy k k' with h | h | h
    · exact absurd ⟨iha, ihb⟩ (hpk k k' h1 h2 h c hc)
    · exact h
    · exact absurd ⟨ihb, iha⟩ (hpk k' k h2 h1 h c hc)
  have hnum : ∀ (c : Cell K), c ∈ cells → (∀ (k : ℕ) (combo : List (Class K)), kept[k]? = some combo → inUnit combo c = true → numbered 0 kept c 0 = k + 1) := by
    intro c hc k combo hk hin
    unfold numbered
    rcases hf : kept.findIdx? fun combo => inUnit combo c with _ | k'
    · rw [List.findIdx?_eq_none_iff] at hf
      exact absurd hin (by simp [hf combo (List.mem_of_getElem? hk)])
    · obtain ⟨h1, h2, -⟩ := List.findIdx?_eq_some_iff_getElem.1 hf
      have := huniq k k' combo kept[k'] c hc hk (List.getElem?_eq_getElem h1) hin h2
      simp [this]
  have hcov : ∀ c ∈ cells, (∃ combo ∈ kept, inUnit combo c = true) ↔ Covered criteria c := by
    intro c hc
    unfold Covered
    rw [← product_exists]
    constructor
    · rintro ⟨combo, hk, hin⟩
      rw [inUnit_iff] at hin
      rw [hkept, List.mem_filter] at hk
      exact ⟨hin.1, combo, hk.1, hin.2⟩
    · rintro ⟨h1, combo, h2, h3⟩
      have hin : InCombo combo c := ⟨h1, h3⟩
      exact ⟨combo, (hmem combo).2 ⟨(product_mem _ _).1 h2, c, hc, hin⟩, (inUnit_iff _ _).2 hin⟩
  have hzero : ∀ c ∈ cells, ¬ Covered criteria c → numbered 0 kept c 0 = 0 := by
    intro c hc hn
    unfold numbered
    rcases hf : kept.findIdx? fun combo => inUnit combo c with _ | k'
    · rfl
    · obtain ⟨h1, h2, -⟩ := List.findIdx?_eq_some_iff_getElem.1 hf
      exact absurd ((hcov c hc).1 ⟨_, List.getElem_mem h1, h2⟩) hn
  refine ⟨(cells.map fun c => numbered 0 kept c 0).map fun i => i % 65536, kept, ?_, by simp, hmem, ?_, ?_⟩
  · unfold discretize
    rw [hl]
    rfl
  · rw [List.Nodup]
    rw [List.pairwise_iff_getElem]
    intro i j hi hj hij e
    have hci := (hmem kept[i]).1 (List.getElem_mem hi)
    obtain ⟨-, c, hc, hin⟩ := hci
    rw [List.pairwise_iff_getElem] at hpk
    exact hpk i j hi hj hij c hc ⟨(inUnit_iff _ _).2 hin, e ▸ (inUnit_iff _ _).2 hin⟩
  · intro i c hi
    have hc := List.mem_of_getElem? hi
    have hval : ((cells.map fun c => numbered 0 kept c 0).map fun i => i % 65536)[i]? = some (numbered 0 kept c 0 % 65536) := by
      rw [List.getElem?_map, List.getElem?_map, hi]
      rfl
    rw [hval]
    refine ⟨?_, ?_, ?_⟩
    · intro k combo hk hin
      rw [hnum c hc k combo hk ((inUnit_iff _ _).2 hin)]
    · intro hn
      rw [hzero c hc hn]
    · intro hlen
      have hlt : numbered 0 kept c 0 % 65536 = numbered 0 kept c 0 := by
        apply Nat.mod_eq_of_lt
        by_cases hn : Covered criteria c
        · obtain ⟨combo, hk, hin⟩ := (hcov c hc).2 hn
          obtain ⟨k, hk⟩ := List.mem_iff_getElem?.1 hk
          rw [hnum c hc k combo hk hin]
          have := (List.getElem?_eq_some_iff.1 hk).1
          omega
        · rw [hzero c hc hn]; omega
      rw [hlt]
      constructor
      · intro k combo hk
        constructor
        · intro e
          rw [Option.some.injEq] at e
          by_cases hn : Covered criteria c
          · obtain ⟨combo', hk', hin⟩ := (hcov c hc).2 hn
            obtain ⟨k', hk'⟩ := List.mem_iff_getElem?.1 hk'
            rw [hnum c hc k' combo' hk' hin] at e
            have : k' = k := by omega
            subst this
            rw [hk] at hk'
            cases hk'
            exact (inUnit_iff _ _).1 hin
          · rw [hzero c hc hn] at e
            omega
        · intro hin
          rw [hnum c hc k combo hk ((inUnit_iff _ _).2 hin)]
      · constructor
        · intro e hn
          rw [Option.some.injEq] at e
          obtain ⟨combo', hk', hin⟩ := (hcov c hc).2 hn
          obtain ⟨k', hk'⟩ := List.mem_iff_getElem?.1 hk'
          rw [hnum c hc k' combo' hk' hin] at e
          omega
        · intro hn
          rw [hzero c hc hn]

end
end HB.Discretize
