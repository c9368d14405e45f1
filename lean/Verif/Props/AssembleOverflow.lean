import Verif.Props.AssembleExamples
import Mathlib.Data.List.Basic

/-!
# C63: where the water that does not fit in a brick goes
-/

namespace HB

set_option linter.unusedSectionVars false

open HB.Names HB.Wire HB.Asm

namespace Spec

variable {K : Type}

/-- Flux number `f` is the first one attached to process number `j` of component `c`. -/
def FirstOutput (n : Wire.Net K) (c : Comp) (j f : ℕ) : Prop :=
  (∃ x : Wire.Flux K, n.outs[f]? = some x ∧ x.src = c ∧ x.proc = j) ∧
    ∀ (g : ℕ) (y : Wire.Flux K), g < f → n.outs[g]? = some y → ¬ (y.src = c ∧ y.proc = j)

/-- The overflow of a brick leaves through flux `f`: the first flux of its last overflow process that has any. -/
def OverflowTo (n : Wire.Net K) (c : Comp) (b : Wire.Brick) (f : ℕ) : Prop :=
  ∃ (j : ℕ) (p : Wire.Proc), b.procs[j]? = some p ∧ p.type = "overflow" ∧ FirstOutput n c j f ∧
    ∀ (j' : ℕ) (p' : Wire.Proc), j < j' → b.procs[j']? = some p' → p'.type = "overflow" → ∀ g, ¬ FirstOutput n c j' g

end Spec

namespace Asm

variable {K : Type}

theorem head_zipIdx_filter {α : Type} (P : α → Bool) (l : List α) (s f : ℕ) :
    ((l.zipIdx s).filter fun e => P e.1).head?.map (·.2) = some f ↔
      s ≤ f ∧ (∃ x, l[f - s]? = some x ∧ P x = true) ∧ ∀ (g : ℕ) (y : α), g < f - s → l[g]? = some y → P y = false := by
  induction l generalizing s with
  | nil => simp
  | cons a l ih =>
    rw [List.zipIdx_cons, List.filter_cons]
    cases hP : P a with
    | true =>
      simp only [if_true, List.head?_cons, Option.map_some, Option.some.injEq]
      constructor
      · rintro rfl
        exact ⟨_root_.le_refl _, ⟨a, by simp, hP⟩, fun g y hg => by omega⟩
      · rintro ⟨h1, _, h3⟩
        by_contra hne
        have := h3 0 a (by omega) (by simp)
        rw [hP] at this
        cases this
    | false =>
      simp only [Bool.false_eq_true, if_false]
      rw [ih]
      constructor
      · rintro ⟨h1, ⟨x, hx, hp⟩, h3⟩
        have he : f - s = f - (s + 1) + 1 := by omega
        refine ⟨by omega, ⟨x, by rw [he]; simpa using hx, hp⟩, ?_⟩
        intro g y hg hy
        rcases g with _ | g
        · simp only [List.getElem?_cons_zero, Option.some.injEq] at hy; rw [← hy]; exact hP
        · exact h3 g y (by omega) (by simpa using hy)
      · rintro ⟨h1, ⟨x, hx, hp⟩, h3⟩
        have hlt : s < f := by
          rcases Nat.lt_or_ge s f with h | h
          · exact h
          · have : f - s = 0 := by omega
            rw [this] at hx
            simp only [List.getElem?_cons_zero, Option.some.injEq] at hx
            rw [← hx, hP] at hp; cases hp
        have he : f - s = f - (s + 1) + 1 := by omega
        rw [he] at hx
        exact ⟨by omega, ⟨x, by simpa using hx, hp⟩, fun g y hg hy => h3 (g + 1) y (by omega) (by simpa using hy)⟩

theorem ids_head {n : Wire.Net K} {c : Comp} {j f : ℕ} : (ids n c j).head? = some f ↔ Spec.FirstOutput n c j f := by
  unfold ids
  rw [List.head?_map]
  have := head_zipIdx_filter (fun e : Wire.Flux K => decide (e.src = c ∧ e.proc = j)) n.outs 0 f
  rw [this]
  simp only [Nat.zero_le, true_and, Nat.sub_zero, decide_eq_true_eq, decide_eq_false_iff_not]
  rfl

/-- The links of one brick. -/
def blockOf (n : Wire.Net K) (cb : Comp × Wire.Brick) : List (ℕ × ℕ) :=
  cb.2.procs.zipIdx.filterMap fun pj =>
    if pj.1.type = "overflow" then (ids n cb.1 pj.2).head?.map fun f => (contId cb.1 .water, f) else none

theorem blockOf_key {n : Wire.Net K} {cb : Comp × Wire.Brick} {e : ℕ × ℕ} (h : e ∈ blockOf n cb) : e.1 = contId cb.1 .water := by
  obtain ⟨pj, _, h⟩ := List.mem_filterMap.1 h
  split at h
  · obtain ⟨f, _, rfl⟩ := Option.map_eq_some_iff.1 h
    rfl
  · cases h

theorem lookup_rev_append (l₁ l₂ : List (ℕ × ℕ)) (k : ℕ) :
    (l₁ ++ l₂).reverse.lookup k = (l₂.reverse.lookup k).or (l₁.reverse.lookup k) := by
  rw [List.reverse_append, List.lookup_append]

theorem lookup_none {l : List (ℕ × ℕ)} {k : ℕ} (h : ∀ e ∈ l, e.1 ≠ k) : l.lookup k = none := by
  rw [List.lookup_eq_none_iff]
  intro e he
  simpa using fun hh : k = e.1 => h e he hh.symm

theorem lookup_flat (n : Wire.Net K) (l : List (Comp × Wire.Brick)) (k : ℕ) (x : Comp × Wire.Brick) (hx : x ∈ l)
    (hk : k = contId x.1 .water) (hu : ∀ y ∈ l, contId y.1 .water = k → y = x) :
    (l.flatMap (blockOf n)).reverse.lookup k = (blockOf n x).reverse.lookup k := by
  induction l with
  | nil => cases hx
  | cons a l ih =>
    rw [List.flatMap_cons, lookup_rev_append]
    by_cases hl : x ∈ l
    · rw [ih hl fun y hy => hu y (List.mem_cons_of_mem _ hy)]
      by_cases ha : contId a.1 .water = k
      · rw [hu a List.mem_cons_self ha]
        cases (List.lookup k (blockOf n x).reverse) <;> rfl
      · rw [lookup_none (l := (blockOf n a).reverse)]
        · cases (List.lookup k (blockOf n x).reverse) <;> rfl
        · intro e he; rw [blockOf_key (List.mem_reverse.1 he)]; exact ha
    · rw [lookup_none (l := (l.flatMap (blockOf n)).reverse)]
      · rcases List.mem_cons.1 hx with rfl | h
        · rfl
        · exact (hl h).elim
      · intro e he hek
        obtain ⟨y, hy, he⟩ := List.mem_flatMap.1 (List.mem_reverse.1 he)
        rw [blockOf_key he] at hek
        exact hl (hu y (List.mem_cons_of_mem _ hy) hek ▸ hy)

theorem lookup_block (n : Wire.Net K) (c : Comp) (ps : List Wire.Proc) (f : ℕ) :
    ((ps.zipIdx.filterMap fun pj : Wire.Proc × ℕ =>
      if pj.1.type = "overflow" then (ids n c pj.2).head?.map fun f => (contId c .water, f) else none).reverse.lookup
        (contId c .water) = some f) ↔
    ∃ (j : ℕ) (p : Wire.Proc), ps[j]? = some p ∧ p.type = "overflow" ∧ Spec.FirstOutput n c j f ∧
      ∀ (j' : ℕ) (p' : Wire.Proc), j < j' → ps[j']? = some p' → p'.type = "overflow" → ∀ g, ¬ Spec.FirstOutput n c j' g := by
  induction ps using List.reverseRecOn with
  | nil => simp
  | append_singleton ps q ih =>
    rw [List.zipIdx_append, List.filterMap_append, lookup_rev_append]
    have hin : ∀ (j : ℕ) (p : Wire.Proc), (ps ++ [q])[j]? = some p ↔ ps[j]? = some p ∨ (j = ps.length ∧ p = q) := by
      intro j p
      rcases Nat.lt_trichotomy j ps.length with h | h | h
      · rw [List.getElem?_append_left h]
        constructor
        · exact Or.inl
        · rintro (h1 | h1)
          · exact h1
          · omega
      · subst h
        simp [eq_comm]
      · rw [List.getElem?_eq_none (by simp; omega), List.getElem?_eq_none (by omega)]
        simp; omega
    have hlt : ∀ (j : ℕ) (p : Wire.Proc), ps[j]? = some p → j < ps.length := fun j p h => (List.getElem?_eq_some_iff.1 h).1
    simp only [List.zipIdx_singleton, Nat.zero_add]
    by_cases ho : q.type = "overflow"
    · cases hi : (ids n c ps.length).head? with
      | none =>
        have hno : ∀ g, ¬ Spec.FirstOutput n c ps.length g := by
          intro g hg; rw [ids_head.2 hg] at hi; cases hi
        simp only [List.filterMap_cons, ho, if_true, hi, Option.map_none, List.filterMap_nil, List.reverse_nil, List.lookup_nil,
          Option.none_or]
        rw [ih]
        constructor
        · rintro ⟨j, p, h1, h2, h3, h4⟩
          refine ⟨j, p, (hin j p).2 (Or.inl h1), h2, h3, ?_⟩
          intro j' p' hj hp ht g
          rcases (hin j' p').1 hp with h | ⟨rfl, rfl⟩
          · exact h4 j' p' hj h ht g
          · exact hno g
        · rintro ⟨j, p, h1, h2, h3, h4⟩
          rcases (hin j p).1 h1 with h | ⟨rfl, rfl⟩
          · exact ⟨j, p, h, h2, h3, fun j' p' hj hp => h4 j' p' hj ((hin j' p').2 (Or.inl hp))⟩
          · exact (hno f h3).elim
      | some f' =>
        have hf' := ids_head.1 hi
        simp only [List.filterMap_cons, ho, if_true, hi, Option.map_some, List.filterMap_nil, List.reverse_singleton]
        have : List.lookup (contId c .water) [(contId c .water, f')] = some f' := by simp [List.lookup]
        rw [this]
        simp only [Option.some_or, Option.some.injEq]
        constructor
        · rintro rfl
          refine ⟨ps.length, q, (hin _ _).2 (Or.inr ⟨rfl, rfl⟩), ho, hf', ?_⟩
          intro j' p' hj hp
          rcases (hin j' p').1 hp with h | ⟨rfl, rfl⟩
          · have := hlt _ _ h; omega
          · omega
        · rintro ⟨j, p, h1, h2, h3, h4⟩
          rcases (hin j p).1 h1 with h | ⟨rfl, rfl⟩
          · exact (h4 ps.length q (hlt _ _ h) ((hin _ _).2 (Or.inr ⟨rfl, rfl⟩)) ho f' hf').elim
          · have := ids_head.2 h3
            rw [hi] at this
            exact Option.some.inj this
    · simp only [List.filterMap_cons, ho, if_false, List.filterMap_nil, List.reverse_nil, List.lookup_nil, Option.none_or]
      rw [ih]
      constructor
      · rintro ⟨j, p, h1, h2, h3, h4⟩
        refine ⟨j, p, (hin j p).2 (Or.inl h1), h2, h3, ?_⟩
        intro j' p' hj hp ht g
        rcases (hin j' p').1 hp with h | ⟨rfl, rfl⟩
        · exact h4 j' p' hj h ht g
        · exact (ho ht).elim
      · rintro ⟨j, p, h1, h2, h3, h4⟩
        rcases (hin j p).1 h1 with h | ⟨rfl, rfl⟩
        · exact ⟨j, p, h, h2, h3, fun j' p' hj hp => h4 j' p' hj ((hin j' p').2 (Or.inl hp))⟩
        · exact (ho h2).elim

end Asm

variable {K : Type} [Field K] [LinearOrder K] [IsStrictOrderedRing K]

/-- **C63 (overflow).** In a built model the water that does not fit in a brick's store leaves through the first flux of the
brick's own overflow process (the last one declared, if there are several), and a brick without such a process has no
overflow. -/
theorem c63_overflow (inp : Input K) (m : Wire.Model K) (ext : ℕ → ℕ → K) {c : Comp} {b : Wire.Brick}
    (hb : Spec.brickOf inp c = some b) (f : ℕ) :
    (asm inp m ext).ovf (contId c .water) = some f ↔ Spec.OverflowTo m.net c b f := by
  change overflowOf inp m.net (contId c .water) = some f ↔ _
  have h := lookup_flat m.net (allBricks inp) (contId c .water) (c, b) (mem_allBricks.2 hb) rfl (by
    rintro ⟨c', b'⟩ hy he
    have hb' := mem_allBricks.1 hy
    have := (contId_inj (brickOf_isBrick hb') (brickOf_isBrick hb) he).1
    subst this
    rw [hb] at hb'
    cases hb'
    rfl)
  have h' : overflowOf inp m.net (contId c .water) = (blockOf m.net (c, b)).reverse.lookup (contId c .water) := h
  rw [h']
  exact lookup_block m.net c b.procs f

/-- **C63 (overflow).** Only the water stores of bricks overflow: snow and ice never do. -/
theorem c63_overflow_only (inp : Input K) (m : Wire.Model K) (ext : ℕ → ℕ → K) {k f : ℕ}
    (h : (asm inp m ext).ovf k = some f) :
    ∃ (c : Comp) (b : Wire.Brick), Spec.brickOf inp c = some b ∧ k = contId c .water ∧ Spec.OverflowTo m.net c b f := by
  have h' : ((allBricks inp).flatMap (blockOf m.net)).reverse.lookup k = some f := h
  have hm : ∃ y ∈ allBricks inp, contId y.1 .water = k := by
    by_contra hn
    rw [lookup_none] at h'
    · cases h'
    · intro e he hek
      obtain ⟨y, hy, he⟩ := List.mem_flatMap.1 (List.mem_reverse.1 he)
      exact hn ⟨y, hy, by rw [← blockOf_key he, hek]⟩
  obtain ⟨⟨c, b⟩, hy, rfl⟩ := hm
  have hb := mem_allBricks.1 hy
  exact ⟨c, b, hb, rfl, (c63_overflow inp m ext hb f).1 h⟩

namespace OverflowDemo

/-- A soil store with evapotranspiration and overflow, and a river store. -/
def inp : Input ℚ :=
  ⟨{ basinBricks := [⟨"river", "storage", "", [⟨"out", "outflow:linear", [{ target := "outlet" }]⟩], false⟩] },
   [⟨{ unitBricks := [⟨"soil", "storage", "", [⟨"et", "et:socont", []⟩, ⟨"overflow", "overflow", [{ target := "river" }]⟩], false⟩] },
     3, []⟩]⟩

/-- The built model. -/
def model : Wire.Model ℚ := match build inp with | .ok m => m | .error _ => ⟨⟨[], [], [], 0⟩, .empty, []⟩

/-- The soil store's overflow is flux 2 (after the river outflow and the evapotranspiration), the river store has none. -/
theorem overflows : (∃ m, build inp = .ok m) ∧ Spec.OverflowTo model.net (.unitBrick 0 0) inp.units[0].str.unitBricks[0] 2 ∧
    ¬ ∃ f, Spec.OverflowTo model.net (.basinBrick 0) inp.basin.basinBricks[0] f := by
  refine ⟨WireDemo.isOk (by decide +kernel), ⟨1, _, rfl, rfl, ids_head.1 (by decide +kernel), ?_⟩, ?_⟩
  · intro j p hj hp
    rcases j with _ | _ | j
    · omega
    · omega
    · cases hp
  · rintro ⟨f, j, p, hp, ht, _⟩
    rcases j with _ | j
    · cases hp
      exact absurd ht (by decide)
    · cases hp

end OverflowDemo

end HB
