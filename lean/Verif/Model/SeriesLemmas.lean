import Verif.Model.RunLemmas
import Verif.Spec.Forcing

/-! # Lemmas on series positions -/

set_option linter.unusedSectionVars false

namespace HB

theorem untilFalse_true {α : Type} {f : α → α × Bool} : ∀ {l : List α}, (untilFalse f l).2 = true →
    (untilFalse f l).1 = l.map (fun a => (f a).1) ∧ ∀ a ∈ l, (f a).2 = true := by
  intro l
  induction l with
  | nil => intro _; simp [untilFalse]
  | cons a l ih =>
    intro h
    unfold untilFalse at h ⊢
    split at h
    · rename_i ha
      simp only [ha, if_true]
      obtain ⟨h1, h2⟩ := ih h
      refine ⟨by rw [h1]; rfl, ?_⟩
      intro b hb
      rcases List.mem_cons.1 hb with rfl | hb
      · exact ha
      · exact h2 b hb
    · cases h

theorem untilFalse_all {α : Type} {f : α → α × Bool} : ∀ {l : List α}, (∀ a ∈ l, (f a).2 = true) →
    (untilFalse f l).2 = true := by
  intro l
  induction l with
  | nil => intro _; rfl
  | cons a l ih =>
    intro h
    unfold untilFalse
    rw [if_pos (h a (by simp))]
    exact ih fun b hb => h b (List.mem_cons_of_mem _ hb)

section
variable {K : Type} [Field K] [LinearOrder K] [IsStrictOrderedRing K] [FloorRing K]

/-- The series read `k` positions further. -/
def RegSeries.shift (k : ℕ) (r : RegSeries K) : RegSeries K := { r with cursor := r.cursor + k }
def DSeries.shift (k : ℕ) (s : DSeries K) : DSeries K := { s with data := s.data.map fun e => (e.1, e.2.shift k) }
def shiftAll (k : ℕ) (l : List (DSeries K)) : List (DSeries K) := l.map (DSeries.shift k)

/-- All cursors set to a date (whatever the function answers). -/
def RegSeries.at (d : K) (r : RegSeries K) : RegSeries K := (r.setCursor d).1
def DSeries.at (d : K) (s : DSeries K) : DSeries K := { s with data := s.data.map fun e => (e.1, e.2.at d) }
def atAll (d : K) (l : List (DSeries K)) : List (DSeries K) := l.map (DSeries.at d)

theorem DSeries.setCursor_true {d : K} {s : DSeries K} (h : (s.setCursor d).2 = true) :
    (s.setCursor d).1 = s.at d ∧ ∀ e ∈ s.data, (e.2.setCursor d).2 = true := by
  unfold DSeries.setCursor at h ⊢
  simp only at h ⊢
  obtain ⟨h1, h2⟩ := untilFalse_true h
  exact ⟨by rw [h1]; rfl, h2⟩

theorem RegSeries.advance_true {r : RegSeries K} (h : r.advance.2 = true) :
    r.advance.1 = r.shift 1 ∧ r.cursor < r.values.length := by
  unfold RegSeries.advance at h ⊢
  split at h
  · cases h
  · rename_i hc
    rw [if_neg hc]
    exact ⟨rfl, by omega⟩

theorem RegSeries.advance_lt {r : RegSeries K} (h : r.cursor < r.values.length) : r.advance.2 = true := by
  unfold RegSeries.advance
  rw [if_neg (by omega)]

theorem DSeries.advance_true {s : DSeries K} (h : s.advance.2 = true) :
    s.advance.1 = s.shift 1 ∧ ∀ e ∈ s.data, e.2.cursor < e.2.values.length := by
  unfold DSeries.advance at h ⊢
  simp only at h ⊢
  obtain ⟨h1, h2⟩ := untilFalse_true h
  refine ⟨?_, fun e he => (RegSeries.advance_true (h2 e he)).2⟩
  rw [h1]
  unfold DSeries.shift
  congr 1
  apply List.map_congr_left
  intro e he
  rw [(RegSeries.advance_true (h2 e he)).1]

theorem initAll_true {d : K} {l : List (DSeries K)} (h : (untilFalse (fun t : DSeries K => t.setCursor d) l).2 = true) :
    (untilFalse (fun t : DSeries K => t.setCursor d) l).1 = atAll d l ∧
      ∀ t ∈ l, ∀ e ∈ t.data, (e.2.setCursor d).2 = true := by
  obtain ⟨h1, h2⟩ := untilFalse_true h
  refine ⟨?_, fun t ht => (DSeries.setCursor_true (h2 t ht)).2⟩
  rw [h1]
  apply List.map_congr_left
  intro t ht
  exact (DSeries.setCursor_true (h2 t ht)).1

theorem initAll_ok {d : K} {l : List (DSeries K)} (h : ∀ t ∈ l, ∀ e ∈ t.data, (e.2.setCursor d).2 = true) :
    (untilFalse (fun t : DSeries K => t.setCursor d) l).2 = true :=
  untilFalse_all fun t ht => untilFalse_all fun e he => h t ht e he

theorem advAll_true {l : List (DSeries K)} (h : (untilFalse (fun t : DSeries K => t.advance) l).2 = true) :
    (untilFalse (fun t : DSeries K => t.advance) l).1 = shiftAll 1 l ∧
      ∀ t ∈ l, ∀ e ∈ t.data, e.2.cursor < e.2.values.length := by
  obtain ⟨h1, h2⟩ := untilFalse_true h
  refine ⟨?_, fun t ht => (DSeries.advance_true (h2 t ht)).2⟩
  rw [h1]
  apply List.map_congr_left
  intro t ht
  exact (DSeries.advance_true (h2 t ht)).1

theorem advAll_ok {l : List (DSeries K)} (h : ∀ t ∈ l, ∀ e ∈ t.data, e.2.cursor < e.2.values.length) :
    (untilFalse (fun t : DSeries K => t.advance) l).2 = true :=
  untilFalse_all fun t ht => untilFalse_all fun e he => RegSeries.advance_lt (h t ht e he)

theorem RegSeries.shift_shift (a b : ℕ) (r : RegSeries K) : (r.shift a).shift b = r.shift (a + b) := by
  unfold RegSeries.shift; simp [add_assoc]

theorem RegSeries.shift_zero (r : RegSeries K) : r.shift 0 = r := rfl

theorem shiftAll_shiftAll (a b : ℕ) (l : List (DSeries K)) : shiftAll b (shiftAll a l) = shiftAll (a + b) l := by
  unfold shiftAll DSeries.shift
  simp [List.map_map, Function.comp_def, RegSeries.shift_shift]

theorem shiftAll_zero (l : List (DSeries K)) : shiftAll 0 l = l := by
  unfold shiftAll DSeries.shift
  simp [RegSeries.shift_zero]

theorem RegSeries.at_cursor (d : K) (r : RegSeries K) (n : ℕ) (h : (r.setCursor d).2 = true) :
    ({ r with cursor := n } : RegSeries K).at d = r.at d ∧ (({ r with cursor := n } : RegSeries K).setCursor d).2 = true := by
  unfold RegSeries.at
  unfold RegSeries.setCursor at h ⊢
  simp only at h ⊢
  split at h
  · cases h
  · split at h
    · cases h
    · rename_i h1 h2
      rw [if_neg h1, if_neg h2]
      cases hu : r.unit <;> simp [hu] at h ⊢ <;> simp [h1, h2]

theorem attached_map (f : RegSeries K → RegSeries K) (l : List (DSeries K)) (u : ℤ) (v : VarType) :
    attached (l.map fun s => { s with data := s.data.map fun e => (e.1, f e.2) }) u v = (attached l u v).map f := by
  unfold attached DSeries.dataFor
  rw [List.find?_map]
  rcases hs : List.find? (fun s : DSeries K => s.var == v) l with _ | s
  · have : List.find? ((fun s : DSeries K => s.var == v) ∘ fun s => { s with data := s.data.map fun e => (e.1, f e.2) }) l
        = none := hs
    simp [this]
  · have : List.find? ((fun s : DSeries K => s.var == v) ∘ fun s => { s with data := s.data.map fun e => (e.1, f e.2) }) l
        = some s := hs
    simp only [this, Option.map_some, Option.bind_some]
    rw [List.find?_map]
    have e2 : ((fun e : ℤ × RegSeries K => e.1 == u) ∘ fun e : ℤ × RegSeries K => (e.1, f e.2)) =
        fun e : ℤ × RegSeries K => e.1 == u := rfl
    rw [e2]
    cases List.find? (fun e : ℤ × RegSeries K => e.1 == u) s.data <;> rfl

theorem attached_shift (k : ℕ) (l : List (DSeries K)) (u : ℤ) (v : VarType) :
    attached (shiftAll k l) u v = (attached l u v).map (RegSeries.shift k) := attached_map (RegSeries.shift k) l u v

theorem attached_at (d : K) (l : List (DSeries K)) (u : ℤ) (v : VarType) :
    attached (atAll d l) u v = (attached l u v).map (RegSeries.at d) := attached_map (RegSeries.at d) l u v

theorem attached_mem {l : List (DSeries K)} {u : ℤ} {v : VarType} {r : RegSeries K} (h : attached l u v = some r) :
    ∃ t ∈ l, ∃ e ∈ t.data, e.2 = r ∧ e.1 = u ∧ t.var = v := by
  unfold attached DSeries.dataFor at h
  rw [Option.bind_eq_some_iff] at h
  obtain ⟨t, ht, h⟩ := h
  rw [Option.map_eq_some_iff] at h
  obtain ⟨e, he, rfl⟩ := h
  refine ⟨t, List.mem_of_find?_eq_some ht, e, List.mem_of_find?_eq_some he, rfl, ?_, ?_⟩
  · simpa using List.find?_some he
  · simpa using List.find?_some ht

theorem RegSeries.at_fields (d : K) (r : RegSeries K) : (r.at d).values = r.values ∧ (r.at d).start = r.start ∧
    (r.at d).stop = r.stop ∧ (r.at d).step = r.step ∧ (r.at d).unit = r.unit := by
  unfold RegSeries.at RegSeries.setCursor
  split
  · simp
  · split
    · simp
    · split <;> simp_all

theorem baseRead_shift (k : ℕ) (l : List (DSeries K)) (u : ℤ) (v : VarType) :
    baseRead (shiftAll k l) u v = (attached l u v).bind fun r => r.values[r.cursor + k]? := by
  unfold baseRead
  rw [attached_shift]
  cases attached l u v <;> rfl

end

/-! ## Executions -/

theorem exec_overrides {K A : Type} {base : ℤ → VarType → Option K} : ∀ {p : Prog K A} {o o' : Overrides K} {a : A}
    {evs : List (FEv K)}, p.exec base o = some (a, o', evs) →
    ∀ pre post u v x, evs = pre ++ .rd u v x :: post → some x = ((lastWrite pre u v).or (o u v)).or (base u v) := by
  intro p
  induction p with
  | ret a =>
    intro o o' a' evs h pre post u v x he
    simp only [Prog.exec, Option.some.injEq, Prod.mk.injEq] at h
    rw [← h.2.2] at he
    exact absurd he (by simp)
  | read u0 v0 k ih =>
    intro o o' a' evs h pre post u v x he
    rw [Prog.exec] at h
    split at h
    · cases h
    · rename_i y hy
      rw [Option.map_eq_some_iff] at h
      obtain ⟨r, hr, hre⟩ := h
      simp only [Prod.mk.injEq] at hre
      obtain ⟨-, -, hev⟩ := hre
      rw [← hev] at he
      cases pre with
      | nil =>
        simp only [List.nil_append, List.cons.injEq, FEv.rd.injEq] at he
        obtain ⟨⟨rfl, rfl, rfl⟩, -⟩ := he
        rw [← hy]
        cases hov : o u0 v0 <;> simp [lastWrite]
      | cons e pre =>
        simp only [List.cons_append, List.cons.injEq] at he
        obtain ⟨rfl, he⟩ := he
        exact ih y hr pre post u v x he
  | write u0 v0 x0 k ih =>
    intro o o' a' evs h pre post u v x he
    rw [Prog.exec, Option.map_eq_some_iff] at h
    obtain ⟨r, hr, hre⟩ := h
    simp only [Prod.mk.injEq] at hre
    obtain ⟨-, -, hev⟩ := hre
    rw [← hev] at he
    cases pre with
    | nil => simp at he
    | cons e pre =>
      simp only [List.cons_append, List.cons.injEq] at he
      obtain ⟨rfl, he⟩ := he
      have := ih hr pre post u v x he
      rw [this]
      unfold Overrides.set
      simp only [lastWrite]
      by_cases hc : u = u0 ∧ v = v0
      · obtain ⟨rfl, rfl⟩ := hc; simp
      · have : ¬(u0 = u ∧ v0 = v) := fun h => hc ⟨h.1.symm, h.2.symm⟩
        simp [hc, this]

theorem exec_coherent {K A : Type} {base : ℤ → VarType → Option K} {p : Prog K A} {o' : Overrides K} {a : A}
    {evs : List (FEv K)} (h : p.exec base (fun _ _ => none) = some (a, o', evs)) : Coherent base evs := by
  intro pre post u v x he
  have := exec_overrides h pre post u v x he
  simpa using this

theorem exec_total {K A : Type} {base : ℤ → VarType → Option K} {S : ℤ → VarType → Prop}
    (hS : ∀ u v, S u v → (base u v).isSome) : ∀ {p : Prog K A} (o : Overrides K), p.ReadsOnly S → (p.exec base o).isSome := by
  intro p
  induction p with
  | ret a => intro o _; rfl
  | read u v k ih =>
    intro o hp
    rw [Prog.exec]
    obtain ⟨y, hy⟩ := Option.isSome_iff_exists.1 (hS u v hp.1)
    cases ho : o u v with
    | some x => simp only; rw [Option.isSome_map]; exact ih x o (hp.2 x)
    | none => simp only [hy]; rw [Option.isSome_map]; exact ih y o (hp.2 y)
  | write u v x k ih =>
    intro o hp
    rw [Prog.exec, Option.isSome_map]
    exact ih _ hp

theorem exec_ensures {K A : Type} {base : ℤ → VarType → Option K} {Q : A → Prop} : ∀ {p : Prog K A} {o o' : Overrides K}
    {a : A} {evs : List (FEv K)}, p.Ensures Q → p.exec base o = some (a, o', evs) → Q a := by
  intro p
  induction p with
  | ret a =>
    intro o o' a' evs hq h
    simp only [Prog.exec, Option.some.injEq, Prod.mk.injEq] at h
    rw [← h.1]; exact hq
  | read u v k ih =>
    intro o o' a' evs hq h
    rw [Prog.exec] at h
    split at h
    · cases h
    · rename_i y hy
      rw [Option.map_eq_some_iff] at h
      obtain ⟨r, hr, hre⟩ := h
      simp only [Prod.mk.injEq] at hre
      rw [← hre.1]
      exact ih y (hq y) hr
  | write u v x k ih =>
    intro o o' a' evs hq h
    rw [Prog.exec, Option.map_eq_some_iff] at h
    obtain ⟨r, hr, hre⟩ := h
    simp only [Prod.mk.injEq] at hre
    rw [← hre.1]
    exact ih hq hr

end HB
