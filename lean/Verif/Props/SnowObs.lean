import Verif.Spec.SnowObs
import Verif.Props.MassBalance
import Mathlib.Tactic.FieldSimp
import Mathlib.Tactic.Linarith
import Mathlib.Algebra.Order.BigOperators.Group.List

/-! # C87: simulated snow cover -/

set_option linter.unusedSectionVars false

namespace HB.SnowObs

open HB.Spec.SnowObs

variable {K : Type} [Field K] [LinearOrder K] [IsStrictOrderedRing K]

theorem zipIdx_last (ids : List ℤ) : ∀ (k : ℕ) (acc : Option ℕ) (u : ℤ), ids.Nodup →
    (ids.zipIdx k).foldl (fun acc p => if p.1 = u then some p.2 else acc) acc = if u ∈ ids then some (k + ids.idxOf u) else acc := by
  induction ids with
  | nil => intro k acc u _; simp
  | cons a r ih =>
    intro k acc u hn
    rw [List.zipIdx_cons, List.foldl_cons, ih (k + 1) _ u (List.nodup_cons.1 hn).2]
    by_cases h : a = u
    · subst h
      have : a ∉ r := (List.nodup_cons.1 hn).1
      simp [this]
    · by_cases hr : u ∈ r
      · rw [if_pos hr, if_pos (List.mem_cons_of_mem _ hr), List.idxOf_cons_ne _ h]
        congr 1
        omega
      · have : u ∉ a :: r := by
          intro h0
          rcases List.mem_cons.1 h0 with h1 | h1
          · exact h h1.symm
          · exact hr h1
        rw [if_neg hr, if_neg this, if_neg h]

theorem rowOf_get (ids : List ℤ) (hn : ids.Nodup) (row : ℕ) (u : ℤ) (h : ids[row]? = some u) : rowOf ids u = some row := by
  unfold rowOf
  rw [zipIdx_last ids 0 none u hn, if_pos (List.mem_of_getElem? h)]
  obtain ⟨hl, he⟩ := List.getElem?_eq_some_iff.1 h
  subst he
  rw [hn.idxOf_getElem row hl, Nat.zero_add]

theorem rowOf_none (ids : List ℤ) (u : ℤ) (h : u ∉ ids) : rowOf ids u = none := by
  unfold rowOf
  suffices H : ∀ (l : List (ℤ × ℕ)) (acc : Option ℕ), (∀ p ∈ l, p.1 ≠ u) → l.foldl (fun acc p => if p.1 = u then some p.2 else acc) acc = acc by
    apply H
    intro p hp h0
    exact h (h0 ▸ (List.fst_mem_of_mem_zipIdx hp))
  intro l
  induction l with
  | nil => intro acc _; rfl
  | cons a r ih =>
    intro acc hh
    rw [List.foldl_cons, if_neg (hh a (List.mem_cons_self ..))]
    exact ih _ fun p hp => hh p (List.mem_cons_of_mem _ hp)

theorem sweToFraction_share (full : K) (hf : 0 < full) (p : Part K) : sweToFraction full (some p.swe) = p.share full := by
  show min (max (p.swe / full) 0) 1 = _
  unfold Part.share
  by_cases h1 : full ≤ p.swe
  · rw [if_pos h1, min_eq_right]
    exact le_max_of_le_left ((one_le_div hf).2 h1)
  · rw [if_neg h1]
    push Not at h1
    by_cases h2 : p.swe ≤ 0
    · rw [if_pos h2, max_eq_right (div_nonpos_of_nonpos_of_nonneg h2 hf.le), min_eq_left zero_le_one]
    · rw [if_neg h2]
      push Not at h2
      rw [max_eq_left (div_pos h2 hf).le, min_eq_left ((div_le_one hf).2 h1.le)]

/-- The parts of a unit on a day, from the recorded series of covers. -/
def partsAt (l : List ((ℕ → ℕ → K) × (ℕ → ℕ → K))) (row day : ℕ) : List (Part K) := l.map fun c => ⟨c.2 row day, c.1 row day⟩

/-- Series without gaps, as recorded. -/
def whole (l : List ((ℕ → ℕ → K) × (ℕ → ℕ → K))) : List ((ℕ → ℕ → Option K) × (ℕ → ℕ → Option K)) :=
  l.map fun c => (fun i t => some (c.1 i t), fun i t => some (c.2 i t))

theorem unitCover_whole (full : K) (hf : 0 < full) (l : List ((ℕ → ℕ → K) × (ℕ → ℕ → K))) (row day : ℕ) :
    unitCover full (whole l) row day = if 0 < area (partsAt l row day) then some (cover full (partsAt l row day)) else none := by
  unfold unitCover whole cover area partsAt
  simp only [List.map_map]
  have e1 : ((fun c : (ℕ → ℕ → Option K) × (ℕ → ℕ → Option K) => (c.2 row day).getD 0) ∘
      fun c : (ℕ → ℕ → K) × (ℕ → ℕ → K) => ((fun i t => some (c.1 i t), fun i t => some (c.2 i t)) : (ℕ → ℕ → Option K) × (ℕ → ℕ → Option K))) =
      (Part.fraction ∘ fun c : (ℕ → ℕ → K) × (ℕ → ℕ → K) => (⟨c.2 row day, c.1 row day⟩ : Part K)) := rfl
  have e2 : ((fun c : (ℕ → ℕ → Option K) × (ℕ → ℕ → Option K) => (c.2 row day).getD 0 * sweToFraction full (c.1 row day)) ∘
      fun c : (ℕ → ℕ → K) × (ℕ → ℕ → K) => ((fun i t => some (c.1 i t), fun i t => some (c.2 i t)) : (ℕ → ℕ → Option K) × (ℕ → ℕ → Option K))) =
      ((fun p : Part K => p.fraction * p.share full) ∘ fun c : (ℕ → ℕ → K) × (ℕ → ℕ → K) => (⟨c.2 row day, c.1 row day⟩ : Part K)) := by
    funext c
    simp only [Function.comp, Option.getD_some]
    rw [← sweToFraction_share full hf]
  rw [e1, e2]

/-- The covers recorded are those of `l`, by name. -/
structure Records (r : Recorded K) (names : List String) (l : List ((ℕ → ℕ → K) × (ℕ → ℕ → K))) : Prop where
  length : names.length = l.length
  snow : ∀ (i : ℕ) (c : String) (s : (ℕ → ℕ → K) × (ℕ → ℕ → K)), names[i]? = some c → l[i]? = some s → r.snow c = some fun a b => some (s.1 a b)
  fraction : ∀ (i : ℕ) (c : String) (s : (ℕ → ℕ → K) × (ℕ → ℕ → K)), names[i]? = some c → l[i]? = some s →
    r.fraction c = some fun a b => some (s.2 a b)

theorem contributions_whole (r : Recorded K) : ∀ (names : List String) (l : List ((ℕ → ℕ → K) × (ℕ → ℕ → K))), Records r names l →
    contributions r names = .ok (whole l) := by
  intro names
  induction names with
  | nil =>
    intro l h
    have := h.length
    cases l with
    | nil => rfl
    | cons a t => simp at this
  | cons c cs ih =>
    intro l h
    cases l with
    | nil => have := h.length; simp at this
    | cons s t =>
      have h' : Records r cs t := ⟨by simpa using h.length, fun i c' s' hc hs => h.snow (i + 1) c' s' (by simpa using hc) (by simpa using hs),
        fun i c' s' hc hs => h.fraction (i + 1) c' s' (by simpa using hc) (by simpa using hs)⟩
      unfold contributions
      rw [h.snow 0 c s rfl rfl, h.fraction 0 c s rfl rfl]
      simp only [ih t h']
      rfl

/-- **C87 (value)**: the simulated values come in the order of the targets, and the value of a target on a unit of the run at one of its days is
the share of the area of the covers considered that is under snow: every cover counts with its fraction of the area, and is covered in
proportion to its water equivalent up to `full`. -/
theorem c87_value (full : K) (hf : 0 < full) (wanted : Option (List String)) (r : Recorded K) (l : List ((ℕ → ℕ → K) × (ℕ → ℕ → K)))
    (hl : l ≠ []) (hr : Records r (usedCovers wanted r) l) (hn : r.ids.Nodup) (ts : List (Target K)) (k : ℕ) (t : Target K) (hk : ts[k]? = some t)
    (row day : ℕ) (hrow : r.ids[row]? = some t.unitId) (hd : day < r.n) (ht : t.t = r.start + 86400 * (day : ℤ))
    (ha : 0 < area (partsAt l row day)) :
    ∃ out, simulated full wanted r ts = .ok out ∧ out.length = ts.length ∧ out[k]? = some (some (cover full (partsAt l row day))) := by
  refine ⟨ts.map (simulatedOne full r (whole l)), ?_, List.length_map _, ?_⟩
  · unfold simulated
    rw [if_neg (by rw [List.isEmpty_iff]; rintro rfl; simp at hk), contributions_whole r _ l hr]
    show (if (whole l).isEmpty = true then _ else _) = _
    rw [if_neg]
    rw [List.isEmpty_iff]
    intro h0
    exact hl (by unfold whole at h0; simpa using h0)
  · rw [List.getElem?_map, hk]
    show some (simulatedOne full r (whole l) t) = _
    unfold simulatedOne
    rw [rowOf_get r.ids hn row _ hrow, ht, MassBalance.dateIndex_day _ _ _ hd]
    show some (unitCover full (whole l) row day) = _
    rw [unitCover_whole full hf, if_pos ha]

/-- **C87 (nothing invented)**: a target on another unit, or before the first or after the last day, has no simulated value; one value for each
target whatever is recorded. -/
theorem c87_outside (full : K) (wanted : Option (List String)) (r : Recorded K) (ts : List (Target K)) (out : List (Option K))
    (h : simulated full wanted r ts = .ok out) (k : ℕ) (t : Target K) (hk : ts[k]? = some t)
    (ho : t.unitId ∉ r.ids ∨ t.t < r.start ∨ r.start + 86400 * ((r.n : ℤ) - 1) < t.t) : out.length = ts.length ∧ out[k]? = some none := by
  unfold simulated at h
  rw [if_neg (by rw [List.isEmpty_iff]; rintro rfl; simp at hk)] at h
  cases hc : contributions r (usedCovers wanted r) with
  | error e => rw [hc] at h; cases h
  | ok l =>
    rw [hc] at h
    change (if l.isEmpty = true then _ else _) = _ at h
    split at h
    · cases h
    · cases h
      refine ⟨List.length_map _, ?_⟩
      rw [List.getElem?_map, hk]
      show some (simulatedOne full r l t) = _
      congr 1
      unfold simulatedOne
      rcases ho with h1 | h1
      · rw [rowOf_none _ _ h1]; rfl
      · have : MassBalance.dateIndex r.start r.n t.t = none := by
          unfold MassBalance.dateIndex Periods.day
          rw [if_pos (by omega)]
        rw [this]
        cases rowOf r.ids t.unitId <;> rfl

theorem list_sum_le (l : List (Part K)) (f g : Part K → K) (h : ∀ p ∈ l, f p ≤ g p) : (l.map f).sum ≤ (l.map g).sum :=
  List.sum_le_sum h

theorem share_bounds (full : K) (hf : 0 < full) (p : Part K) : 0 ≤ p.share full ∧ p.share full ≤ 1 := by
  rw [← sweToFraction_share full hf]
  unfold sweToFraction
  exact ⟨le_min (le_max_right _ _) zero_le_one, min_le_right _ _⟩

theorem share_mono (full : K) (hf : 0 < full) (f g a b : K) (h : a ≤ b) : (⟨f, a⟩ : Part K).share full ≤ (⟨g, b⟩ : Part K).share full := by
  rw [← sweToFraction_share full hf, ← sweToFraction_share full hf]
  unfold sweToFraction
  exact min_le_min_right _ (max_le_max_right _ (div_le_div_of_nonneg_right h hf.le))

/-- **C87 (a fraction)**: with fractions that are not negative, whatever is recorded, a simulated value lies in [0, 1]. -/
theorem c87_range (full : K) (wanted : Option (List String)) (r : Recorded K)
    (hfr : ∀ c f, r.fraction c = some f → ∀ i t v, f i t = some v → 0 ≤ v) (ts : List (Target K)) (out : List (Option K))
    (h : simulated full wanted r ts = .ok out) (v : K) (hv : some v ∈ out) : 0 ≤ v ∧ v ≤ 1 := by
  unfold simulated at h
  split at h
  · cases h; simp at hv
  · cases hc : contributions r (usedCovers wanted r) with
    | error e => rw [hc] at h; cases h
    | ok l =>
      rw [hc] at h
      change (if l.isEmpty = true then _ else _) = _ at h
      split at h
      · cases h
      · cases h
        obtain ⟨t, _, ht⟩ := List.mem_map.1 hv
        have hl : ∀ c ∈ l, ∀ i t, 0 ≤ (c.2 i t).getD 0 := by
          have aux : ∀ names l, contributions r names = .ok l → ∀ c ∈ l, ∃ n, r.fraction n = some c.2 := by
            intro names
            induction names with
            | nil => intro l h c hc; cases h; simp at hc
            | cons n ns ih =>
              intro l h c hc
              unfold contributions at h
              cases hs : r.snow n with
              | none => rw [hs] at h; exact ih l h c hc
              | some s =>
                rw [hs] at h
                cases hff : r.fraction n with
                | none => rw [hff] at h; cases h
                | some f =>
                  rw [hff] at h
                  cases hcc : contributions r ns with
                  | error e => simp only [hcc] at h; cases h
                  | ok l' =>
                    simp only [hcc] at h
                    cases h
                    rcases List.mem_cons.1 hc with rfl | hc
                    · exact ⟨n, hff⟩
                    · exact ih l' hcc c hc
          intro c hcl i t
          obtain ⟨n, hn⟩ := aux _ _ hc c hcl
          cases hx : c.2 i t with
          | none => exact le_refl _
          | some v => exact hfr n _ hn i t v hx
        unfold simulatedOne at ht
        cases h1 : rowOf r.ids t.unitId with
        | none => rw [h1] at ht; cases ht
        | some row =>
          rw [h1] at ht
          cases h2 : MassBalance.dateIndex r.start r.n t.t with
          | none => rw [h2] at ht; cases ht
          | some day =>
            rw [h2] at ht
            change unitCover full l row day = some v at ht
            unfold unitCover at ht
            simp only at ht
            split at ht
            · rename_i hpos
              cases ht
              have hs : ∀ x : Option K, 0 ≤ sweToFraction full x ∧ sweToFraction full x ≤ 1 := by
                intro x
                cases x with
                | none => exact ⟨le_refl _, zero_le_one⟩
                | some s => exact ⟨le_min (le_max_right _ _) zero_le_one, min_le_right _ _⟩
              constructor
              · apply div_nonneg _ hpos.le
                apply List.sum_nonneg
                intro x hx
                obtain ⟨c, hcl, rfl⟩ := List.mem_map.1 hx
                exact mul_nonneg (hl c hcl _ _) (hs _).1
              · rw [div_le_one hpos]
                apply List.sum_le_sum
                intro c hcl
                exact mul_le_of_le_one_right (hl c hcl _ _) (hs _).2
            · cases ht

/-- **C87 (more snow, more cover)**: with the same fractions and at least as much snow on each part, the cover is at least as large. -/
theorem c87_monotone (full : K) (hf : 0 < full) (l : List (K × K × K)) (h0 : ∀ x ∈ l, 0 ≤ x.1) (h : ∀ x ∈ l, x.2.1 ≤ x.2.2) :
    cover full (l.map fun x => ⟨x.1, x.2.1⟩) ≤ cover full (l.map fun x => ⟨x.1, x.2.2⟩) := by
  unfold cover area
  simp only [List.map_map]
  have e : (Part.fraction ∘ fun x : K × K × K => (⟨x.1, x.2.1⟩ : Part K)) = (Part.fraction ∘ fun x : K × K × K => (⟨x.1, x.2.2⟩ : Part K)) := rfl
  rw [e]
  apply div_le_div_of_nonneg_right
  · apply List.sum_le_sum
    intro x hx
    exact mul_le_mul_of_nonneg_left (share_mono full hf _ _ _ _ (h x hx)) (h0 x hx)
  · apply List.sum_nonneg
    intro y hy
    obtain ⟨x, hx, rfl⟩ := List.mem_map.1 hy
    exact h0 x hx

theorem sum_eq_of_le (ps : List (Part K)) (f g : Part K → K) (h : ∀ p ∈ ps, f p ≤ g p) :
    (ps.map f).sum = (ps.map g).sum ↔ ∀ p ∈ ps, f p = g p := by
  induction ps with
  | nil => simp
  | cons a r ih =>
    have h1 := h a (List.mem_cons_self ..)
    have h2 := list_sum_le r f g fun p hp => h p (List.mem_cons_of_mem _ hp)
    have := ih fun p hp => h p (List.mem_cons_of_mem _ hp)
    simp only [List.map_cons, List.sum_cons, List.forall_mem_cons]
    constructor
    · intro e
      exact ⟨by linarith, this.1 (by linarith)⟩
    · rintro ⟨e1, e2⟩
      rw [e1, this.2 e2]

/-- **C87 (fully covered, free of snow)**: the cover is 1 just when every part of the area has at least `full` of snow, and 0 just when none has
snow. -/
theorem c87_ends (full : K) (hf : 0 < full) (ps : List (Part K)) (h0 : ∀ p ∈ ps, 0 ≤ p.fraction) (ha : 0 < area ps) :
    (cover full ps = 1 ↔ ∀ p ∈ ps, 0 < p.fraction → full ≤ p.swe) ∧ (cover full ps = 0 ↔ ∀ p ∈ ps, 0 < p.fraction → p.swe ≤ 0) := by
  constructor
  · unfold cover
    rw [div_eq_one_iff_eq ha.ne']
    unfold area
    rw [sum_eq_of_le ps _ _ fun p hp => mul_le_of_le_one_right (h0 p hp) (share_bounds full hf p).2]
    apply forall₂_congr
    intro p hp
    constructor
    · intro e hpos
      have h1 : p.share full = 1 := by
        have := mul_eq_left₀ hpos.ne' |>.1 e
        exact this
      unfold Part.share at h1
      by_contra hlt
      rw [if_neg hlt] at h1
      push Not at hlt
      split at h1
      · exact zero_ne_one h1
      · rw [div_eq_one_iff_eq hf.ne'] at h1
        exact absurd h1 hlt.ne
    · intro h
      rcases (h0 p hp).eq_or_lt with h1 | h1
      · rw [← h1]; simp
      · unfold Part.share
        rw [if_pos (h h1), mul_one]
  · unfold cover
    rw [div_eq_zero_iff, or_iff_left ha.ne']
    have := sum_eq_of_le ps (fun _ => (0 : K)) (fun p => p.fraction * p.share full) fun p hp => mul_nonneg (h0 p hp) (share_bounds full hf p).1
    have hz : (ps.map fun _ => (0 : K)).sum = 0 := by simp
    rw [hz, eq_comm] at this
    rw [this]
    apply forall₂_congr
    intro p hp
    constructor
    · intro e hpos
      have h1 : p.share full = 0 := by
        rcases mul_eq_zero.1 e.symm with h | h
        · exact absurd h hpos.ne'
        · exact h
      unfold Part.share at h1
      split at h1
      · exact absurd h1 one_ne_zero
      · split at h1
        · assumption
        · rename_i hneg
          exfalso
          rcases div_eq_zero_iff.1 h1 with h | h
          · exact hneg h.le
          · exact hf.ne' h
    · intro h
      rcases (h0 p hp).eq_or_lt with h1 | h1
      · rw [← h1]; simp
      · unfold Part.share
        have hs := h h1
        rw [if_neg (not_le.2 (lt_of_le_of_lt hs hf)), if_pos hs, mul_zero]

end HB.SnowObs
