import Verif.Model.TerrainRows
import Verif.Props.Basin
import Verif.Props.Lateral
import Mathlib.Data.Rat.Floor
import Mathlib.Algebra.Order.Field.Rat

/-!
# C77: connections between hydro units computed from the terrain
-/

namespace HB.Terrain

set_option linter.unusedSectionVars false

open Spec

variable {K : Type} [Field K] [LinearOrder K] [IsStrictOrderedRing K]

/-- The entries of a dictionary without the outside: other units, with their positive weight. -/
structure Good (ids : List ℤ) (u : ℤ) (w : ℤ → K) (f : List (ℤ × K)) : Prop where
  once : (f.map Prod.fst).Nodup
  entry : ∀ e ∈ f, e.1 ∈ ids ∧ e.1 ≠ u ∧ e.2 = w e.1 ∧ 0 < e.2
  rest : ∀ v ∈ ids, v ≠ u → v ∉ f.map Prod.fst → w v = 0

theorem Good.perm {ids : List ℤ} {u : ℤ} {w : ℤ → K} {f : List (ℤ × K)} (h : Good ids u w f) (hn : ids.Nodup) :
    (f.map Prod.fst).Perm (ids.filter fun v => v ≠ u ∧ 0 < w v) := by
  rw [List.perm_ext_iff_of_nodup h.once (hn.filter _)]
  intro a
  simp only [List.mem_filter, decide_eq_true_eq]
  constructor
  · intro ha
    obtain ⟨e, he, rfl⟩ := List.mem_map.1 ha
    obtain ⟨a, b, c, d⟩ := h.entry e he
    exact ⟨a, b, c ▸ d⟩
  · rintro ⟨a1, a2, a3⟩
    by_contra hc
    rw [h.rest a a1 a2 hc] at a3
    exact lt_irrefl _ a3

theorem Good.nonneg {ids : List ℤ} {u : ℤ} {w : ℤ → K} {f : List (ℤ × K)} (h : Good ids u w f) {v : ℤ} (hv : v ∈ ids)
    (hu : v ≠ u) : 0 ≤ w v := by
  by_cases hc : v ∈ f.map Prod.fst
  · obtain ⟨e, he, rfl⟩ := List.mem_map.1 hc
    obtain ⟨_, _, c, d⟩ := h.entry e he
    exact c ▸ d.le
  · exact (h.rest v hv hu hc).ge

theorem Good.total {ids : List ℤ} {u : ℤ} {w : ℤ → K} {f : List (ℤ × K)} (h : Good ids u w f) (hn : ids.Nodup) :
    Terrain.total f = ((ids.filter fun v => v ≠ u).map w).sum := by
  have e1 : Terrain.total f = ((f.map Prod.fst).map w).sum := by
    rw [Terrain.total, List.map_map]
    congr 1
    exact List.map_congr_left fun e he => (h.entry e he).2.2.1
  rw [e1, ((h.perm hn).map w).sum_eq]
  have hnn : ∀ v ∈ ids, v ≠ u → 0 ≤ w v := fun v hv hu => h.nonneg hv hu
  clear h e1 hn
  induction ids with
  | nil => rfl
  | cons a r ih =>
    have ih := ih fun v hv => hnn v (by simp [hv])
    by_cases ha : a = u
    · simp [ha] at ih ⊢; exact ih
    · by_cases hp : 0 < w a
      · simp [ha, hp] at ih ⊢; exact ih
      · have : w a = 0 := le_antisymm (not_lt.1 hp) (hnn a (by simp) ha)
        simp [ha, hp, this] at ih ⊢; exact ih

variable [FloorRing K]

theorem Good.shares {ids : List ℤ} {u : ℤ} {w : ℤ → K} {f : List (ℤ × K)} (h : Good ids u w f) (hn : ids.Nodup) {p : ℕ}
    (hp : 2 ≤ p) (hne : f ≠ []) :
    (roundRow p (normalize (dropSmall (normalize f))) ≠ [] →
      Shares ids u p w (roundRow p (normalize (dropSmall (normalize f)))) ∧
      Kept ids u w (roundRow p (normalize (dropSmall (normalize f))))) ∧
    (roundRow p (normalize (dropSmall (normalize f))) = [] → 100 < (ids.filter fun v => v ≠ u ∧ 0 < w v).length) := by
  obtain ⟨g, hg, g1, g2, g3, g4⟩ := shares_core p hp f w h.once (fun e he => (h.entry e he).2.2.1)
    (fun e he => (h.entry e he).2.2.2) hne
  rw [← hg]
  refine ⟨fun hgne => ?_, fun hg0 => ?_⟩
  · obtain ⟨a, b, c, d⟩ := g4 hgne
    refine ⟨⟨g2, fun e he => ?_, a, b, c, d⟩, fun v hv hvu => ?_⟩
    · obtain ⟨x, hx, hxe, _⟩ := (g1 e.1).1 (List.mem_map_of_mem he)
      exact hxe ▸ ⟨(h.entry x hx).1, (h.entry x hx).2.1⟩
    · rw [g1, h.total hn]
      constructor
      · rintro ⟨e, he, rfl, hle⟩
        obtain ⟨_, _, c, d⟩ := h.entry e he
        exact ⟨c ▸ d, c ▸ hle⟩
      · rintro ⟨hpos, hle⟩
        have : v ∈ f.map Prod.fst := (h.perm hn).mem_iff.2 (by simp [hv, hvu, hpos])
        obtain ⟨e, he, rfl⟩ := List.mem_map.1 this
        exact ⟨e, he, rfl, (h.entry e he).2.2.1 ▸ hle⟩
  · have := g3 hg0
    have e := (h.perm hn).length_eq
    rw [List.length_map] at e
    omega

omit [FloorRing K] in
theorem maxFrom_spec (b : ℤ × K) (r : List (ℤ × K)) : ∃ e ∈ b :: r, maxFrom b r = e.1 ∧ ∀ x ∈ b :: r, x.2 ≤ e.2 := by
  induction r generalizing b with
  | nil => exact ⟨b, by simp, rfl, by simp⟩
  | cons a r ih =>
    rw [maxFrom]
    obtain ⟨e, he, h1, h2⟩ := ih (if b.2 < a.2 then a else b)
    refine ⟨e, ?_, h1, ?_⟩
    · rcases List.mem_cons.1 he with rfl | he
      · split_ifs <;> simp
      · simp [he]
    · intro x hx
      have hb := h2 (if b.2 < a.2 then a else b) (by simp)
      rcases List.mem_cons.1 hx with rfl | hx
      · split_ifs at hb with hc
        · exact hc.le.trans hb
        · exact hb
      · rcases List.mem_cons.1 hx with rfl | hx
        · split_ifs at hb with hc
          · exact hb
          · exact (not_lt.1 hc).trans hb
        · exact h2 x (by simp [hx])

omit [FloorRing K] in
/-- The dictionary of a unit without the outside. -/
theorem flows_good {m : Maps K} {ids : List ℤ} (h : Proper m ids) : ∃ st, flows m ids = .ok st ∧ ∀ u ∈ ids,
    ((st u).map Prod.fst).Nodup ∧ Good ids u (flow m u) (removeOut (st u)) ∧
    (∀ e ∈ st u, e.1 ≠ u ∧ e.2 = flow m u e.1 ∧ 0 < e.2) ∧ (∀ v, v ≠ u → 0 < flow m u v → v ∈ (st u).map Prod.fst) ∧
    (∀ v, v ≠ u → 0 ≤ flow m u v) := by
  obtain ⟨st, e, f⟩ := flows_spec h
  refine ⟨st, e, fun u hu => ?_⟩
  have hu0 : u ≠ 0 := fun hh => h.ids_nonzero (hh ▸ hu)
  obtain ⟨f1, f2, f3⟩ := f u hu0
  have ent : ∀ x ∈ st u, x.1 ≠ u ∧ x.2 = flow m u x.1 ∧ 0 < x.2 := by
    intro x hx
    have hk := (f3 x.1).1 (List.mem_map_of_mem hx)
    have hv : x.2 = flow m u x.1 := by rw [← look_mem f1 hx, f2 x.1 hk.1]
    exact ⟨hk.1, hv, hv ▸ (flow_pos h hu0 x.1).2.2 hk.2⟩
  have key : ∀ v, v ≠ u → 0 < flow m u v → v ∈ (st u).map Prod.fst :=
    fun v hv hp => (f3 v).2 ⟨hv, (flow_pos h hu0 v).2.1 hp⟩
  have mid : ∀ x ∈ st u, x.1 = 0 ∨ x.1 ∈ ids := by
    intro x hx
    obtain ⟨_, i, j, _, _, _, c, _, a, b, _, _, ha, hb, hx'⟩ := (f3 x.1).1 (List.mem_map_of_mem hx)
    exact hx' ▸ h.mapped a b ha hb
  refine ⟨f1, ⟨nodup_filter_keys f1 _, fun x hx => ?_, fun v hv hvu hn => ?_⟩, ent, key, fun v _ => (flow_pos h hu0 v).1⟩
  · obtain ⟨hx1, hx2⟩ := List.mem_filter.1 hx
    have : x.1 ≠ 0 := by simpa using hx2
    exact ⟨(mid x hx1).resolve_left this, (ent x hx1).1, (ent x hx1).2.1, (ent x hx1).2.2⟩
  · by_contra hne
    have hp : 0 < flow m u v := lt_of_le_of_ne (flow_pos h hu0 v).1 (Ne.symm hne)
    obtain ⟨x, hx, hxv⟩ := List.mem_map.1 (key v hvu hp)
    apply hn
    refine List.mem_map.2 ⟨x, List.mem_filter.2 ⟨hx, ?_⟩, hxv⟩
    have : x.1 ≠ 0 := fun h0 => h.ids_nonzero (by rw [← h0, hxv]; exact hv)
    simpa using this

/-- **C77 (shares).**  With `mode="multiple"`: one row per unit.  A unit that is connected gives shares to other declared units,
each one positive and at most one, together exactly one, each within one unit of the last decimal of the proportion in which
the cells of the unit drain to the receivers kept; the receivers kept are those that get at least one per cent of what stays in
the catchment.  A unit without connections drains mostly out of the catchment (or nowhere), or to more than a hundred units; a
unit that drains mostly out of the catchment has no connection. -/
theorem c77_shares {m : Maps K} {ids : List ℤ} (h : Proper m ids) {p : ℕ} (hp : 2 ≤ p) :
    ∃ T, calculate m ids "multiple" false p = .ok T ∧ T.map Prod.fst = ids ∧ ∀ u d, (u, d) ∈ T →
      (d ≠ [] → Shares ids u p (flow m u) d ∧ Kept ids u (flow m u) d) ∧
      (d = [] → (∀ v ∈ ids, v ≠ u → flow m u v ≤ flow m u 0) ∨
        100 < (ids.filter fun v => v ≠ u ∧ 0 < flow m u v).length) ∧
      ((∀ v ∈ ids, v ≠ u → flow m u v < flow m u 0) → d = []) := by
  obtain ⟨st, e, f⟩ := flows_good h
  refine ⟨ids.map fun u => (u, multiple false p (st u)), ?_, by simp [Function.comp_def], ?_⟩
  · unfold calculate; rw [e]; rfl
  intro u d hd
  obtain ⟨u', hu, heq⟩ := List.mem_map.1 hd
  obtain ⟨rfl, rfl⟩ := Prod.mk.injEq _ _ _ _ ▸ heq
  obtain ⟨f1, f2, f3, f4, f5⟩ := f u' hu
  have hu0 : u' ≠ 0 := fun hh => h.ids_nonzero (hh ▸ hu)
  cases hs : st u' with
  | nil =>
    rw [hs] at f4
    refine ⟨fun hh => absurd rfl hh, fun _ => .inl fun v _ hv => ?_, fun _ => rfl⟩
    by_contra hc
    push Not at hc
    have := f4 v hv (lt_of_le_of_lt (f5 0 hu0.symm) hc)
    simp at this
  | cons a r =>
    obtain ⟨x, hx, hmax, hall⟩ := maxFrom_spec a r
    have hxs : x ∈ st u' := by rw [hs]; exact hx
    have hle : ∀ v, v ≠ u' → flow m u' v ≤ x.2 := by
      intro v hv
      by_cases hp : 0 < flow m u' v
      · obtain ⟨y, hy, hyv⟩ := List.mem_map.1 (f4 v hv hp)
        have := hall y (hs ▸ hy)
        rw [(f3 y hy).2.1, hyv] at this; exact this
      · exact (not_lt.1 hp).trans (f3 x hxs).2.2.le
    rw [multiple]
    by_cases h0 : maxFrom a r = 0 ∧ false = false
    · rw [if_pos h0]
      refine ⟨fun hh => absurd rfl hh, fun _ => .inl fun v _ hv => ?_, fun _ => rfl⟩
      have := hle v hv
      rw [(f3 x hxs).2.1, ← hmax, h0.1] at this
      exact this
    · rw [if_neg h0]
      have hx0 : x.1 ≠ 0 := fun hh => h0 ⟨hmax.trans hh, rfl⟩
      have hxf : x ∈ removeOut (st u') := List.mem_filter.2 ⟨hxs, by simpa using hx0⟩
      have hfne : removeOut (st u') ≠ [] := List.ne_nil_of_mem hxf
      have htot : Terrain.total (removeOut (a :: r)) ≠ 0 := by
        rw [← hs]
        refine (sum_pos_of (fun y hy => ?_) (by simpa using hfne)).ne'
        obtain ⟨z, hz, rfl⟩ := List.mem_map.1 hy
        exact (f2.entry z hz).2.2.2
      rw [if_neg htot, ← hs]
      obtain ⟨k1, k2⟩ := f2.shares h.ids_distinct hp hfne
      refine ⟨k1, fun hd0 => .inr (k2 hd0), fun hlt => ?_⟩
      exfalso
      have hxm := f2.entry x hxf
      have h1 := hlt x.1 hxm.1 hxm.2.1
      have h2 := hle 0 hu0.symm
      rw [hxm.2.2.1] at h2
      exact absurd h2 (not_le.2 h1)

/-- **C77 (one receiver).**  With `mode="single"`: a unit gives everything to the unit it drains to most, or has no connection
when it drains mostly out of the catchment or nowhere. -/
theorem c77_single {m : Maps K} {ids : List ℤ} (h : Proper m ids) (p : ℕ) :
    ∃ T, calculate m ids "single" false p = .ok T ∧ T.map Prod.fst = ids ∧ ∀ u d, (u, d) ∈ T →
      (d = [] ∧ ∀ v, v ≠ u → flow m u v ≤ flow m u 0) ∨
      ∃ v ∈ ids, v ≠ u ∧ d = [(v, 1)] ∧ 0 < flow m u v ∧ ∀ w, w ≠ u → flow m u w ≤ flow m u v := by
  obtain ⟨st, e, f⟩ := flows_good h
  refine ⟨ids.map fun u => (u, single false (st u)), ?_, by simp [Function.comp_def], ?_⟩
  · unfold calculate; rw [e]; rfl
  intro u d hd
  obtain ⟨u', hu, heq⟩ := List.mem_map.1 hd
  obtain ⟨rfl, rfl⟩ := Prod.mk.injEq _ _ _ _ ▸ heq
  obtain ⟨f1, f2, f3, f4, f5⟩ := f u' hu
  have hu0 : u' ≠ 0 := fun hh => h.ids_nonzero (hh ▸ hu)
  cases hs : st u' with
  | nil =>
    refine .inl ⟨rfl, fun v hv => ?_⟩
    rw [hs] at f4
    by_contra hc
    push Not at hc
    have := f4 v hv (lt_of_le_of_lt (f5 0 hu0.symm) hc)
    simp at this
  | cons a r =>
    obtain ⟨x, hx, hmax, hall⟩ := maxFrom_spec a r
    have hxs : x ∈ st u' := by rw [hs]; exact hx
    have hle : ∀ v, v ≠ u' → flow m u' v ≤ flow m u' x.1 := by
      intro v hv
      rw [← (f3 x hxs).2.1]
      by_cases hp : 0 < flow m u' v
      · obtain ⟨y, hy, hyv⟩ := List.mem_map.1 (f4 v hv hp)
        have := hall y (hs ▸ hy)
        rw [(f3 y hy).2.1, hyv] at this; exact this
      · exact (not_lt.1 hp).trans (f3 x hxs).2.2.le
    rw [single]
    by_cases h0 : maxFrom a r = 0 ∧ false = false
    · rw [if_pos h0]
      have hz : x.1 = 0 := hmax.symm.trans h0.1
      exact .inl ⟨rfl, fun v hv => hz ▸ hle v hv⟩
    · rw [if_neg h0]
      have hx0 : x.1 ≠ 0 := fun hh => h0 ⟨hmax.trans hh, rfl⟩
      have hxm := f2.entry x (List.mem_filter.2 ⟨hxs, by simpa using hx0⟩)
      exact .inr ⟨x.1, hxm.1, hxm.2.1, by rw [hmax], hxm.2.2.1 ▸ hxm.2.2.2, hle⟩

/-! ## Every unit connected -/

omit [FloorRing K] in
theorem cells_nodup (m : Maps K) : (cells m).Nodup := by
  unfold cells
  rw [List.nodup_flatMap]
  refine ⟨fun i _ => List.nodup_range.map fun a b hab => by simpa using hab, ?_⟩
  refine List.nodup_range.imp fun {a b} hab => ?_
  intro x hx hy
  obtain ⟨_, _, rfl⟩ := List.mem_map.1 hx
  obtain ⟨_, _, hh⟩ := List.mem_map.1 hy
  exact hab (Prod.mk.injEq _ _ _ _ ▸ hh).1.symm

omit [FloorRing K] in
theorem dilated_iff (m : Maps K) (u : ℤ) (c : ℕ × ℕ) (hc : c.1 < m.rows ∧ c.2 < m.cols) : dilated m u c = true ↔
    m.unit c.1 c.2 = u ∨ ∃ c' : ℕ × ℕ, c'.1 < m.rows ∧ c'.2 < m.cols ∧ Touch c c' ∧ m.unit c'.1 c'.2 = u := by
  unfold dilated
  simp only [Bool.or_eq_true, Bool.and_eq_true, decide_eq_true_eq, beq_iff_eq]
  constructor
  · rintro ((((h | ⟨h1, h2⟩) | ⟨h1, h2⟩) | ⟨h1, h2⟩) | ⟨h1, h2⟩)
    · exact .inl h
    · exact .inr ⟨(c.1 - 1, c.2), by simp only; omega, hc.2, .inr ⟨rfl, .inr (by simp only; omega)⟩, h2⟩
    · exact .inr ⟨(c.1 + 1, c.2), h1, hc.2, .inr ⟨rfl, .inl rfl⟩, h2⟩
    · exact .inr ⟨(c.1, c.2 - 1), hc.1, by simp only; omega, .inl ⟨rfl, .inr (by simp only; omega)⟩, h2⟩
    · exact .inr ⟨(c.1, c.2 + 1), hc.1, h1, .inl ⟨rfl, .inl rfl⟩, h2⟩
  · rintro (h | ⟨c', h1, h2, ht, h3⟩)
    · exact .inl (.inl (.inl (.inl h)))
    · obtain ⟨a, b⟩ := c
      obtain ⟨a', b'⟩ := c'
      simp only [Touch] at ht
      simp only at h1 h2 h3 ⊢
      rcases ht with ⟨rfl, rfl | rfl⟩ | ⟨rfl, rfl | rfl⟩
      · exact .inr ⟨h2, h3⟩
      · exact .inl (.inr ⟨by omega, by simpa using h3⟩)
      · exact .inl (.inl (.inr ⟨h1, h3⟩))
      · exact .inl (.inl (.inl (.inr ⟨by omega, by simpa using h3⟩)))

omit [FloorRing K] in
theorem count_around (m : Maps K) (u v : ℤ) (hv : v ≠ u) : (around m u).count v = border m u v := by
  classical
  unfold around border
  rw [List.count, List.countP_map, List.countP_filter, List.countP_eq_length_filter]
  rw [← List.toFinset_card_of_nodup ((cells_nodup m).filter _)]
  congr 1
  ext c
  simp only [List.mem_toFinset, List.mem_filter, mem_cells, Finset.mem_filter, Finset.mem_product, Finset.mem_range,
    Function.comp_apply, Bool.and_eq_true, beq_iff_eq]
  constructor
  · rintro ⟨hc, h1, h2⟩
    refine ⟨hc, h1, ?_⟩
    rcases (dilated_iff m u c hc).1 h2 with h | h
    · exact absurd (h1.symm.trans h) hv
    · exact h
  · rintro ⟨hc, h1, h2⟩
    exact ⟨hc, h1, (dilated_iff m u c hc).2 (.inr h2)⟩

omit [FloorRing K] in
theorem neighbours_good {m : Maps K} {ids : List ℤ} (h : Proper m ids) (u : ℤ) :
    Good ids u (fun v => (border m u v : K)) (neighbours m u []) := by
  unfold neighbours
  rw [if_pos rfl]
  set L := (((around m u).dedup.insertionSort fun a b => a ≤ b).filter fun v => v != 0).filter fun v => v != u with hL
  have hmem : ∀ v, v ∈ L ↔ v ∈ around m u ∧ v ≠ 0 ∧ v ≠ u := by
    intro v
    simp only [hL, List.mem_filter, List.mem_insertionSort, List.mem_dedup, bne_iff_ne, and_assoc]
  have hnd : L.Nodup := by
    refine (List.Nodup.filter _ (List.Nodup.filter _ ?_))
    exact ((List.perm_insertionSort _ _).nodup_iff).2 (List.nodup_dedup _)
  have hkeys : (L.map fun v => (v, ((around m u).count v : K))).map Prod.fst = L := by simp [Function.comp_def]
  refine ⟨by rw [hkeys]; exact hnd, ?_, ?_⟩
  · intro e he
    obtain ⟨v, hv, rfl⟩ := List.mem_map.1 he
    obtain ⟨h1, h2, h3⟩ := (hmem v).1 hv
    refine ⟨?_, h3, by simp only [count_around m u v h3], ?_⟩
    · obtain ⟨c, hc, rfl⟩ := List.mem_map.1 h1
      have := mem_cells.1 (List.mem_of_mem_filter hc)
      exact (h.mapped _ _ this.1 this.2).resolve_left h2
    · have : 0 < (around m u).count v := List.count_pos_iff.2 h1
      simp only
      exact_mod_cast this
  · intro v hv hvu hn
    rw [hkeys, hmem] at hn
    have h0 : v ≠ 0 := fun hh => h.ids_nonzero (hh ▸ hv)
    have : v ∉ around m u := fun hh => hn ⟨hh, h0, hvu⟩
    have : (around m u).count v = 0 := List.count_eq_zero.2 this
    rw [count_around m u v hvu] at this
    simp [this]

omit [FloorRing K] in
theorem removeOut_of {d : List (ℤ × K)} (h : ∀ e ∈ d, e.1 ≠ 0) : removeOut d = d :=
  List.filter_eq_self.2 fun e he => by simpa using h e he

/-- In which proportion a unit is connected when connections are forced: what it drains to other units or, if it drains to none,
the cells of other units along its border. -/
noncomputable def Spec.forcedWeight (m : Maps K) (ids : List ℤ) (u : ℤ) : ℤ → K :=
  open scoped Classical in if ∃ v ∈ ids, v ≠ u ∧ 0 < flow m u v then flow m u else fun v => (border m u v : K)

omit [FloorRing K] in
theorem forced_good {m : Maps K} {ids : List ℤ} (h : Proper m ids) : ∃ st, flows m ids = .ok st ∧ ∀ u ∈ ids,
    Good ids u (Spec.forcedWeight m ids u) (neighbours m u (removeOut (st u))) := by
  classical
  obtain ⟨st, e, f⟩ := flows_good h
  refine ⟨st, e, fun u hu => ?_⟩
  obtain ⟨f1, f2, f3, f4, f5⟩ := f u hu
  unfold Spec.forcedWeight
  by_cases hd : removeOut (st u) = []
  · rw [hd, if_neg]
    · exact neighbours_good h u
    · rintro ⟨v, hv, hvu, hp⟩
      have := (f2.perm h.ids_distinct).mem_iff.2 (List.mem_filter.2 ⟨hv, by simp [hvu, hp]⟩)
      rw [hd] at this; simp at this
  · have hn : neighbours m u (removeOut (st u)) = removeOut (st u) := by unfold neighbours; rw [if_neg hd]
    rw [hn, if_pos]
    · exact f2
    · obtain ⟨x, hx⟩ := List.exists_mem_of_ne_nil _ hd
      obtain ⟨a, b, c, d⟩ := f2.entry x hx
      exact ⟨x.1, a, b, c ▸ d⟩

/-- **C77 (forced connections).**  With `force_connectivity=True` every unit is connected, in proportion to what it drains to
other units or else to the common border, unless it has neither (or more than a hundred receivers). -/
theorem c77_forced {m : Maps K} {ids : List ℤ} (h : Proper m ids) {p : ℕ} (hp : 2 ≤ p) :
    ∃ T, calculate m ids "multiple" true p = .ok T ∧ T.map Prod.fst = ids ∧ ∀ u d, (u, d) ∈ T →
      (d ≠ [] → Shares ids u p (Spec.forcedWeight m ids u) d ∧ Kept ids u (Spec.forcedWeight m ids u) d) ∧
      (d = [] → (∀ v ∈ ids, v ≠ u → Spec.forcedWeight m ids u v = 0) ∨
        100 < (ids.filter fun v => v ≠ u ∧ 0 < Spec.forcedWeight m ids u v).length) := by
  obtain ⟨st, e, f⟩ := forced_good h
  refine ⟨ids.map fun u => (u, multiple true p (neighbours m u (removeOut (st u)))), ?_, by simp [Function.comp_def], ?_⟩
  · unfold calculate; rw [e]; rfl
  intro u d hd
  obtain ⟨u', hu, heq⟩ := List.mem_map.1 hd
  obtain ⟨rfl, rfl⟩ := Prod.mk.injEq _ _ _ _ ▸ heq
  have f2 := f u' hu
  set D := neighbours m u' (removeOut (st u')) with hD
  cases hs : D with
  | nil =>
    refine ⟨fun hh => absurd rfl hh, fun _ => .inl fun v hv hvu => ?_⟩
    exact f2.rest v hv hvu (by rw [hs]; simp)
  | cons a r =>
    have hne : D ≠ [] := by rw [hs]; simp
    have hro : removeOut D = D := removeOut_of fun x hx h0 => h.ids_nonzero (h0 ▸ (f2.entry x hx).1)
    have htot : Terrain.total D ≠ 0 := by
      refine (sum_pos_of (fun y hy => ?_) (by simpa using hne)).ne'
      obtain ⟨z, hz, rfl⟩ := List.mem_map.1 hy
      exact (f2.entry z hz).2.2.2
    rw [multiple, if_neg (by simp), ← hs, hro, if_neg htot]
    obtain ⟨k1, k2⟩ := f2.shares h.ids_distinct hp hne
    exact ⟨k1, fun hd0 => .inr (k2 hd0)⟩

/-- **C77 (forced, one receiver).** -/
theorem c77_forced_single {m : Maps K} {ids : List ℤ} (h : Proper m ids) (p : ℕ) :
    ∃ T, calculate m ids "single" true p = .ok T ∧ T.map Prod.fst = ids ∧ ∀ u d, (u, d) ∈ T →
      (d = [] ∧ ∀ v ∈ ids, v ≠ u → Spec.forcedWeight m ids u v = 0) ∨
      ∃ v ∈ ids, v ≠ u ∧ d = [(v, 1)] ∧ 0 < Spec.forcedWeight m ids u v ∧
        ∀ w ∈ ids, w ≠ u → Spec.forcedWeight m ids u w ≤ Spec.forcedWeight m ids u v := by
  obtain ⟨st, e, f⟩ := forced_good h
  refine ⟨ids.map fun u => (u, single true (neighbours m u (removeOut (st u)))), ?_, by simp [Function.comp_def], ?_⟩
  · unfold calculate; rw [e]; rfl
  intro u d hd
  obtain ⟨u', hu, heq⟩ := List.mem_map.1 hd
  obtain ⟨rfl, rfl⟩ := Prod.mk.injEq _ _ _ _ ▸ heq
  have f2 := f u' hu
  set D := neighbours m u' (removeOut (st u')) with hD
  cases hs : D with
  | nil => exact .inl ⟨rfl, fun v hv hvu => f2.rest v hv hvu (by rw [hs]; simp)⟩
  | cons a r =>
    obtain ⟨x, hx, hmax, hall⟩ := maxFrom_spec a r
    have hxs : x ∈ D := by rw [hs]; exact hx
    obtain ⟨a1, a2, a3, a4⟩ := f2.entry x hxs
    rw [single, if_neg (by simp), hmax]
    refine .inr ⟨x.1, a1, a2, rfl, a3 ▸ a4, fun w hw hwu => ?_⟩
    rw [← a3]
    by_cases hk : w ∈ D.map Prod.fst
    · obtain ⟨y, hy, rfl⟩ := List.mem_map.1 hk
      rw [← (f2.entry y hy).2.2.1]
      exact hall y (hs ▸ hy)
    · rw [f2.rest w hw hwu hk]; exact a4.le

end HB.Terrain
