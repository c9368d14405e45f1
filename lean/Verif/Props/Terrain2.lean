import Verif.Props.Terrain

/-!
# C77: declaring the computed connections, building the basin, and what is not checked
-/

namespace HB.Terrain

set_option linter.unusedSectionVars false

open Spec HB.Basin

variable {K : Type} [Field K] [LinearOrder K] [IsStrictOrderedRing K]

/-- A row that the model accepts: no connection, or shares in (0, 1] to other declared units that sum to one. -/
def Spec.GoodRow (ids : List ℤ) (u : ℤ) (d : List (ℤ × K)) : Prop :=
  d = [] ∨ ((d.map Prod.snd).sum = 1 ∧ ∀ e ∈ d, e.1 ∈ ids ∧ e.1 ≠ u ∧ 0 < e.2 ∧ e.2 ≤ 1)

theorem setEntries_ok {ids : List ℤ} {u : ℤ} (hu : u ∈ ids) (d : List (ℤ × K))
    (h : ∀ e ∈ d, e.1 ∈ ids ∧ e.1 ≠ u ∧ 0 < e.2 ∧ e.2 ≤ 1) :
    setEntries ids u d = (d.map fun e => ⟨u, e.1, e.2, ""⟩, none) := by
  induction d with
  | nil => rfl
  | cons e r ih =>
    obtain ⟨a, b, c, d⟩ := h e (by simp)
    have h1 : setOne ids u e = .ok ⟨u, e.1, e.2, ""⟩ := by
      unfold setOne
      rw [if_neg b, if_neg (not_lt.2 c.le), if_neg (not_lt.2 d), if_neg (not_not.2 hu), if_neg (not_not.2 a)]
    rw [setEntries, h1]
    simp only
    rw [ih fun x hx => h x (by simp [hx])]
    rfl

theorem setConnectivity_ok {ids : List ℤ} (T : List (ℤ × List (ℤ × K))) (h : ∀ r ∈ T, r.1 ∈ ids ∧ Spec.GoodRow ids r.1 r.2) :
    setConnectivity ids T = (T.flatMap fun r => r.2.map fun e => ⟨r.1, e.1, e.2, ""⟩, none) := by
  induction T with
  | nil => rfl
  | cons r R ih =>
    obtain ⟨u, d⟩ := r
    have ih := ih fun x hx => h x (by simp [hx])
    obtain ⟨hu, hg⟩ := h (u, d) (by simp)
    rw [setConnectivity]
    by_cases hd : d = []
    · rw [if_pos hd, ih]; simp [hd]
    · rw [if_neg hd]
      obtain ⟨hs, he⟩ := hg.resolve_left hd
      have hc : isClose1 (total d) = true := by
        unfold isClose1
        have : total d = 1 := hs
        rw [this, sub_self, abs_zero, decide_eq_true_eq]; positivity
      rw [if_pos hc, setEntries_ok hu d he]
      simp only
      rw [ih]
      simp

/-- The declaration accepts a table exactly when every row with receivers has shares in [0, 1] that sum to one (numpy's
tolerance), between different declared units; then exactly these connections are declared, in the order of the table. -/
theorem c77_accepted (ids : List ℤ) (T : List (ℤ × List (ℤ × K))) :
    ((setConnectivity ids T).2 = none ↔ ∀ r ∈ T, r.2 ≠ [] → |(r.2.map Prod.snd).sum - 1| ≤ 1 / 10 ^ 8 + 1 / 10 ^ 5 ∧
      ∀ e ∈ r.2, e.1 ≠ r.1 ∧ 0 ≤ e.2 ∧ e.2 ≤ 1 ∧ r.1 ∈ ids ∧ e.1 ∈ ids) ∧
    ((setConnectivity ids T).2 = none → (setConnectivity ids T).1 = T.flatMap fun r => r.2.map fun e => ⟨r.1, e.1, e.2, ""⟩) := by
  have one : ∀ (u : ℤ) (e : ℤ × K), (setOne ids u e = .ok ⟨u, e.1, e.2, ""⟩ ∧ e.1 ≠ u ∧ 0 ≤ e.2 ∧ e.2 ≤ 1 ∧ u ∈ ids ∧ e.1 ∈ ids) ∨
      ((∃ x, setOne ids u e = .error x) ∧ ¬ (e.1 ≠ u ∧ 0 ≤ e.2 ∧ e.2 ≤ 1 ∧ u ∈ ids ∧ e.1 ∈ ids)) := by
    intro u e
    by_cases h1 : e.1 = u
    · right; exact ⟨⟨_, by unfold setOne; rw [if_pos h1]⟩, fun h => h.1 h1⟩
    by_cases h2 : e.2 < 0
    · right; exact ⟨⟨_, by unfold setOne; rw [if_neg h1, if_pos h2]⟩, fun h => absurd h.2.1 (not_le.2 h2)⟩
    by_cases h3 : 1 < e.2
    · right; exact ⟨⟨_, by unfold setOne; rw [if_neg h1, if_neg h2, if_pos h3]⟩, fun h => absurd h.2.2.1 (not_le.2 h3)⟩
    by_cases h4 : u ∈ ids
    · by_cases h5 : e.1 ∈ ids
      · left
        exact ⟨by unfold setOne; rw [if_neg h1, if_neg h2, if_neg h3, if_neg (not_not.2 h4), if_neg (not_not.2 h5)],
          h1, not_lt.1 h2, not_lt.1 h3, h4, h5⟩
      · right; exact ⟨⟨_, by unfold setOne; rw [if_neg h1, if_neg h2, if_neg h3, if_neg (not_not.2 h4), if_pos h5]⟩, fun h => h5 h.2.2.2.2⟩
    · right; exact ⟨⟨_, by unfold setOne; rw [if_neg h1, if_neg h2, if_neg h3, if_pos h4]⟩, fun h => h4 h.2.2.2.1⟩
  have entries : ∀ (u : ℤ) (d : List (ℤ × K)),
      ((setEntries ids u d).2 = none ↔ ∀ e ∈ d, e.1 ≠ u ∧ 0 ≤ e.2 ∧ e.2 ≤ 1 ∧ u ∈ ids ∧ e.1 ∈ ids) ∧
      ((setEntries ids u d).2 = none → (setEntries ids u d).1 = d.map fun e => ⟨u, e.1, e.2, ""⟩) := by
    intro u d
    induction d with
    | nil => simp [setEntries]
    | cons e r ih =>
      rcases one u e with ⟨h1, h2⟩ | ⟨⟨x, h1⟩, h2⟩
      · rw [setEntries, h1]
        simp only [List.forall_mem_cons, List.map_cons, List.cons.injEq, true_and]
        exact ⟨⟨fun h => ⟨h2, ih.1.1 h⟩, fun h => ih.1.2 h.2⟩, ih.2⟩
      · rw [setEntries, h1]
        simp only [List.forall_mem_cons, reduceCtorEq, false_iff, false_imp_iff, and_true]
        exact fun h => h2 h.1
  induction T with
  | nil => simp [setConnectivity]
  | cons r R ih =>
    obtain ⟨u, d⟩ := r
    rw [setConnectivity]
    by_cases hd : d = []
    · rw [if_pos hd]
      simpa [hd] using ih
    · rw [if_neg hd]
      by_cases hc : isClose1 (total d) = true
      · rw [if_pos hc]
        have hc' : |(d.map Prod.snd).sum - 1| ≤ 1 / 10 ^ 8 + 1 / 10 ^ 5 := by
          unfold isClose1 total at hc; simpa only [decide_eq_true_eq] using hc
        obtain ⟨e1, e2⟩ := entries u d
        rcases hs : setEntries ids u d with ⟨l, _ | x⟩
        · rw [hs] at e1 e2
          simp only [List.forall_mem_cons, List.flatMap_cons] at e1 e2 ⊢
          refine ⟨⟨fun h => ⟨fun _ => ⟨hc', e1.1 trivial⟩, ih.1.1 h⟩, fun h => ih.1.2 h.2⟩, fun h => ?_⟩
          rw [e2 trivial, ih.2 h]
        · rw [hs] at e1
          simp only [reduceCtorEq, false_iff] at e1
          simp only [List.forall_mem_cons, reduceCtorEq, false_iff, false_imp_iff, and_true]
          exact fun h => e1 (h.1 hd).2
      · rw [if_neg hc]
        have hc' : ¬ |(d.map Prod.snd).sum - 1| ≤ 1 / 10 ^ 8 + 1 / 10 ^ 5 := by
          unfold isClose1 total at hc; simpa only [decide_eq_true_eq] using hc
        simp only [List.forall_mem_cons, reduceCtorEq, false_iff, false_imp_iff, and_true]
        exact fun h => hc' (h.1 hd).1

variable [FloorRing K]

/-- Whatever the options, the rows computed are good ones. -/
theorem rows_good {m : Maps K} {ids : List ℤ} (h : Proper m ids) {p : ℕ} (hp : 2 ≤ p) {mode : String}
    (hm : mode = "multiple" ∨ mode = "single") (force : Bool) : ∃ T, calculate m ids mode force p = .ok T ∧
      T.map Prod.fst = ids ∧ ∀ r ∈ T, r.1 ∈ ids ∧ Spec.GoodRow ids r.1 r.2 := by
  have key : ∀ (w : ℤ → ℤ → K) (T : List (ℤ × List (ℤ × K))), T.map Prod.fst = ids →
      (∀ u d, (u, d) ∈ T → d ≠ [] → Shares ids u p (w u) d) → ∀ r ∈ T, r.1 ∈ ids ∧ Spec.GoodRow ids r.1 r.2 := by
    intro w T hT hS r hr
    obtain ⟨u, d⟩ := r
    refine ⟨hT ▸ List.mem_map_of_mem hr, ?_⟩
    by_cases hd : d = []
    · exact .inl hd
    · have s := hS u d hr hd
      exact .inr ⟨s.sum, fun e he => ⟨(s.other e he).1, (s.other e he).2, (s.pos e he).1, (s.pos e he).2⟩⟩
  have one : ∀ T : List (ℤ × List (ℤ × K)), T.map Prod.fst = ids →
      (∀ u d, (u, d) ∈ T → d = [] ∨ ∃ v ∈ ids, v ≠ u ∧ d = [(v, 1)]) → ∀ r ∈ T, r.1 ∈ ids ∧ Spec.GoodRow ids r.1 r.2 := by
    intro T hT hS r hr
    obtain ⟨u, d⟩ := r
    refine ⟨hT ▸ List.mem_map_of_mem hr, ?_⟩
    rcases hS u d hr with hd | ⟨v, hv, hvu, hd⟩
    · exact .inl hd
    · refine .inr ⟨by simp [hd], fun e he => ?_⟩
      simp only [hd, List.mem_singleton] at he
      subst he
      exact ⟨hv, hvu, one_pos, le_rfl⟩
  rcases hm with rfl | rfl <;> cases force
  · obtain ⟨T, e, hT, f⟩ := c77_shares h hp
    exact ⟨T, e, hT, key (flow m) T hT fun u d hd hne => ((f u d hd).1 hne).1⟩
  · obtain ⟨T, e, hT, f⟩ := c77_forced h hp
    exact ⟨T, e, hT, key (Spec.forcedWeight m ids) T hT fun u d hd hne => ((f u d hd).1 hne).1⟩
  · obtain ⟨T, e, hT, f⟩ := c77_single h p
    refine ⟨T, e, hT, one T hT fun u d hd => ?_⟩
    rcases f u d hd with ⟨hh, _⟩ | ⟨v, a, b, c, _⟩
    · exact .inl hh
    · exact .inr ⟨v, a, b, c⟩
  · obtain ⟨T, e, hT, f⟩ := c77_forced_single h p
    refine ⟨T, e, hT, one T hT fun u d hd => ?_⟩
    rcases f u d hd with ⟨hh, _⟩ | ⟨v, a, b, c, _⟩
    · exact .inl hh
    · exact .inr ⟨v, a, b, c⟩

omit [FloorRing K] in
theorem row_connections (ids : List ℤ) (hn : ids.Nodup) (T : List (ℤ × List (ℤ × K))) (hT : (T.map Prod.fst).Nodup) (u : ℤ)
    (d : List (ℤ × K)) (hd : (u, d) ∈ T) (pos : ℤ → Option ℕ) :
    ((T.flatMap fun r => r.2.map fun e => (⟨r.1, e.1, e.2, ""⟩ : LatDecl K)).filterMap fun l =>
      if l.giver = u then (pos l.receiver).map fun r => (⟨r, l.fraction, l.type⟩ : LatConn K) else none) =
    d.filterMap fun e => (pos e.1).map fun r => ⟨r, e.2, ""⟩ := by
  have other : ∀ R : List (ℤ × List (ℤ × K)), u ∉ R.map Prod.fst →
      ((R.flatMap fun r => r.2.map fun e => (⟨r.1, e.1, e.2, ""⟩ : LatDecl K)).filterMap fun l =>
        if l.giver = u then (pos l.receiver).map fun r => (⟨r, l.fraction, l.type⟩ : LatConn K) else none) = [] := by
    intro R hR
    rw [List.filterMap_eq_nil_iff]
    intro l hl
    simp only [List.mem_flatMap, List.mem_map] at hl
    obtain ⟨r, hr, e, _, rfl⟩ := hl
    rw [if_neg]
    exact fun hh => hR (hh ▸ List.mem_map_of_mem hr)
  induction T with
  | nil => cases hd
  | cons r R ih =>
    rw [List.map_cons, List.nodup_cons] at hT
    rw [List.flatMap_cons, List.filterMap_append]
    rcases List.mem_cons.1 hd with rfl | hd'
    · rw [other R hT.1, List.append_nil, List.filterMap_map]
      congr 1
      funext e
      simp [Function.comp_apply]
    · have hne : r.1 ≠ u := fun hh => hT.1 (hh ▸ List.mem_map_of_mem hd')
      rw [ih hT.2 hd']
      have : (r.2.map fun e => (⟨r.1, e.1, e.2, ""⟩ : LatDecl K)).filterMap (fun l =>
          if l.giver = u then (pos l.receiver).map fun r => (⟨r, l.fraction, l.type⟩ : LatConn K) else none) = [] := by
        rw [List.filterMap_eq_nil_iff]
        intro l hl
        obtain ⟨e, _, rfl⟩ := List.mem_map.1 hl
        rw [if_neg hne]
      rw [this, List.nil_append]

/-- **C77 (from the terrain to the basin).**  The connections computed from the terrain — in all four ways, with at least two
decimals — are accepted by `set_connectivity` and by the model, and every unit of the built basin gets exactly the connections
of its row: positive shares to other units, which sum to one unless there are none. -/
theorem c77_built {m : Maps K} {ids : List ℤ} (h : Proper m ids) {p : ℕ} (hp : 2 ≤ p) {mode : String}
    (hm : mode = "multiple" ∨ mode = "single") (force : Bool) (D : Decl K) (hD : D.units.map (·.id) = ids) :
    ∃ T L b, calculate m ids mode force p = .ok T ∧ setConnectivity ids T = (L, none) ∧
      build { D with laterals := L } = .ok b ∧ b.units.length = ids.length ∧
      ∀ (k : ℕ) (v : BUnit K), b.units[k]? = some v →
        (∃ d, (v.id, d) ∈ T ∧ v.laterals = d.map fun e => ⟨ids.idxOf e.1, e.2, ""⟩) ∧
        (v.laterals = [] ∨ (v.laterals.map (·.fraction)).sum = 1) ∧
        ∀ l ∈ v.laterals, 0 < l.fraction ∧ l.fraction ≤ 1 ∧ l.receiver < ids.length ∧ l.receiver ≠ k := by
  obtain ⟨T, e, hT, hg⟩ := rows_good h hp hm force
  have hset := setConnectivity_ok T hg
  set L : List (LatDecl K) := T.flatMap fun r => r.2.map fun e => ⟨r.1, e.1, e.2, ""⟩ with hL
  have hn : ids.Nodup := h.ids_distinct
  have hnD : (({ D with laterals := L } : Decl K).units.map (·.id)).Nodup := by
    show (D.units.map (·.id)).Nodup
    rw [hD]; exact hn
  obtain ⟨b, hb⟩ := (c61_built ({ D with laterals := L } : Decl K)).2.2 (by
    intro l hl _ _
    simp only [hL, List.mem_flatMap, List.mem_map] at hl
    obtain ⟨r, hr, x, hx, rfl⟩ := hl
    rcases (hg r hr).2 with h0 | ⟨_, h1⟩
    · rw [h0] at hx; cases hx
    · exact (h1 x hx).2.2)
  obtain ⟨_, hlen, hunits⟩ := c61_units _ hnD b hb
  have hlen' : b.units.length = ids.length := by
    rw [hlen, ← hD, List.length_map]
  refine ⟨T, L, b, e, hset, hb, hlen', ?_⟩
  intro k v hv
  have hk : k < D.units.length := by
    have := (List.getElem?_eq_some_iff.1 hv).1
    rw [hlen', ← hD, List.length_map] at this; exact this
  have hu := hunits k D.units[k] (List.getElem?_eq_getElem hk)
  rw [hv] at hu
  have hv' := Option.some.inj hu
  have hid : v.id = D.units[k].id := by rw [hv']
  have hidk : ids[k]? = some v.id := by
    rw [← hD, List.getElem?_map, List.getElem?_eq_getElem hk, hid]; rfl
  have hin : v.id ∈ T.map Prod.fst := by rw [hT]; exact List.mem_of_getElem? hidk
  obtain ⟨r, hr, hrid⟩ := List.mem_map.1 hin
  obtain ⟨u, d⟩ := r
  simp only at hrid
  subst hrid
  -- positions
  have gen : ∀ (units : List (UnitDecl K)) (is : List ℤ), units.map (·.id) = is → ∀ (j : ℕ) (h1 : j < units.length)
      (h2 : j < is.length), units[j].id = is[j] := by
    intro units is hh j h1 h2
    subst hh
    simp
  have hpos : ∀ x ∈ ids, (D.units.findIdx? fun w => w.id == x) = some (ids.idxOf x) := by
    intro x hx
    have hx1 : ids.idxOf x < ids.length := List.idxOf_lt_length_iff.2 hx
    rw [List.findIdx?_eq_some_iff_getElem]
    have hl : D.units.length = ids.length := by rw [← hD, List.length_map]
    refine ⟨by omega, ?_, ?_⟩
    · have : D.units[ids.idxOf x].id = ids[ids.idxOf x] := gen _ _ hD _ _ _
      rw [this]; simp
    · intro j hj
      have : D.units[j].id = ids[j] := gen _ _ hD _ _ _
      rw [this]
      intro hh
      have hh : ids[j] = x := by simpa using hh
      have := hn.idxOf_getElem j (by omega)
      rw [hh] at this; omega
  have hrow : Spec.GoodRow ids v.id d := (hg _ hr).2
  have hlat : v.laterals = d.map fun e => ⟨ids.idxOf e.1, e.2, ""⟩ := by
    rw [hv']
    have hc := row_connections ids hn T (by rw [hT]; exact hn) v.id d hr (fun x => D.units.findIdx? fun w => w.id == x)
    rw [hid] at hc
    refine Eq.trans hc ?_
    rcases hrow with h0 | ⟨_, h1⟩
    · rw [h0]; rfl
    · rw [← List.filterMap_eq_map]
      refine List.filterMap_congr fun x hx => ?_
      rw [hpos x.1 (h1 x hx).1]; rfl
  refine ⟨⟨d, hr, hlat⟩, ?_, ?_⟩
  · rcases hrow with h0 | ⟨h0, _⟩
    · left; rw [hlat, h0]; rfl
    · right; rw [hlat, List.map_map]; exact h0
  · intro l hl
    rw [hlat] at hl
    obtain ⟨x, hx, rfl⟩ := List.mem_map.1 hl
    rcases hrow with h0 | ⟨_, h1⟩
    · rw [h0] at hx; cases hx
    · obtain ⟨a1, a2, a3, a4⟩ := h1 x hx
      refine ⟨a3, a4, List.idxOf_lt_length_iff.2 a1, ?_⟩
      intro hh
      simp only at hh
      have hlt : ids.idxOf x.1 < ids.length := List.idxOf_lt_length_iff.2 a1
      have : ids[ids.idxOf x.1]? = some v.id := by rw [hh]; exact hidk
      rw [List.getElem?_eq_getElem hlt, List.getElem_idxOf hlt] at this
      exact a2 (Option.some.inj this)

/-- **C77 (no snow is given twice).**  The connections of a unit of that basin satisfy the conditions under which lateral
transfers never give more snow than there is (`c31_slide_holding`, `c31_frey`), whatever the snowpacks `packs` of the
receivers. -/
theorem c77_lateral {m : Maps ℝ} {ids : List ℤ} (h : Proper m ids) {p : ℕ} (hp : 2 ≤ p) {mode : String}
    (hm : mode = "multiple" ∨ mode = "single") (force : Bool) (D : Decl ℝ) (hD : D.units.map (·.id) = ids) (area : ℕ → ℝ)
    (harea : ∀ k < ids.length, 0 < area k) (packs : ℕ → List RPack) (hf : ∀ k, ∀ q ∈ packs k, 0 ≤ q.frac)
    (hs : ∀ k, ((packs k).map (·.frac)).sum ≤ 1) :
    ∃ T L b, calculate m ids mode force p = .ok T ∧ setConnectivity ids T = (L, none) ∧
      build { D with laterals := L } = .ok b ∧ ∀ v ∈ b.units,
        HB.Spec.GoodConns (v.laterals.map fun l => ⟨l.fraction, area l.receiver, packs l.receiver⟩) := by
  obtain ⟨T, L, b, e1, e2, e3, _, f⟩ := c77_built h hp hm force D hD
  refine ⟨T, L, b, e1, e2, e3, fun v hv => ?_⟩
  obtain ⟨k, hk⟩ := List.mem_iff_getElem?.1 hv
  obtain ⟨_, f2, f3⟩ := f k v hk
  constructor
  · intro c hc
    obtain ⟨l, hl, rfl⟩ := List.mem_map.1 hc
    unfold connAccepted
    push Not
    exact ⟨(f3 l hl).1, (f3 l hl).2.1⟩
  · intro c hc
    obtain ⟨l, hl, rfl⟩ := List.mem_map.1 hc
    exact harea _ (f3 l hl).2.2.1
  · intro c hc
    obtain ⟨l, hl, rfl⟩ := List.mem_map.1 hc
    exact hf _
  · intro c hc
    obtain ⟨l, hl, rfl⟩ := List.mem_map.1 hc
    exact hs _
  · rw [List.map_map]
    rcases f2 with h0 | h0
    · rw [h0]; simp
    · exact h0.le

/-! ## A terrain, and what goes wrong -/

namespace TerrainDemo

/-- Unit 3 above units 1 and 2: 95 cells drain to the first and 5 to the second. -/
def slope : Maps ℚ where
  rows := 2
  cols := 2
  unit := fun i j => if j = 0 then 3 else if i = 0 then 1 else 2
  dir := fun _ j => if j = 0 then 1 else 0
  acc := fun i _ => if i = 0 then 95 else 5

theorem slope_proper : Proper slope [3, 1, 2] := by
  constructor
  · intro i j _ _
    right
    unfold slope
    simp only
    split
    · simp
    · split <;> simp
  · intro i j _ _
    unfold slope
    simp only
    split
    · exact .inr ⟨.e, rfl⟩
    · exact .inl le_rfl
  · intro i j _ _ _
    unfold slope
    simp only
    split <;> norm_num
  · decide
  · decide

/-- Three decimals: the shares are 0.95 and 0.05. -/
theorem three_decimals : (calculate slope [3, 1, 2] "multiple" false 3).toOption =
    some [(3, [(1, 95 / 100), (2, 5 / 100)]), (1, []), (2, [])] := by decide +kernel

/-- Forced: the units below are connected back to the unit above and to each other, by their borders. -/
theorem forced : (calculate slope [3, 1, 2] "multiple" true 2).toOption =
    some [(3, [(1, 95 / 100), (2, 5 / 100)]), (1, [(2, 1 / 2), (3, 1 / 2)]), (2, [(1, 1 / 2), (3, 1 / 2)])] := by decide +kernel

/-- **Finding.**  With `precision=1` a share can be rounded to zero: `set_connectivity` accepts it and the model refuses to be
built. -/
theorem c77_share_rounded_to_zero :
    (calculate slope [3, 1, 2] "multiple" false 1).toOption = some [(3, [(1, 1), (2, 0)]), (1, []), (2, [])] ∧
    setConnectivity [3, 1, 2] [(3, [(1, (1 : ℚ)), (2, 0)]), (1, []), (2, [])] = ([⟨3, 1, 1, ""⟩, ⟨3, 2, 0, ""⟩], none) ∧
    build (⟨[⟨3, 1, 0, [], [], []⟩, ⟨1, 1, 0, [], [], []⟩, ⟨2, 1, 0, [], [], []⟩], [⟨3, 1, 1, ""⟩, ⟨3, 2, 0, ""⟩], none⟩ : Decl ℚ)
      = .refused := by
  refine ⟨by decide +kernel, by decide +kernel, ?_⟩
  decide +kernel

/-- A unit above 101 others. -/
def wide : Maps ℚ where
  rows := 2
  cols := 101
  unit := fun i j => if i = 0 then 1 else (j : ℤ) + 2
  dir := fun i _ => if i = 0 then 4 else 0
  acc := fun _ _ => 1

/-- **Finding.**  A unit that drains equally to 101 units is left without connection, although nothing leaves the
catchment and even if connections are forced. -/
theorem c77_too_many_receivers :
    ((calculate wide ((List.range 102).map fun k => (k : ℤ) + 1) "multiple" true 3).toOption.bind fun T =>
      (T.find? fun r => r.1 == 1).map Prod.snd) = some [] := by decide +kernel

/-- **Finding.**  `set_connectivity` accepts shares that sum to a little more than one: the unit gives more snow than its
excess. -/
theorem c77_shares_above_one : setConnectivity [1, 2, 3] [(1, [(2, (1 / 2 : ℚ)), (3, 1 / 2 + 1 / 10 ^ 5)])] =
    ([⟨1, 2, 1 / 2, ""⟩, ⟨1, 3, 1 / 2 + 1 / 10 ^ 5, ""⟩], none) := by decide +kernel

/-- **Finding.**  A unit listed twice (or `set_connectivity` called twice) gets its connections twice: its shares sum to two. -/
theorem c77_repeated_row : setConnectivity [1, 2] [(1, [(2, (1 : ℚ))]), (1, [(2, 1)])] = ([⟨1, 2, 1, ""⟩, ⟨1, 2, 1, ""⟩], none) ∧
    (build (⟨[⟨1, 1, 0, [], [], []⟩, ⟨2, 1, 0, [], [], []⟩], [⟨1, 2, 1, ""⟩, ⟨1, 2, 1, ""⟩], none⟩ : Decl ℚ)) =
      .ok ⟨[⟨1, 1, [], [⟨1, 1, ""⟩, ⟨1, 1, ""⟩]⟩, ⟨2, 1, [], []⟩], 2⟩ := by
  refine ⟨by decide +kernel, ?_⟩
  decide +kernel

end TerrainDemo
end HB.Terrain
