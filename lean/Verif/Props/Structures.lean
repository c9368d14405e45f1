import Verif.Spec.Structures
import Mathlib.Data.List.Nodup
import Mathlib.Data.List.Range

/-! # C48, C49: structure variants, labels and recorded columns -/

set_option linter.unusedSectionVars false

namespace HB

/-! ## C48 -/

section
variable {V : Type}

/-- Variant ids are 1, 2, 3, … in order of creation, and the new variant is the selected one. -/
theorem c48_ids (n : ℕ) :
    ((fun S : Settings V => S.addStructure.1)^[n] initSettings).variants.map (fun s => s.id) =
      (List.range (n + 1)).map (fun i : ℕ => (i : ℤ) + 1) ∧
    ((fun S : Settings V => S.addStructure.1)^[n] initSettings).sel = n := by
  induction n with
  | zero => simp [initSettings]
  | succ n ih =>
    rw [Function.iterate_succ_apply']
    obtain ⟨ih, -⟩ := ih
    generalize hS : ((fun S : Settings V => S.addStructure.1)^[n] initSettings) = S at ih ⊢
    have hlen : S.variants.length = n + 1 := by
      have := congrArg List.length ih
      simpa using this
    have hmax : S.variants.foldl (fun m s => max m (s.id + 1)) 1 = (n : ℤ) + 2 := by
      have e : S.variants.foldl (fun m s => max m (s.id + 1)) 1 = (S.variants.map fun s => s.id).foldl (fun m i => max m (i + 1)) 1 := by
        rw [List.foldl_map]
      rw [e, ih]
      have key : ∀ k : ℕ, (((List.range (k + 1)).map fun i : ℕ => (i : ℤ) + 1).foldl (fun m i => max m (i + 1)) 1) = (k : ℤ) + 2 := by
        intro k
        induction k with
        | zero => rfl
        | succ k ihk =>
          rw [List.range_succ, List.map_append, List.foldl_append, ihk]
          simp only [List.map_cons, List.map_nil, List.foldl_cons, List.foldl_nil]
          rw [max_eq_right (by push_cast; omega)]
          push_cast
          ring
      exact key n
    unfold Settings.addStructure
    simp only [hmax, List.map_append, ih, hlen]
    refine ⟨?_, trivial⟩
    rw [List.range_succ (n := n + 1), List.map_append]
    simp
    ring

end

/-- What the scan knows after a prefix of the variants. -/
structure ScanInv (present : Finset String) (covers : List (Finset String)) (k : ℕ) (sc : Scan) : Prop where
  small : ∀ p ∈ sc.smallest, ∃ i < k, ∃ cs, covers[i]? = some cs ∧ p = (i + 1, cs.card) ∧ present ⊆ cs ∧
    ∀ j < k, ∀ cs', covers[j]? = some cs' → present ⊆ cs' → cs.card ≤ cs'.card
  none : sc.smallest = none → ∀ j < k, ∀ cs', covers[j]? = some cs' → ¬ present ⊆ cs'
  large : (sc.largest = 1 ∧ sc.largestSize = 0) ∨ ∃ i < k, ∃ cs, covers[i]? = some cs ∧ sc.largest = i + 1 ∧ sc.largestSize = cs.card
  bound : ∀ j < k, ∀ cs', covers[j]? = some cs' → cs'.card ≤ sc.largestSize

theorem scan_step {present : Finset String} {covers : List (Finset String)} {k : ℕ} {sc : Scan} {cs : Finset String}
    (h : ScanInv present covers k sc) (hk : covers[k]? = some cs) :
    ScanInv present covers (k + 1) (sc.step present (k + 1) cs) := by
  have hlt : ∀ j, j < k + 1 → j < k ∨ j = k := fun j hj => by omega
  -- the part about the largest variant
  have key : ∃ sc1 : Scan, sc1.smallest = sc.smallest ∧
      ((sc1.largest = 1 ∧ sc1.largestSize = 0) ∨ ∃ i < k + 1, ∃ cs, covers[i]? = some cs ∧ sc1.largest = i + 1 ∧ sc1.largestSize = cs.card) ∧
      (∀ j < k + 1, ∀ cs', covers[j]? = some cs' → cs'.card ≤ sc1.largestSize) ∧
      sc.step present (k + 1) cs = if present ⊆ cs ∧ (∀ p ∈ sc1.smallest, cs.card < p.2) then
        { sc1 with smallest := some (k + 1, cs.card) } else sc1 := by
    by_cases hb : cs.card > sc.largestSize
    · refine ⟨{ sc with largest := k + 1, largestSize := cs.card }, rfl, .inr ⟨k, by omega, cs, hk, rfl, rfl⟩, ?_, ?_⟩
      · intro j hj cs' hcs
        rcases hlt j hj with hj | rfl
        · have := h.bound j hj cs' hcs
          simp only
          omega
        · rw [hk] at hcs
          cases hcs
          exact le_refl _
      · unfold Scan.step
        simp only [hb, if_true]
    · refine ⟨sc, rfl, ?_, ?_, ?_⟩
      · rcases h.large with hl | ⟨i, hi, cs', a, b, c⟩
        · exact .inl hl
        · exact .inr ⟨i, by omega, cs', a, b, c⟩
      · intro j hj cs' hcs
        rcases hlt j hj with hj | rfl
        · exact h.bound j hj cs' hcs
        · rw [hk] at hcs
          cases hcs
          omega
      · unfold Scan.step
        simp only [hb, if_false]
  obtain ⟨sc1, e1, e2, e3, e4⟩ := key
  rw [e4]
  by_cases hc : present ⊆ cs ∧ (∀ p ∈ sc1.smallest, cs.card < p.2)
  · rw [if_pos hc]
    refine ⟨?_, by simp, e2, e3⟩
    intro p hp
    simp only [Option.mem_def, Option.some.injEq] at hp
    refine ⟨k, by omega, cs, hk, hp.symm, hc.1, ?_⟩
    intro j hj cs' hcs hsub
    rcases hlt j hj with hj | rfl
    · cases hs : sc.smallest with
      | none => exact absurd hsub (h.none hs j hj cs' hcs)
      | some q =>
        obtain ⟨i, hi, cs2, a, b, c, d⟩ := h.small q hs
        have := d j hj cs' hcs hsub
        have h2 := hc.2 q (by rw [e1]; exact hs)
        rw [b] at h2
        simp only at h2
        omega
    · rw [hk] at hcs
      cases hcs
      exact le_refl _
  · rw [if_neg hc]
    refine ⟨?_, ?_, e2, e3⟩
    · intro p hp
      rw [e1] at hp
      obtain ⟨i, hi, cs2, a, b, c, d⟩ := h.small p hp
      refine ⟨i, by omega, cs2, a, b, c, ?_⟩
      intro j hj cs' hcs hsub
      rcases hlt j hj with hj | rfl
      · exact d j hj cs' hcs hsub
      · rw [hk] at hcs
        cases hcs
        by_contra hlt'
        refine hc ⟨hsub, ?_⟩
        intro q hq
        rw [e1, hp] at hq
        cases hq
        rw [b]
        simp only
        omega
    · intro hn j hj cs' hcs hsub
      rw [e1] at hn
      rcases hlt j hj with hj | rfl
      · exact h.none hn j hj cs' hcs hsub
      · rw [hk] at hcs
        cases hcs
        exact hc ⟨hsub, fun q hq => by rw [e1, hn] at hq; cases hq⟩

theorem scanFrom_inv (present : Finset String) (covers : List (Finset String)) : ∀ (l : List (Finset String)) (k : ℕ)
    (sc : Scan), covers.drop k = l → ScanInv present covers k sc →
    ScanInv present covers covers.length (scanFrom present (k + 1) sc l) := by
  intro l
  induction l with
  | nil =>
    intro k sc hd h
    have hk : covers.length ≤ k := by simpa using hd
    unfold scanFrom
    have hlt : ∀ j < k, ∀ cs', covers[j]? = some cs' → j < covers.length := by
      intro j _ cs' hcs
      exact (List.getElem?_eq_some_iff.1 hcs).1
    refine ⟨?_, ?_, ?_, ?_⟩
    · intro p hp
      obtain ⟨i, hi, cs, a, b, c, d⟩ := h.small p hp
      exact ⟨i, hlt i hi cs a, cs, a, b, c, fun j hj => d j (by omega)⟩
    · exact fun hn j hj => h.none hn j (by omega)
    · rcases h.large with hl | ⟨i, hi, cs', a, b, c⟩
      · exact .inl hl
      · exact .inr ⟨i, hlt i hi cs' a, cs', a, b, c⟩
    · exact fun j hj => h.bound j (by omega)
  | cons cs l ih =>
    intro k sc hd h
    unfold scanFrom
    have hk : covers[k]? = some cs := by
      have := congrArg (fun x => x[0]?) hd
      simpa using this
    exact ih (k + 1) _ (by rw [List.drop_add_one_eq_tail_drop, hd]; rfl) (scan_step h hk)

/-- **C48.** For every list of variants (their land cover sets, ids 1, 2, …) and every unit: the assigned id is that of a
variant, and that variant
- has exactly the unit's covers if any variant does;
- else contains them all, with the fewest covers among the variants containing them, if any variant contains them;
- else is one with the most covers. -/
theorem c48_tightest (covers : List (Finset String)) (present : Finset String) (hne : covers ≠ []) :
    ∃ cs, covers[assignId covers present - 1]? = some cs ∧ 1 ≤ assignId covers present ∧
      (covers.length = 1 ∨
        (present ∈ covers → cs = present) ∧
        (present ∉ covers → (∃ c ∈ covers, present ⊆ c) → present ⊆ cs ∧ ∀ c ∈ covers, present ⊆ c → cs.card ≤ c.card) ∧
        ((∀ c ∈ covers, ¬ present ⊆ c) → ∀ c ∈ covers, c.card ≤ cs.card)) := by
  have hpos : 0 < covers.length := List.length_pos_of_ne_nil hne
  unfold assignId
  by_cases h1 : covers.length ≤ 1
  · rw [if_pos h1]
    exact ⟨covers[0], by simp [List.getElem?_eq_getElem hpos], le_refl _, .inl (by omega)⟩
  · rw [if_neg h1]
    cases hf : covers.findIdx? (fun cs => decide (cs = present)) with
    | some i =>
      rw [List.findIdx?_eq_some_iff_getElem] at hf
      obtain ⟨hi, he, -⟩ := hf
      have he := of_decide_eq_true he
      refine ⟨covers[i], by simp [List.getElem?_eq_getElem hi], by simp, .inr ⟨fun _ => he, ?_, ?_⟩⟩
      · intro hno
        exact absurd (by rw [← he]; exact List.getElem_mem hi) hno
      · intro hno
        exact absurd (by rw [he]) (hno covers[i] (List.getElem_mem hi))
    | none =>
      rw [List.findIdx?_eq_none_iff] at hf
      have hno : present ∉ covers := fun hm => by simpa using hf present hm
      have inv := scanFrom_inv present covers covers 0 ⟨none, 1, 0⟩ rfl
        ⟨fun p hp => by simp at hp, fun _ j hj => by omega, .inl ⟨rfl, rfl⟩, fun j hj => by omega⟩
      simp only [Nat.zero_add] at inv
      generalize scanFrom present 1 ⟨none, 1, 0⟩ covers = sc at inv
      have memlt : ∀ c ∈ covers, ∃ j < covers.length, covers[j]? = some c := by
        intro c hc
        obtain ⟨j, hj, rfl⟩ := List.getElem_of_mem hc
        exact ⟨j, hj, List.getElem?_eq_getElem hj⟩
      simp only
      cases hs : sc.smallest with
      | some p =>
        obtain ⟨i, hi, cs, a, b, c, d⟩ := inv.small p hs
        simp only
        rw [b]
        refine ⟨cs, by simpa using a, by simp, .inr ⟨fun hm => absurd hm hno, ?_, ?_⟩⟩
        · intro _ _
          refine ⟨c, ?_⟩
          intro c' hc' hsub
          obtain ⟨j, hj, hcj⟩ := memlt c' hc'
          exact d j hj c' hcj hsub
        · intro hall
          exact absurd c (hall cs (List.mem_of_getElem? a))
      | none =>
        have hnone := inv.none hs
        have hnosub : ∀ c ∈ covers, ¬ present ⊆ c := by
          intro c hc
          obtain ⟨j, hj, hcj⟩ := memlt c hc
          exact hnone j hj c hcj
        simp only
        have hbound : ∀ c ∈ covers, c.card ≤ sc.largestSize := by
          intro c hc
          obtain ⟨j, hj, hcj⟩ := memlt c hc
          exact inv.bound j hj c hcj
        rcases inv.large with ⟨l1, l2⟩ | ⟨i, hi, cs, a, b, c⟩
        · rw [l1]
          refine ⟨covers[0], by simp [List.getElem?_eq_getElem hpos], by simp, .inr ⟨fun hm => absurd hm hno, ?_, ?_⟩⟩
          · rintro _ ⟨c, hc, hsub⟩
            exact absurd hsub (hnosub c hc)
          · intro _ c hc
            have := hbound c hc
            omega
        · rw [b]
          refine ⟨cs, by simpa using a, by simp, .inr ⟨fun hm => absurd hm hno, ?_, ?_⟩⟩
          · rintro _ ⟨c, hc, hsub⟩
            exact absurd hsub (hnosub c hc)
          · intro _ c' hc'
            have := hbound c' hc'
            omega

/-- A cover counts as present exactly if its extent differs from zero by more than 1e-8. -/
theorem c48_present {K : Type} [Field K] [LinearOrder K] [IsStrictOrderedRing K] (l : List (String × K)) (x : String) :
    x ∈ presentCovers l ↔ ∃ f, (x, f) ∈ l ∧ 1 / 100000000 < |f| := by
  simp [presentCovers]

/-- Three variants; a unit with the covers `open`, `forest` gets the two-cover variant, one with `glacier` alone the smallest variant with
a glacier, one with an unknown cover the largest. -/
example : assignId [{"open"}, {"open", "forest"}, {"open", "forest", "glacier"}] {"forest", "open"} = 2 ∧
    assignId [{"open"}, {"open", "forest"}, {"open", "forest", "glacier"}, {"open", "glacier"}] {"glacier"} = 4 ∧
    assignId [{"open"}, {"open", "forest"}, {"open", "forest", "glacier"}] {"lake"} = 3 := by decide +kernel

/-! ## C49 -/

theorem firstSeen_spec (all : List String) : FirstSeenOf (firstSeen all) all := by
  unfold firstSeen
  have key : ∀ (pre l acc : List String), FirstSeenOf acc pre →
      FirstSeenOf (l.foldl (fun acc x => if x ∈ acc then acc else acc ++ [x]) acc) (pre ++ l) := by
    intro pre l
    induction l generalizing pre with
    | nil => intro acc h; simpa using h
    | cons x l ih =>
      intro acc h
      obtain ⟨h1, h2, h3⟩ := h
      rw [List.foldl_cons, show pre ++ x :: l = (pre ++ [x]) ++ l by simp]
      apply ih
      have hidx : ∀ y ∈ pre, (pre ++ [x]).idxOf y = pre.idxOf y := fun y hy => List.idxOf_append_of_mem hy
      by_cases hx : x ∈ acc
      · rw [if_pos hx]
        refine ⟨h1, ?_, ?_⟩
        · intro y
          rw [h2, List.mem_append, List.mem_singleton]
          constructor
          · exact .inl
          · rintro (hy | rfl)
            · exact hy
            · exact (h2 y).1 hx
        · refine List.Pairwise.imp_of_mem ?_ h3
          intro a b ha hb hab
          rw [hidx a ((h2 a).1 ha), hidx b ((h2 b).1 hb)]
          exact hab
      · rw [if_neg hx]
        have hxp : x ∉ pre := fun hp => hx ((h2 x).2 hp)
        refine ⟨?_, ?_, ?_⟩
        · rw [List.nodup_append']
          exact ⟨h1, by simp, by simpa using hx⟩
        · intro y
          rw [List.mem_append, List.mem_append, h2]
        · rw [List.pairwise_append]
          refine ⟨?_, by simp, ?_⟩
          · refine List.Pairwise.imp_of_mem ?_ h3
            intro a b ha hb hab
            rw [hidx a ((h2 a).1 ha), hidx b ((h2 b).1 hb)]
            exact hab
          · intro a ha b hb
            rw [List.mem_singleton] at hb
            subst hb
            have hap := (h2 a).1 ha
            rw [hidx a hap, List.idxOf_append_of_notMem hxp]
            have := List.idxOf_lt_length_iff.2 hap
            omega
  have := key [] all [] ⟨by simp, by simp, by simp⟩
  simpa using this

section
variable {V : Type}

theorem mem_logItems {b : BrickSet V} {x : String} {src : LogSrc} (h : (x, src) ∈ b.logItems) :
    (∃ item ∈ b.logs, src = .brick b.name item ∧ x = b.name ++ ":" ++ item) ∨
    (∃ pos p, b.procs[pos]? = some p ∧ ∃ item ∈ p.logs, src = .proc b.name pos item ∧
      x = b.name ++ ":" ++ p.name ++ ":" ++ item) := by
  unfold BrickSet.logItems at h
  rcases List.mem_append.1 h with h | h
  · obtain ⟨item, hi, he⟩ := List.mem_map.1 h
    cases he
    exact .inl ⟨item, hi, rfl, rfl⟩
  · obtain ⟨l, hl, hx⟩ := List.mem_flatten.1 h
    obtain ⟨⟨p, pos⟩, hp, rfl⟩ := List.mem_map.1 hl
    obtain ⟨item, hi, he⟩ := List.mem_map.1 hx
    cases he
    exact .inr ⟨pos, p, List.mem_zipIdx_iff_getElem?.1 hp, item, hi, rfl, rfl⟩

theorem mem_splitLogItems {l : List (SplitSet V)} {x : String} {src : LogSrc} (h : (x, src) ∈ splitLogItems l) :
    ∃ pos sp, l[pos]? = some sp ∧ ∃ item ∈ sp.logs, src = .split pos item ∧ x = sp.name ++ ":" ++ item := by
  unfold splitLogItems at h
  obtain ⟨l', hl, hx⟩ := List.mem_flatten.1 h
  obtain ⟨⟨p, pos⟩, hp, rfl⟩ := List.mem_map.1 hl
  obtain ⟨item, hi, he⟩ := List.mem_map.1 hx
  cases he
  exact ⟨pos, p, List.mem_zipIdx_iff_getElem?.1 hp, item, hi, rfl, rfl⟩

theorem mem_unitLog {s : Variant V} {x : String} {src : LogSrc} (h : (x, src) ∈ s.unitLog) : s.UnitNames x src := by
  unfold Variant.unitLog at h
  rcases List.mem_append.1 h with h | h
  · obtain ⟨l, hl, hx⟩ := List.mem_flatten.1 h
    obtain ⟨b, hb, rfl⟩ := List.mem_map.1 hl
    rcases mem_logItems hx with ⟨item, hi, rfl, rfl⟩ | ⟨pos, p, hp, item, hi, rfl, rfl⟩
    · exact ⟨⟨b, hb, rfl, hi⟩, rfl⟩
    · exact ⟨b, hb, rfl, p, hp, hi, rfl⟩
  · obtain ⟨pos, sp, hp, item, hi, rfl, rfl⟩ := mem_splitLogItems h
    exact ⟨sp, hp, hi, rfl⟩

theorem mem_basinLog {s : Variant V} {x : String} {src : LogSrc} (h : (x, src) ∈ s.basinLog) : s.BasinNames x src := by
  unfold Variant.basinLog at h
  rcases List.mem_append.1 h with h | h
  · rcases List.mem_append.1 h with h | h
    · obtain ⟨l, hl, hx⟩ := List.mem_flatten.1 h
      obtain ⟨b, hb, rfl⟩ := List.mem_map.1 hl
      rcases mem_logItems hx with ⟨item, hi, rfl, rfl⟩ | ⟨pos, p, hp, item, hi, rfl, rfl⟩
      · exact ⟨⟨b, hb, rfl, hi⟩, rfl⟩
      · exact ⟨b, hb, rfl, p, hp, hi, rfl⟩
    · obtain ⟨pos, sp, hp, item, hi, rfl, rfl⟩ := mem_splitLogItems h
      exact ⟨sp, hp, hi, rfl⟩
  · obtain ⟨item, hi, he⟩ := List.mem_map.1 h
    cases he
    exact ⟨hi, rfl⟩

/-- **C49 (labels).** The recorded labels of the hydro units and of the sub-basin are the labels of all variants, each
once, in order of first appearance. -/
theorem c49_labels (S : Settings V) :
    FirstSeenOf S.unitLabels ((S.variants.map fun s => s.unitLog.map Prod.fst).flatten) ∧
    FirstSeenOf S.basinLabels ((S.variants.map fun s => s.basinLog.map Prod.fst).flatten) :=
  ⟨firstSeen_spec _, firstSeen_spec _⟩

theorem connect_fold {labels : List String} : ∀ (items : List (String × LogSrc)) (cols : List (Option LogSrc)),
    (∀ e ∈ items, e.1 ∈ labels) → cols.length = labels.length →
    ∃ cols', items.foldlM (fun cols e => (labelIndex labels e.1).map fun j => cols.set j (some e.2)) cols = some cols' ∧
      cols'.length = labels.length ∧
      ∀ j (hj : j < labels.length), (labels.Nodup →
        ((∀ e ∈ items, e.1 ≠ labels[j]) → cols'[j]? = cols[j]?) ∧
        ((∃ e ∈ items, e.1 = labels[j]) → ∃ src, cols'[j]? = some (some src) ∧ (labels[j], src) ∈ items)) := by
  intro items
  induction items with
  | nil => intro cols _ hl; exact ⟨cols, rfl, hl, fun j hj _ => ⟨fun _ => rfl, by simp⟩⟩
  | cons e items ih =>
    intro cols hin hl
    have he : e.1 ∈ labels := hin e (by simp)
    have hidx : labelIndex labels e.1 = some (labels.idxOf e.1) := by simp [labelIndex, he]
    have hlt := List.idxOf_lt_length_iff.2 he
    obtain ⟨cols', h1, h2, h3⟩ := ih (cols.set (labels.idxOf e.1) (some e.2)) (fun x hx => hin x (by simp [hx])) (by simpa using hl)
    refine ⟨cols', ?_, h2, ?_⟩
    · rw [List.foldlM_cons, hidx]
      exact h1
    · intro j hj hnd
      obtain ⟨a, b⟩ := h3 j hj hnd
      have hje : labels[j] = e.1 → j = labels.idxOf e.1 := by
        intro hje
        have : labels[j] = labels[labels.idxOf e.1] := by rw [hje, List.getElem_idxOf hlt]
        exact (List.Nodup.getElem_inj_iff hnd).1 this
      constructor
      · intro hno
        rw [a fun x hx => hno x (by simp [hx])]
        have : labels.idxOf e.1 ≠ j := by
          rintro rfl
          exact hno e (by simp) (List.getElem_idxOf hlt).symm
        rw [List.getElem?_set_ne this]
      · rintro ⟨x, hx, hxe⟩
        by_cases hex : ∃ e ∈ items, e.1 = labels[j]
        · obtain ⟨src, hs, hm⟩ := b hex
          exact ⟨src, hs, by simp [hm]⟩
        · have hno : ∀ e ∈ items, e.1 ≠ labels[j] := fun y hy hye => hex ⟨y, hy, hye⟩
          have hxe' : x = e := by
            rcases List.mem_cons.1 hx with rfl | hx
            · rfl
            · exact absurd hxe (hno x hx)
          subst hxe'
          refine ⟨x.2, ?_, ?_⟩
          · rw [a hno, ← hje hxe.symm, List.getElem?_set_self (by omega)]
          · rw [← hxe]; simp

/-- **C49 (columns of the hydro units).** For every set of variants and every unit built from one of them: connecting the
logger succeeds, and the column of each label holds the value of the component which that label names, or no value if
the unit's variant has no such component. -/
theorem c49_unit_columns {X : Type} (S : Settings V) (s : Variant V) (hs : s ∈ S.variants) (value : LogSrc → X) :
    ∃ cols, connectUnit S.unitLabels s.unitLog = some cols ∧ cols.length = S.unitLabels.length ∧
      ∀ j (hj : j < S.unitLabels.length),
        (S.unitLabels[j] ∉ s.unitLog.map Prod.fst ∧ (recordUnit value cols)[j]? = some none) ∨
        ∃ src, s.UnitNames S.unitLabels[j] src ∧ (recordUnit value cols)[j]? = some (some (value src)) := by
  obtain ⟨nd, hmem, -⟩ := (c49_labels S).1
  obtain ⟨cols, h1, h2, h3⟩ := connect_fold (labels := S.unitLabels) s.unitLog
    (List.replicate S.unitLabels.length none) (by
      intro e he
      rw [hmem, List.mem_flatten]
      exact ⟨_, List.mem_map_of_mem hs, List.mem_map_of_mem he⟩) (by simp)
  refine ⟨cols, h1, h2, ?_⟩
  intro j hj
  obtain ⟨a, b⟩ := h3 j hj nd
  by_cases hex : ∃ e ∈ s.unitLog, e.1 = S.unitLabels[j]
  · obtain ⟨src, hsrc, hm⟩ := b hex
    exact .inr ⟨src, mem_unitLog hm, by simp [recordUnit, hsrc]⟩
  · have hno : ∀ e ∈ s.unitLog, e.1 ≠ S.unitLabels[j] := fun y hy hye => hex ⟨y, hy, hye⟩
    refine .inl ⟨?_, ?_⟩
    · intro hm
      obtain ⟨e, he, hee⟩ := List.mem_map.1 hm
      exact hno e he hee
    · have := a hno
      rw [List.getElem?_replicate_of_lt hj] at this
      simp [recordUnit, this]

theorem firstSeen_of_nodup {l : List String} (h : l.Nodup) : firstSeen l = l := by
  unfold firstSeen
  have key : ∀ (l acc : List String), (acc ++ l).Nodup →
      l.foldl (fun acc x => if x ∈ acc then acc else acc ++ [x]) acc = acc ++ l := by
    intro l
    induction l with
    | nil => intro acc _; simp
    | cons x l ih =>
      intro acc h
      have hx : x ∉ acc := by
        rw [List.nodup_append'] at h
        exact fun hc => h.2.2 hc (by simp)
      rw [List.foldl_cons, if_neg hx, ih _ (by simpa using h)]
      simp
  simpa using key l [] (by simpa using h)

theorem firstSeen_absorb : ∀ (r acc : List String), (∀ x ∈ r, x ∈ acc) →
    r.foldl (fun acc x => if x ∈ acc then acc else acc ++ [x]) acc = acc := by
  intro r
  induction r with
  | nil => intro acc _; rfl
  | cons x r ih =>
    intro acc h
    rw [List.foldl_cons, if_pos (h x (by simp))]
    exact ih acc fun y hy => h y (by simp [hy])

/-- **C49 (columns of the sub-basin).** If the first variant's sub-basin labels are distinct and no other variant adds one
(the sub-basin is built from the first variant): every column holds the value of the component its label names.
Missing for the full property: other variants, where a null pointer is read (`c49_extra_basin_label`), and repeated
labels, after which the columns are shifted (`c49_repeated_basin_label`). -/
theorem c49_basin_columns_partial {X : Type} (S : Settings V) (s : Variant V) (l : List (Variant V)) (hS : S.variants = s :: l)
    (hd : (s.basinLog.map Prod.fst).Nodup) (hsub : ∀ s' ∈ l, ∀ e ∈ s'.basinLog, e.1 ∈ s.basinLog.map Prod.fst)
    (value : LogSrc → X) :
    ∃ cols vals, connectBasin S.basinLabels s.basinLog = some cols ∧ recordBasin value cols = some vals ∧
      vals.length = S.basinLabels.length ∧
      ∀ j (hj : j < S.basinLabels.length), ∃ src, s.BasinNames S.basinLabels[j] src ∧ vals[j]? = some (value src) := by
  have hlab : S.basinLabels = s.basinLog.map Prod.fst := by
    unfold Settings.basinLabels
    rw [hS]
    simp only [List.map_cons, List.flatten_cons]
    unfold firstSeen
    rw [List.foldl_append]
    have := firstSeen_of_nodup hd
    unfold firstSeen at this
    rw [this]
    apply firstSeen_absorb
    intro x hx
    obtain ⟨y, hy, hxy⟩ := List.mem_flatten.1 hx
    obtain ⟨s', hs', rfl⟩ := List.mem_map.1 hy
    obtain ⟨e, he, rfl⟩ := List.mem_map.1 hxy
    exact hsub s' hs' e he
  refine ⟨s.basinLog.map fun e => some e.2, s.basinLog.map fun e => value e.2, ?_, ?_, ?_, ?_⟩
  · unfold connectBasin
    rw [hlab]
    simp
  · unfold recordBasin
    have : ∀ l : List (String × LogSrc), (l.map fun e => some e.2).mapM (fun c : Option LogSrc => c.map value) =
        some (l.map fun e => value e.2) := by
      intro l
      induction l with
      | nil => rfl
      | cons a l ih => simp [List.mapM_cons, ih]
    exact this _
  · rw [hlab]; simp
  · intro j hj
    have hj' : j < s.basinLog.length := by rw [hlab] at hj; simpa using hj
    refine ⟨s.basinLog[j].2, ?_, ?_⟩
    · apply mem_basinLog
      have : S.basinLabels[j] = s.basinLog[j].1 := by simp [hlab]
      rw [this]
      exact List.getElem_mem hj'
    · simp [List.getElem?_eq_getElem hj']

end

/-- Two variants sharing the sub-basin; the second has a glacier. -/
def logSettings : Settings ℕ :=
  { sel := 0
    variants :=
      [ ⟨1, ["outlet"], [⟨"open", "ground", [], [⟨"infiltration", "infiltration:socont", [], ["output"]⟩], ["water_content"]⟩],
          [⟨"lake", "storage", [], [⟨"outflow", "outflow:linear", [], ["output"]⟩], ["water_content"]⟩], [0], [], []⟩,
        ⟨2, ["outlet"], [⟨"ice", "glacier", [], [], ["ice_content"]⟩, ⟨"open", "ground", [], [], ["water_content"]⟩],
          [⟨"lake", "storage", [], [⟨"outflow", "outflow:linear", [], ["output"]⟩], ["water_content"]⟩], [0, 1], [], []⟩ ] }

example : logSettings.unitLabels = ["open:water_content", "open:infiltration:output", "ice:ice_content"] ∧
    logSettings.basinLabels = ["lake:water_content", "lake:outflow:output", "outlet"] ∧
    (∀ s ∈ logSettings.variants.head?, (s.basinLog.map Prod.fst).Nodup ∧
      ∀ s' ∈ logSettings.variants.tail, ∀ e ∈ s'.basinLog, e.1 ∈ s.basinLog.map Prod.fst) := by decide +kernel

/-- A second variant with a sub-basin brick of its own: its label is listed but never connected, and recording reads a null pointer. -/
theorem c49_extra_basin_label :
    let S : Settings ℕ := { logSettings with variants := logSettings.variants ++
      [⟨3, ["outlet"], [], [⟨"aquifer", "storage", [], [], ["water_content"]⟩], [], [], []⟩] }
    ∃ s ∈ S.variants.head?, ∃ cols, connectBasin S.basinLabels s.basinLog = some cols ∧
      recordBasin (fun src => src) cols = none := by
  refine ⟨_, rfl, _, rfl, by decide +kernel⟩

/-- A sub-basin brick with two logged processes of the same name: two columns, three values to connect.  The `outlet`
column gets the second process and the outlet is written past the end of the array. -/
theorem c49_repeated_basin_label :
    let s : Variant ℕ := ⟨1, ["outlet"], [], [⟨"lake", "storage", [], [⟨"out", "outflow:linear", [], ["output"]⟩,
      ⟨"out", "overflow", [], ["output"]⟩], []⟩], [], [], []⟩
    (⟨[s], 0⟩ : Settings ℕ).basinLabels = ["lake:out:output", "outlet"] ∧
    connectBasin (⟨[s], 0⟩ : Settings ℕ).basinLabels s.basinLog = none ∧
    (s.basinLog.map Prod.snd)[1]? = some (.proc "lake" 1 "output") := by decide +kernel

end HB
