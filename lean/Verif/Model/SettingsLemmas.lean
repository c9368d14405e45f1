import Verif.Spec.Settings
import Mathlib.Data.List.Nodup

/-! # Lemmas on model settings -/

set_option linter.unusedSectionVars false

namespace HB

theorem updFirst_eq_map {α : Type} {g : α → String} {c : String} {f : α → α} : ∀ {l : List α}, (l.map g).Nodup →
    updFirst (fun a => g a == c) f l = l.map fun a => if g a = c then f a else a := by
  intro l
  induction l with
  | nil => intro _; rfl
  | cons a l ih =>
    intro h
    rw [List.map_cons, List.nodup_cons] at h
    unfold updFirst
    by_cases ha : g a = c
    · simp only [ha, beq_self_eq_true, if_true, List.map_cons, List.cons.injEq, true_and]
      symm
      rw [List.map_congr_left (g := id), List.map_id]
      intro x hx
      have : g x ≠ c := fun hc => h.1 (by rw [ha, ← hc]; exact List.mem_map_of_mem hx)
      simp [this]
    · have : (g a == c) = false := by simp [ha]
      simp only [this, List.map_cons, ha, if_false]
      rw [ih h.2]
      simp

section
variable {V : Type}

/-- Replace the value of the parameter `n`. -/
def only (n : String) (v : V) : String → V → V := fun m x => if m = n then v else x

theorem mapVals_id (l : List (String × V)) : mapVals (fun _ x => x) l = l := by simp [mapVals]

theorem mapVals_only_id {n : String} {v : V} {l : List (String × V)} (h : n ∉ l.map Prod.fst) :
    mapVals (only n v) l = l := by
  unfold mapVals
  rw [List.map_congr_left (g := id), List.map_id]
  intro e he
  have : e.1 ≠ n := fun hc => h (by rw [← hc]; exact List.mem_map_of_mem he)
  simp [only, this]

theorem BrickSet.mapVals_id (b : BrickSet V) : b.mapVals (fun _ x => x) = b := by
  simp [BrickSet.mapVals, HB.mapVals_id]

theorem SplitSet.mapVals_id (b : SplitSet V) : b.mapVals (fun _ x => x) = b := by
  simp [SplitSet.mapVals, HB.mapVals_id]

theorem hasParam_iff {n : String} {l : List (String × V)} : hasParam n l = true ↔ n ∈ l.map Prod.fst := by
  simp [hasParam]

theorem setFirst_eq {n : String} {v : V} {l : List (String × V)} (h : (l.map Prod.fst).Nodup) :
    setFirst n v l = mapVals (only n v) l := by
  unfold setFirst mapVals
  rw [updFirst_eq_map (g := Prod.fst) h]
  apply List.map_congr_left
  intro e _
  by_cases he : e.1 = n <;> simp [only, he]

theorem setProcs_eq {n : String} {v : V} : ∀ {l : List (ProcSet V)},
    ((l.map fun p => p.params.map Prod.fst).flatten).Nodup →
    updFirst (fun p => hasParam n p.params) (fun p => { p with params := setFirst n v p.params }) l =
      l.map fun p => { p with params := mapVals (only n v) p.params } := by
  intro l
  induction l with
  | nil => intro _; rfl
  | cons p l ih =>
    intro h
    simp only [List.map_cons, List.flatten_cons, List.nodup_append'] at h
    obtain ⟨h1, h2, h3⟩ := h
    unfold updFirst
    by_cases hp : hasParam n p.params = true
    · rw [if_pos hp]
      simp only [List.map_cons, List.cons.injEq, setFirst_eq h1, true_and]
      symm
      rw [List.map_congr_left (g := id), List.map_id]
      intro q hq
      rw [mapVals_only_id]
      · rfl
      · intro hn
        exact h3 (hasParam_iff.1 hp) (List.mem_flatten.2 ⟨_, List.mem_map_of_mem hq, hn⟩)
    · rw [if_neg hp, ih h2]
      simp only [List.map_cons, List.cons.injEq, and_true]
      rw [mapVals_only_id (fun hn => hp (hasParam_iff.2 hn))]

theorem BrickSet.setParam_eq {n : String} {v : V} {b : BrickSet V} (h : b.paramNames.Nodup) :
    b.setParam n v = if n ∈ b.paramNames then some (b.mapVals (only n v)) else none := by
  unfold BrickSet.paramNames at h
  rw [List.nodup_append'] at h
  obtain ⟨h1, h2, h3⟩ := h
  unfold BrickSet.setParam
  by_cases hp : hasParam n b.params = true
  · have hm := hasParam_iff.1 hp
    rw [if_pos hp, if_pos (by unfold BrickSet.paramNames; exact List.mem_append.2 (.inl hm)), setFirst_eq h1]
    unfold BrickSet.mapVals
    congr 2
    symm
    rw [List.map_congr_left (g := id), List.map_id]
    intro q hq
    rw [mapVals_only_id]
    · rfl
    · exact fun hn => h3 hm (List.mem_flatten.2 ⟨_, List.mem_map_of_mem hq, hn⟩)
  · rw [if_neg hp]
    have hm : n ∉ b.params.map Prod.fst := fun hc => hp (hasParam_iff.2 hc)
    by_cases hq : (b.procs.any fun p => hasParam n p.params) = true
    · rw [if_pos hq, setProcs_eq h2]
      have : n ∈ b.paramNames := by
        obtain ⟨p, hpm, hpn⟩ := List.any_eq_true.1 hq
        exact List.mem_append.2 (.inr (List.mem_flatten.2 ⟨_, List.mem_map_of_mem hpm, hasParam_iff.1 hpn⟩))
      rw [if_pos this]
      unfold BrickSet.mapVals
      rw [mapVals_only_id hm]
    · rw [if_neg hq, if_neg]
      intro hc
      unfold BrickSet.paramNames at hc
      rcases List.mem_append.1 hc with hc | hc
      · exact hm hc
      · obtain ⟨x, hx, hn⟩ := List.mem_flatten.1 hc
        obtain ⟨p, hpm, rfl⟩ := List.mem_map.1 hx
        exact hq (List.any_eq_true.2 ⟨p, hpm, hasParam_iff.2 hn⟩)

/-- The one brick of that name. -/
theorem find_named {α : Type} {g : α → String} {l : List α} {b : α} (h : (l.map g).Nodup) (hb : b ∈ l) :
    (l.find? fun x => g x == g b) = some b := by
  induction l with
  | nil => simp at hb
  | cons a l ih =>
    rw [List.map_cons, List.nodup_cons] at h
    rcases List.mem_cons.1 hb with rfl | hb
    · simp
    · have : g a ≠ g b := fun hc => h.1 (by rw [hc]; exact List.mem_map_of_mem hb)
      rw [List.find?_cons_of_neg (by simp [this])]
      exact ih h.2 hb

theorem setInBricks_eq {n : String} {v : V} {l : List (BrickSet V)} {b : BrickSet V} (h : (l.map fun b => b.name).Nodup)
    (hn : ∀ b ∈ l, b.paramNames.Nodup) (hb : b ∈ l) :
    setInBricks b.name n v l =
      if n ∈ b.paramNames then some (l.map fun x => if x.name = b.name then x.mapVals (only n v) else x) else none := by
  unfold setInBricks
  rw [find_named (g := fun b : BrickSet V => b.name) h hb, Option.bind_some, BrickSet.setParam_eq (hn b hb)]
  by_cases hp : n ∈ b.paramNames
  · simp only [hp, if_true]
    congr 1
    rw [updFirst_eq_map (g := fun b : BrickSet V => b.name) h]
    apply List.map_congr_left
    intro x hx
    by_cases hx' : x.name = b.name
    · have : x = b := by
        have h1 := find_named (g := fun b : BrickSet V => b.name) h hx
        have h2 := find_named (g := fun b : BrickSet V => b.name) h hb
        simp only [hx'] at h1
        rw [h1] at h2
        exact Option.some.inj h2
      subst this
      simp [BrickSet.setParam_eq (hn x hx), hp]
    · simp [hx']
  · simp [hp]

theorem setInSplits_eq {n : String} {v : V} {l : List (SplitSet V)} {b : SplitSet V} (h : (l.map fun b => b.name).Nodup)
    (hn : ∀ b ∈ l, (b.params.map Prod.fst).Nodup) (hb : b ∈ l) :
    setInSplits b.name n v l =
      if n ∈ b.params.map Prod.fst then some (l.map fun x => if x.name = b.name then x.mapVals (only n v) else x)
      else none := by
  unfold setInSplits
  rw [find_named (g := fun b : SplitSet V => b.name) h hb]
  simp only
  by_cases hp : n ∈ b.params.map Prod.fst
  · rw [if_pos (hasParam_iff.2 hp), if_pos hp]
    congr 1
    rw [updFirst_eq_map (g := fun b : SplitSet V => b.name) h]
    apply List.map_congr_left
    intro x hx
    by_cases hx' : x.name = b.name
    · simp only [hx', if_true, SplitSet.mapVals]
      rw [setFirst_eq (hn x hx)]
    · simp [hx']
  · rw [if_neg (fun hc => hp (hasParam_iff.1 hc)), if_neg hp]

/-- Replace the value of parameter `n` in the components named `c`. -/
def byName (c n : String) (v : V) : Comp → String → V → V := fun k m x => if k.name = c ∧ m = n then v else x

theorem bricks_byName (c n : String) (v : V) (pl : Place) (l : List (BrickSet V)) :
    (l.map fun b => b.mapVals (byName c n v ⟨pl, b.name, b.type⟩)) =
      l.map fun x => if x.name = c then x.mapVals (only n v) else x := by
  apply List.map_congr_left
  intro b _
  by_cases hb : b.name = c
  · simp only [hb, if_true]
    congr 1
    funext m x
    simp [byName, only]
  · simp only [hb, if_false]
    have : byName c n v ⟨pl, b.name, b.type⟩ = fun _ x => x := by
      funext m x
      simp [byName, hb]
    rw [this, BrickSet.mapVals_id]

theorem splits_byName (c n : String) (v : V) (l : List (SplitSet V)) :
    (l.map fun b => b.mapVals (byName c n v ⟨.splitter, b.name, b.type⟩)) =
      l.map fun x => if x.name = c then x.mapVals (only n v) else x := by
  apply List.map_congr_left
  intro b _
  by_cases hb : b.name = c
  · simp only [hb, if_true]
    congr 1
    funext m x
    simp [byName, only]
  · simp only [hb, if_false]
    have : byName c n v ⟨.splitter, b.name, b.type⟩ = fun _ x => x := by
      funext m x
      simp [byName, hb]
    rw [this, SplitSet.mapVals_id]

theorem map_absent {α : Type} {g : α → String} {c : String} {f : α → α} {l : List α} (h : ∀ x ∈ l, g x ≠ c) :
    (l.map fun x => if g x = c then f x else x) = l := by
  rw [List.map_congr_left (g := id), List.map_id]
  intro x hx
  simp [h x hx]

theorem comps_names (s : Variant V) : (s.comps.map fun k => k.1.name) =
    (s.unitBricks.map fun b => b.name) ++ ((s.basinBricks.map fun b => b.name) ++
      ((s.unitSplits.map fun b => b.name) ++ s.basinSplits.map fun b => b.name)) := by
  simp [Variant.comps, Function.comp_def]

theorem any_named {α : Type} {g : α → String} {c : String} {l : List α} :
    (l.any fun b => g b == c) = true ↔ c ∈ l.map g := by
  simp

/-- `SetParameterValueInSelectedStructure` by name, for one variant with distinct names. -/
theorem Variant.setParam_named {c n : String} {v : V} {s : Variant V} (h1 : (s.comps.map fun k => k.1.name).Nodup)
    (h2 : ∀ k ∈ s.comps, k.2.Nodup) {k : Comp × List String} (hk : k ∈ s.comps) (hc : k.1.name = c) :
    s.setParam c n v = if n ∈ k.2 then .ret true (s.mapVals (byName c n v)) else .thrown s := by
  have hnames := h1
  rw [comps_names] at hnames
  obtain ⟨n1, hnames, d1⟩ := List.nodup_append'.1 hnames
  obtain ⟨n2, hnames, d2⟩ := List.nodup_append'.1 hnames
  obtain ⟨n3, n4, d3⟩ := List.nodup_append'.1 hnames
  have p1 : ∀ b ∈ s.unitBricks, b.paramNames.Nodup := fun b hb => h2 (⟨.unitBrick, b.name, b.type⟩, b.paramNames)
    (by simp only [Variant.comps, List.mem_append, List.mem_map]; exact .inl (.inl ⟨b, hb, rfl⟩))
  have p2 : ∀ b ∈ s.basinBricks, b.paramNames.Nodup := fun b hb => h2 (⟨.basinBrick, b.name, b.type⟩, b.paramNames)
    (by simp only [Variant.comps, List.mem_append, List.mem_map]; exact .inl (.inr ⟨b, hb, rfl⟩))
  have p3 : ∀ b ∈ s.unitSplits, (b.params.map Prod.fst).Nodup := fun b hb =>
    h2 (⟨.splitter, b.name, b.type⟩, b.params.map Prod.fst)
    (by simp only [Variant.comps, List.mem_append, List.mem_map]; exact .inr ⟨b, .inl hb, rfl⟩)
  have p4 : ∀ b ∈ s.basinSplits, (b.params.map Prod.fst).Nodup := fun b hb =>
    h2 (⟨.splitter, b.name, b.type⟩, b.params.map Prod.fst)
    (by simp only [Variant.comps, List.mem_append, List.mem_map]; exact .inr ⟨b, .inr hb, rfl⟩)
  have absent : ∀ {α : Type} {g : α → String} {l : List α}, c ∉ l.map g → ∀ x ∈ l, g x ≠ c :=
    fun h x hx hc => h (by rw [← hc]; exact List.mem_map_of_mem hx)
  have hmap : s.mapVals (byName c n v) =
      { s with unitBricks := s.unitBricks.map fun x => if x.name = c then x.mapVals (only n v) else x
               basinBricks := s.basinBricks.map fun x => if x.name = c then x.mapVals (only n v) else x
               unitSplits := s.unitSplits.map fun x => if x.name = c then x.mapVals (only n v) else x
               basinSplits := s.basinSplits.map fun x => if x.name = c then x.mapVals (only n v) else x } := by
    unfold Variant.mapVals
    rw [bricks_byName, bricks_byName, splits_byName, splits_byName]
  rw [hmap]
  unfold Variant.comps at hk
  rcases List.mem_append.1 hk with hk | hk
  · rcases List.mem_append.1 hk with hk | hk
    · obtain ⟨b, hb, rfl⟩ := List.mem_map.1 hk
      simp only at hc ⊢
      have a1 : c ∈ s.unitBricks.map fun b => b.name := by rw [← hc]; exact List.mem_map_of_mem hb
      have q2 : c ∉ s.basinBricks.map fun b => b.name := fun hx => d1 a1 (List.mem_append.2 (.inl hx))
      have q3 : c ∉ s.unitSplits.map fun b => b.name :=
        fun hx => d1 a1 (List.mem_append.2 (.inr (List.mem_append.2 (.inl hx))))
      have q4 : c ∉ s.basinSplits.map fun b => b.name :=
        fun hx => d1 a1 (List.mem_append.2 (.inr (List.mem_append.2 (.inr hx))))
      unfold Variant.setParam
      rw [if_pos (any_named.2 a1), ← hc, setInBricks_eq n1 p1 hb, hc, map_absent (absent q2), map_absent (absent q3),
        map_absent (absent q4)]
      by_cases hp : n ∈ b.paramNames <;> simp [hp]
    · obtain ⟨b, hb, rfl⟩ := List.mem_map.1 hk
      simp only at hc ⊢
      have a2 : c ∈ s.basinBricks.map fun b => b.name := by rw [← hc]; exact List.mem_map_of_mem hb
      have q1 : c ∉ s.unitBricks.map fun b => b.name := fun hx => d1 hx (List.mem_append.2 (.inl a2))
      have q3 : c ∉ s.unitSplits.map fun b => b.name := fun hx => d2 a2 (List.mem_append.2 (.inl hx))
      have q4 : c ∉ s.basinSplits.map fun b => b.name := fun hx => d2 a2 (List.mem_append.2 (.inr hx))
      unfold Variant.setParam
      rw [if_neg (fun h => q1 (any_named.1 h)), if_pos (any_named.2 a2), ← hc, setInBricks_eq n2 p2 hb, hc,
        map_absent (absent q1), map_absent (absent q3), map_absent (absent q4)]
      by_cases hp : n ∈ b.paramNames <;> simp [hp]
  · obtain ⟨b, hb, rfl⟩ := List.mem_map.1 hk
    simp only at hc ⊢
    rcases List.mem_append.1 hb with hb | hb
    · have a3 : c ∈ s.unitSplits.map fun b => b.name := by rw [← hc]; exact List.mem_map_of_mem hb
      have q1 : c ∉ s.unitBricks.map fun b => b.name :=
        fun hx => d1 hx (List.mem_append.2 (.inr (List.mem_append.2 (.inl a3))))
      have q2 : c ∉ s.basinBricks.map fun b => b.name := fun hx => d2 hx (List.mem_append.2 (.inl a3))
      have q4 : c ∉ s.basinSplits.map fun b => b.name := fun hx => d3 a3 hx
      unfold Variant.setParam
      rw [if_neg (fun h => q1 (any_named.1 h)), if_neg (fun h => q2 (any_named.1 h)), if_pos (any_named.2 a3), ← hc,
        setInSplits_eq n3 p3 hb, hc, map_absent (absent q1), map_absent (absent q2), map_absent (absent q4)]
      by_cases hp : n ∈ b.params.map Prod.fst
      · rw [if_pos hp, if_pos hp]
      · rw [if_neg hp, if_neg hp]
    · have a4 : c ∈ s.basinSplits.map fun b => b.name := by rw [← hc]; exact List.mem_map_of_mem hb
      have q1 : c ∉ s.unitBricks.map fun b => b.name :=
        fun hx => d1 hx (List.mem_append.2 (.inr (List.mem_append.2 (.inr a4))))
      have q2 : c ∉ s.basinBricks.map fun b => b.name := fun hx => d2 hx (List.mem_append.2 (.inr a4))
      have q3 : c ∉ s.unitSplits.map fun b => b.name := fun hx => d3 hx a4
      unfold Variant.setParam
      rw [if_neg (fun h => q1 (any_named.1 h)), if_neg (fun h => q2 (any_named.1 h)), if_neg (fun h => q3 (any_named.1 h)),
        if_pos (any_named.2 a4), ← hc, setInSplits_eq n4 p4 hb, hc, map_absent (absent q1), map_absent (absent q2),
        map_absent (absent q3)]
      by_cases hp : n ∈ b.params.map Prod.fst
      · rw [if_pos hp, if_pos hp]
      · rw [if_neg hp, if_neg hp]

theorem Variant.names_absent {c : String} {s : Variant V} (h : ∀ k ∈ s.comps, k.1.name ≠ c) :
    c ∉ (s.unitBricks.map fun b => b.name) ∧ c ∉ (s.basinBricks.map fun b => b.name) ∧
      c ∉ (s.unitSplits.map fun b => b.name) ∧ c ∉ s.basinSplits.map fun b => b.name := by
  have : c ∉ s.comps.map fun k => k.1.name := by
    intro hc
    obtain ⟨k, hk, hkc⟩ := List.mem_map.1 hc
    exact h k hk hkc
  rw [comps_names] at this
  simpa only [List.mem_append, not_or] using this

theorem Variant.setParam_absent {c n : String} {v : V} {s : Variant V} (h : ∀ k ∈ s.comps, k.1.name ≠ c)
    (ht : hasType c = false) : s.setParam c n v = .ret false s ∧ s.mapVals (byName c n v) = s := by
  obtain ⟨q1, q2, q3, q4⟩ := Variant.names_absent h
  have absent : ∀ {α : Type} {g : α → String} {l : List α}, c ∉ l.map g → ∀ x ∈ l, g x ≠ c :=
    fun h x hx hc => h (by rw [← hc]; exact List.mem_map_of_mem hx)
  constructor
  · unfold Variant.setParam
    rw [if_neg (fun h => q1 (any_named.1 h)), if_neg (fun h => q2 (any_named.1 h)), if_neg (fun h => q3 (any_named.1 h)),
      if_neg (fun h => q4 (any_named.1 h)), ht]
    simp
  · unfold Variant.mapVals
    rw [bricks_byName, bricks_byName, splits_byName, splits_byName, map_absent (absent q1), map_absent (absent q2),
      map_absent (absent q3), map_absent (absent q4)]

/-- Replacing values changes neither components nor names. -/
theorem BrickSet.paramNames_mapVals (f : String → V → V) (b : BrickSet V) : (b.mapVals f).paramNames = b.paramNames := by
  simp [BrickSet.paramNames, BrickSet.mapVals, HB.mapVals, Function.comp_def]

theorem Variant.comps_mapVals (f : Comp → String → V → V) (s : Variant V) : (s.mapVals f).comps = s.comps := by
  have hb : ∀ g (b : BrickSet V), (b.mapVals g).name = b.name ∧ (b.mapVals g).type = b.type := fun _ _ => ⟨rfl, rfl⟩
  have hs : ∀ g (b : SplitSet V), (b.mapVals g).name = b.name ∧ (b.mapVals g).type = b.type := fun _ _ => ⟨rfl, rfl⟩
  have hp : ∀ g (b : SplitSet V), (b.mapVals g).params.map Prod.fst = b.params.map Prod.fst := by
    intro g b; simp [SplitSet.mapVals, HB.mapVals, Function.comp_def]
  simp only [Variant.comps, Variant.mapVals, List.map_map, List.map_append, Function.comp_def, hb, hs,
    BrickSet.paramNames_mapVals, hp]

/-- The loop over the variants when every one either takes the parameter or lacks the component. -/
theorem loopVariants_eq {c n : String} {v : V} (f : Comp → String → V → V) (B : Variant V → Bool) :
    ∀ {l : List (Variant V)} {i : ℕ}, (∀ s ∈ l, s.setParam c n v = .ret (B s) (s.mapVals f)) →
      loopVariants c n v i l = (l.map fun s => s.mapVals f, l.any B, none) := by
  intro l
  induction l with
  | nil => intro i _; rfl
  | cons s l ih =>
    intro i h
    unfold loopVariants
    rw [h s (by simp)]
    simp only
    rw [ih fun s hs => h s (by simp [hs])]
    simp

theorem selectId_eq {l : List (Variant V)} (h : (l.map fun s => s.id).Nodup) {i : ℕ} (hi : i < l.length) :
    selectId l[i].id l = some i := by
  unfold selectId
  rw [List.findIdx?_eq_some_iff_getElem]
  refine ⟨hi, by simp, ?_⟩
  intro j hj
  have hji : (l.map fun s => s.id)[j]'(by rw [List.length_map]; omega) ≠ (l.map fun s => s.id)[i]'(by rw [List.length_map]; omega) := by
    intro hc
    exact absurd ((List.Nodup.getElem_inj_iff h).1 hc) (by omega)
  rw [List.getElem_map, List.getElem_map] at hji
  simp [hji]

theorem setOne_eq {c n : String} {v : V} {S : Settings V} (hw : S.WellFormed) (f : Comp → String → V → V)
    (B : Variant V → Bool) (h : ∀ s ∈ S.variants, s.setParam c n v = .ret (B s) (s.mapVals f)) :
    setOne c n v S = .ret (S.variants.any B) (S.mapVals f) := by
  unfold setOne
  simp only [loopVariants_eq f B h]
  congr 1
  unfold Settings.mapVals
  congr 1
  have hi := hw.2
  have e : (S.variants.map fun s => s.mapVals f).map (fun s => s.id) = S.variants.map fun s => s.id := by
    rw [List.map_map]; rfl
  have hlt : S.sel < (S.variants.map fun s => s.mapVals f).length := by rw [List.length_map]; exact hi
  have := selectId_eq (l := S.variants.map fun s => s.mapVals f) (by rw [e]; exact hw.1) hlt
  rw [List.getElem_map] at this
  rw [List.getElem?_eq_getElem hi, Option.map_some, Option.bind_some]
  have e2 : (S.variants[S.sel].mapVals f).id = S.variants[S.sel].id := rfl
  rw [e2] at this
  rw [this]
  rfl

end

end HB
