import Verif.Model.SettingsLemmas

/-! # C45: setting a parameter reaches exactly the intended components -/

set_option linter.unusedSectionVars false

namespace HB

section
variable {V : Type}

theorem hasType_no_comma {c : String} (hc : ',' ∉ c.toList) (n : String) (v : V) (S : Settings V) :
    setParameterValue c n v S = setOne c n v S := by
  unfold setParameterValue
  rw [if_neg hc]

/-- **C45 (component given by name).** For every set of variants with distinct component and parameter names, every
component name `c` (no comma, no `type:`), every parameter and value: the call
- returns false and changes nothing if no variant has a component `c`;
- returns true and replaces the value of exactly the parameters `n` of the components `c`, in every variant, if every
  component `c` has that parameter;
- throws otherwise.
Missing for the full property: components with two parameters of the same name (`c45_second_process_ignored`). -/
theorem c45_by_name_partial (c n : String) (v : V) (S : Settings V) (hw : S.WellFormed) (hd : S.Distinct)
    (hc : ',' ∉ c.toList) (ht : ¬ "type:".toList <:+: c.toList) :
    (¬ S.Has c → setParameterValue c n v S = .ret false S) ∧
    (S.Has c → (∀ s ∈ S.variants, ∀ k ∈ s.comps, k.1.name = c → n ∈ k.2) →
      setParameterValue c n v S = .ret true (S.mapVals fun k m x => if k.name = c ∧ m = n then v else x)) ∧
    ((∃ s ∈ S.variants, ∃ k ∈ s.comps, k.1.name = c ∧ n ∉ k.2) → ∃ S', setParameterValue c n v S = .thrown S') := by
  rw [hasType_no_comma hc]
  have ht' : hasType c = false := by simpa [hasType] using ht
  classical
  refine ⟨?_, ?_, ?_⟩
  · intro hno
    have habs : ∀ s ∈ S.variants, s.setParam c n v = .ret ((fun _ => false) s) (s.mapVals (byName c n v)) ∧
        s.mapVals (byName c n v) = s := by
      intro s hs
      have h : ∀ k ∈ s.comps, k.1.name ≠ c := fun k hk hkc => hno ⟨s, hs, k, hk, hkc⟩
      obtain ⟨a, b⟩ := Variant.setParam_absent (n := n) (v := v) h ht'
      exact ⟨by rw [a, b], b⟩
    rw [setOne_eq hw (byName c n v) (fun _ => false) fun s hs => (habs s hs).1]
    have e : S.mapVals (byName c n v) = S := by
      unfold Settings.mapVals
      have : (S.variants.map fun s => s.mapVals (byName c n v)) = S.variants := by
        rw [List.map_congr_left (g := id), List.map_id]
        intro s hs
        exact (habs s hs).2
      rw [this]
    rw [e]
    simp
  · intro hhas hall
    have hb : ∀ s ∈ S.variants, s.setParam c n v =
        .ret ((fun s => decide (∃ k ∈ s.comps, k.1.name = c)) s) (s.mapVals (byName c n v)) := by
      intro s hs
      by_cases h : ∃ k ∈ s.comps, k.1.name = c
      · obtain ⟨k, hk, hkc⟩ := h
        rw [Variant.setParam_named (hd s hs).1 (hd s hs).2 hk hkc, if_pos (hall s hs k hk hkc)]
        have : decide (∃ k ∈ s.comps, k.1.name = c) = true := decide_eq_true ⟨k, hk, hkc⟩
        simp only [this]
      · have h' : ∀ k ∈ s.comps, k.1.name ≠ c := fun k hk hkc => h ⟨k, hk, hkc⟩
        obtain ⟨a, b⟩ := Variant.setParam_absent (n := n) (v := v) h' ht'
        rw [a, b]
        have : decide (∃ k ∈ s.comps, k.1.name = c) = false := decide_eq_false h
        simp only [this]
    rw [setOne_eq hw (byName c n v) _ hb]
    have : (S.variants.any fun s => decide (∃ k ∈ s.comps, k.1.name = c)) = true := by
      obtain ⟨s, hs, k, hk, hkc⟩ := hhas
      rw [List.any_eq_true]
      exact ⟨s, hs, decide_eq_true ⟨k, hk, hkc⟩⟩
    rw [this]
    rfl
  · rintro ⟨s, hs, k, hk, hkc, hn⟩
    have key : ∀ (l : List (Variant V)) (i : ℕ), s ∈ l → ∃ j, (loopVariants c n v i l).2.2 = some j := by
      intro l
      induction l with
      | nil => intro i h; simp at h
      | cons a l ih =>
        intro i h
        unfold loopVariants
        cases ha : a.setParam c n v with
        | thrown s' => exact ⟨i, rfl⟩
        | ret b s' =>
          rcases List.mem_cons.1 h with rfl | h
          · rw [Variant.setParam_named (hd s hs).1 (hd s hs).2 hk hkc, if_neg hn] at ha
            cases ha
          · exact ih (i + 1) h
    obtain ⟨j, hj⟩ := key S.variants 0 hs
    unfold setOne
    simp only [hj]
    exact ⟨_, rfl⟩

/-- The brick types selected by `type:t`: that type, or any land cover type for `land_cover`. -/
def TypeSelects (t brickType : String) : Prop :=
  brickType = t ∨ (t = "land_cover" ∧ brickType ∈ ["generic_land_cover", "ground", "generic", "open", "glacier"])

instance (t b : String) : Decidable (TypeSelects t b) := inferInstanceAs (Decidable (_ ∨ _))

theorem typeMatches_iff (t b : String) : typeMatches t b = true ↔ TypeSelects t b := by
  simp [typeMatches, TypeSelects, isLandCoverType, or_assoc]

theorem only_idem (n : String) (v : V) (b : BrickSet V) : (b.mapVals (only n v)).mapVals (only n v) = b.mapVals (only n v) := by
  have h : ∀ l : List (String × V), mapVals (only n v) (mapVals (only n v) l) = mapVals (only n v) l := by
    intro l
    simp only [mapVals, List.map_map]
    apply List.map_congr_left
    intro e _
    simp only [Function.comp, only]
    split <;> rfl
  simp [BrickSet.mapVals, h, Function.comp_def]

theorem typeLoop_eq {n : String} {v : V} : ∀ (cs : List String) (bs : List (BrickSet V)),
    (bs.map fun b => b.name).Nodup → (∀ b ∈ bs, b.paramNames.Nodup) →
    (∀ c ∈ cs, ∃ b ∈ bs, b.name = c ∧ n ∈ b.paramNames) →
    typeLoop n v cs bs = (true, bs.map fun b => if b.name ∈ cs then b.mapVals (only n v) else b) := by
  intro cs
  induction cs with
  | nil => intro bs _ _ _; simp [typeLoop]
  | cons c cs ih =>
    intro bs h1 h2 h3
    obtain ⟨b, hb, hbc, hn⟩ := h3 c (by simp)
    unfold typeLoop
    rw [← hbc, setInBricks_eq h1 h2 hb, if_pos hn, hbc]
    simp only
    have hname : ∀ x : BrickSet V, (if x.name = c then x.mapVals (only n v) else x).name = x.name := by
      intro x; split <;> rfl
    have hpar : ∀ x : BrickSet V, (if x.name = c then x.mapVals (only n v) else x).paramNames = x.paramNames := by
      intro x; split
      · exact BrickSet.paramNames_mapVals _ _
      · rfl
    rw [ih]
    · congr 1
      rw [List.map_map]
      apply List.map_congr_left
      intro x _
      simp only [Function.comp, hname]
      by_cases hx : x.name = c <;> by_cases hx' : x.name ∈ cs <;> simp [hx, hx']
      · rw [hx] at hx'
        simp [hx', only_idem]
      · rw [hx] at hx'
        simp [hx']
    · rw [List.map_map]
      simpa only [Function.comp_def, hname] using h1
    · intro x hx
      obtain ⟨y, hy, rfl⟩ := List.mem_map.1 hx
      rw [hpar]
      exact h2 y hy
    · intro c' hc'
      obtain ⟨y, hy, hyc, hyn⟩ := h3 c' (by simp [hc'])
      exact ⟨_, List.mem_map_of_mem hy, by rw [hname]; exact hyc, by rw [hpar]; exact hyn⟩

/-- **C45 (components given by type).** If no component is called `type:t` itself, no sub-basin brick is of the type and
every hydro unit brick of the type has the parameter: the call returns true and replaces exactly the parameters `n` of
the hydro unit bricks of that type.  Missing for the full property: sub-basin bricks of the type (the call throws,
`c45_type_basin_throws`) and failure when nothing matches (it returns true, `c45_type_nothing_matches`). -/
theorem c45_by_type_partial (t n : String) (v : V) (S : Settings V) (hw : S.WellFormed) (hd : S.Distinct)
    (hc : ',' ∉ t.toList) (hno : ¬ S.Has ("type:" ++ t))
    (hbasin : ∀ s ∈ S.variants, ∀ k ∈ s.comps, k.1.place = .basinBrick → ¬ TypeSelects t k.1.type)
    (hall : ∀ s ∈ S.variants, ∀ k ∈ s.comps, k.1.place = .unitBrick → TypeSelects t k.1.type → n ∈ k.2) :
    setParameterValue ("type:" ++ t) n v S =
      .ret (!S.variants.isEmpty)
        (S.mapVals fun k m x => if k.place = .unitBrick ∧ TypeSelects t k.type ∧ m = n then v else x) := by
  have hl : ("type:" ++ t).toList = ['t', 'y', 'p', 'e', ':'] ++ t.toList := by
    rw [String.toList_append]; rfl
  rw [hasType_no_comma (by rw [hl]; simp [hc])]
  have ht : hasType ("type:" ++ t) = true := by
    simp only [hasType, decide_eq_true_eq]
    rw [hl]
    exact ⟨[], t.toList, by rfl⟩
  have htt : typeOf ("type:" ++ t) = t := by
    unfold typeOf
    rw [hl]
    simp [String.ofList_toList]
  have hb : ∀ s ∈ S.variants, s.setParam ("type:" ++ t) n v = .ret ((fun _ => true) s) (s.mapVals
      fun k m x => if k.place = .unitBrick ∧ TypeSelects t k.type ∧ m = n then v else x) := by
    intro s hs
    obtain ⟨q1, q2, q3, q4⟩ := Variant.names_absent (s := s) (c := "type:" ++ t) (fun k hk hkc => hno ⟨s, hs, k, hk, hkc⟩)
    have hnames := (hd s hs).1
    rw [comps_names] at hnames
    obtain ⟨n1, -, -⟩ := List.nodup_append'.1 hnames
    have mem1 : ∀ b ∈ s.unitBricks, (⟨⟨.unitBrick, b.name, b.type⟩, b.paramNames⟩ : Comp × List String) ∈ s.comps :=
      fun b hb => by simp only [Variant.comps, List.mem_append, List.mem_map]; exact .inl (.inl ⟨b, hb, rfl⟩)
    have mem2 : ∀ b ∈ s.basinBricks, (⟨⟨.basinBrick, b.name, b.type⟩, b.paramNames⟩ : Comp × List String) ∈ s.comps :=
      fun b hb => by simp only [Variant.comps, List.mem_append, List.mem_map]; exact .inl (.inr ⟨b, hb, rfl⟩)
    unfold Variant.setParam
    rw [if_neg (fun h => q1 (any_named.1 h)), if_neg (fun h => q2 (any_named.1 h)), if_neg (fun h => q3 (any_named.1 h)),
      if_neg (fun h => q4 (any_named.1 h)), if_pos ht, htt]
    have hf2 : (s.basinBricks.filter fun b => typeMatches t b.type) = [] := by
      rw [List.filter_eq_nil_iff]
      intro b hb hm
      exact hbasin s hs _ (mem2 b hb) rfl ((typeMatches_iff _ _).1 hm)
    simp only [List.filter_append, hf2, List.append_nil]
    rw [typeLoop_eq _ _ n1 (fun b hb => (hd s hs).2 _ (mem1 b hb))]
    · simp only [if_true]
      congr 1
      unfold Variant.mapVals
      congr 1
      · apply List.map_congr_left
        intro b hb
        by_cases hm : TypeSelects t b.type
        · have : b.name ∈ (s.unitBricks.filter fun b => typeMatches t b.type).map fun b => b.name :=
            List.mem_map.2 ⟨b, List.mem_filter.2 ⟨hb, (typeMatches_iff _ _).2 hm⟩, rfl⟩
          rw [if_pos this]
          congr 1
          funext m x
          simp [only, hm]
        · have : b.name ∉ (s.unitBricks.filter fun b => typeMatches t b.type).map fun b => b.name := by
            intro hx
            obtain ⟨b', hb', he⟩ := List.mem_map.1 hx
            obtain ⟨hb', hm'⟩ := List.mem_filter.1 hb'
            have : b' = b := by
              have h1 := find_named (g := fun b : BrickSet V => b.name) n1 hb'
              have h2 := find_named (g := fun b : BrickSet V => b.name) n1 hb
              simp only [he] at h1
              rw [h1] at h2
              exact Option.some.inj h2
            subst this
            exact hm ((typeMatches_iff _ _).1 hm')
          rw [if_neg this]
          simp only [hm, false_and, and_false, if_false]
          exact (BrickSet.mapVals_id b).symm
      · rw [List.map_congr_left (g := id), List.map_id]
        intro b _
        simp only [reduceCtorEq, false_and, if_false]
        exact BrickSet.mapVals_id b
      · rw [List.map_congr_left (g := id), List.map_id]
        intro b _
        simp only [reduceCtorEq, false_and, if_false]
        exact SplitSet.mapVals_id b
      · rw [List.map_congr_left (g := id), List.map_id]
        intro b _
        simp only [reduceCtorEq, false_and, if_false]
        exact SplitSet.mapVals_id b
    · intro c hc
      obtain ⟨b, hb, rfl⟩ := List.mem_map.1 hc
      obtain ⟨hb, hm⟩ := List.mem_filter.1 hb
      exact ⟨b, hb, rfl, hall s hs _ (mem1 b hb) rfl ((typeMatches_iff _ _).1 hm)⟩
  rw [setOne_eq hw _ _ hb]
  congr 1
  cases S.variants <;> simp

/-! ## Comma-separated lists -/

theorem trimBlanks_pad (a b : ℕ) (l : List Char) (h1 : l.head? ≠ some ' ') (h2 : l.getLast? ≠ some ' ') (hne : l ≠ []) :
    trimBlanks (List.replicate a ' ' ++ l ++ List.replicate b ' ') = l := by
  have hrep : ∀ (a : ℕ) (x : List Char), x.head? ≠ some ' ' →
      (List.replicate a ' ' ++ x).dropWhile (fun ch => ch == ' ') = x := by
    intro a x hx
    induction a with
    | zero => cases x with
      | nil => rfl
      | cons y x =>
        have : y ≠ ' ' := fun hc => hx (by simp [hc])
        simp [this]
    | succ a ih => rw [List.replicate_succ]; simpa using ih
  unfold trimBlanks
  rw [List.append_assoc, hrep a]
  · rw [List.reverse_append, List.reverse_replicate, hrep b]
    · simp
    · rw [List.head?_reverse]; exact h2
  · cases l with
    | nil => exact absurd rfl hne
    | cons y l => simpa using h1

/-- A user-written list: names with any blanks around them, separated by commas. -/
theorem tokens_list (ps : List (ℕ × String × ℕ)) (hne : ps ≠ []) (h : ∀ p ∈ ps, p.2.1.toList ≠ [] ∧ ',' ∉ p.2.1.toList ∧
    p.2.1.toList.head? ≠ some ' ' ∧ p.2.1.toList.getLast? ≠ some ' ') (c : String)
    (hc : c.toList = [','].intercalate
      (ps.map fun p => List.replicate p.1 ' ' ++ p.2.1.toList ++ List.replicate p.2.2 ' ')) :
    tokens c = ps.map fun p => p.2.1 := by
  unfold tokens
  rw [hc, List.splitOn_intercalate]
  · have e : (ps.map fun p => List.replicate p.1 ' ' ++ p.2.1.toList ++ List.replicate p.2.2 ' ').map trimBlanks =
        ps.map fun p => p.2.1.toList := by
      rw [List.map_map]
      apply List.map_congr_left
      intro p hp
      obtain ⟨h1, -, h3, h4⟩ := h p hp
      exact trimBlanks_pad _ _ _ h3 h4 h1
    rw [e, List.filter_eq_self.2]
    · rw [List.map_map]
      apply List.map_congr_left
      intro p _
      simp
    · intro x hx
      obtain ⟨p, hp, rfl⟩ := List.mem_map.1 hx
      simpa using (h p hp).1
  · intro l hl
    obtain ⟨p, hp, rfl⟩ := List.mem_map.1 hl
    have := (h p hp).2.1
    simp [this]
  · simpa using hne

theorem Settings.mapVals_facts (f : Comp → String → V → V) (S : Settings V) :
    ((S.mapVals f).WellFormed ↔ S.WellFormed) ∧ ((S.mapVals f).Distinct ↔ S.Distinct) := by
  constructor
  · unfold Settings.WellFormed Settings.mapVals
    simp only [List.map_map, List.length_map]
    rfl
  · unfold Settings.Distinct Settings.mapVals
    simp [Variant.comps_mapVals]

/-- **C45 (comma-separated list).** Names separated by commas, with any blanks around them, each a component of some
variant and having the parameter wherever it exists: the call returns true and replaces exactly the parameters `n` of
the listed components.  Missing for the full property: as for single names; a list failing at its second name keeps the
change made for the first (`c45_list_not_atomic`). -/
theorem c45_list_partial (ps : List (ℕ × String × ℕ)) (n : String) (v : V) (S : Settings V) (hw : S.WellFormed)
    (hd : S.Distinct) (h2 : 2 ≤ ps.length) (h : ∀ p ∈ ps, p.2.1.toList ≠ [] ∧ ',' ∉ p.2.1.toList ∧
      p.2.1.toList.head? ≠ some ' ' ∧ p.2.1.toList.getLast? ≠ some ' ' ∧ ¬ "type:".toList <:+: p.2.1.toList) (c : String)
    (hc : c.toList = [','].intercalate
      (ps.map fun p => List.replicate p.1 ' ' ++ p.2.1.toList ++ List.replicate p.2.2 ' '))
    (hhas : ∀ p ∈ ps, S.Has p.2.1)
    (hall : ∀ p ∈ ps, ∀ s ∈ S.variants, ∀ k ∈ s.comps, k.1.name = p.2.1 → n ∈ k.2) :
    setParameterValue c n v S =
      .ret true (S.mapVals fun k m x => if k.name ∈ (ps.map fun p => p.2.1) ∧ m = n then v else x) := by
  have hne : ps ≠ [] := by rintro rfl; simp at h2
  have hcomma : ',' ∈ c.toList := by
    rw [hc]
    match ps, h2 with
    | a :: b :: ps, _ => simp [List.intercalate_cons_cons]
  unfold setParameterValue
  rw [if_pos hcomma, tokens_list ps hne (fun p hp => ⟨(h p hp).1, (h p hp).2.1, (h p hp).2.2.1, (h p hp).2.2.2.1⟩) c hc]
  have key : ∀ (cs : List String) (S : Settings V), S.WellFormed → S.Distinct →
      (∀ c ∈ cs, ',' ∉ c.toList ∧ ¬ "type:".toList <:+: c.toList) → (∀ c ∈ cs, S.Has c) →
      (∀ c ∈ cs, ∀ s ∈ S.variants, ∀ k ∈ s.comps, k.1.name = c → n ∈ k.2) →
      setList n v cs S = .ret true (S.mapVals fun k m x => if k.name ∈ cs ∧ m = n then v else x) := by
    intro cs
    induction cs with
    | nil =>
      intro S _ _ _ _ _
      unfold setList
      congr 1
      unfold Settings.mapVals
      have : (S.variants.map fun s => s.mapVals fun k m x => if k.name ∈ ([] : List String) ∧ m = n then v else x) =
          S.variants := by
        rw [List.map_congr_left (g := id), List.map_id]
        intro s _
        simp only [List.not_mem_nil, false_and, if_false]
        unfold Variant.mapVals
        simp [BrickSet.mapVals_id, SplitSet.mapVals_id]
      rw [this]
    | cons c cs ih =>
      intro S hw hd h1 h2 h3
      unfold setList
      have := (c45_by_name_partial c n v S hw hd (h1 c (by simp)).1 (h1 c (by simp)).2).2.1 (h2 c (by simp))
        (h3 c (by simp))
      rw [hasType_no_comma (h1 c (by simp)).1] at this
      rw [this]
      simp only
      rw [ih _ ((Settings.mapVals_facts _ S).1.2 hw) ((Settings.mapVals_facts _ S).2.2 hd)
        (fun c hc => h1 c (by simp [hc]))]
      · congr 1
        unfold Settings.mapVals
        congr 1
        rw [List.map_map]
        apply List.map_congr_left
        intro s _
        have hv : ∀ (f g : String → V → V) (l : List (String × V)),
            mapVals g (mapVals f l) = mapVals (fun m x => g m (f m x)) l := by
          intro f g l; simp [mapVals, Function.comp_def]
        simp only [Function.comp, Variant.mapVals, List.map_map, BrickSet.mapVals, SplitSet.mapVals, hv,
          Function.comp_def]
        have hfun : ∀ (k : Comp), (fun (m : String) (x : V) =>
            if k.name ∈ cs ∧ m = n then v else if k.name = c ∧ m = n then v else x) =
            fun m x => if k.name ∈ c :: cs ∧ m = n then v else x := by
          intro k
          funext m x
          by_cases a1 : k.name ∈ cs <;> by_cases a2 : k.name = c <;> by_cases a3 : m = n <;> simp [a1, a2, a3]
        have hfun' := fun (pl : Place) (nm ty : String) => hfun ⟨pl, nm, ty⟩
        simp only at hfun'
        simp only [hfun']
      · intro c' hc'
        obtain ⟨s, hs, k, hk, hkc⟩ := h2 c' (by simp [hc'])
        exact ⟨_, List.mem_map_of_mem hs, k, by rw [Variant.comps_mapVals]; exact hk, hkc⟩
      · intro c' hc' s hs k hk hkc
        obtain ⟨s', hs', rfl⟩ := List.mem_map.1 hs
        rw [Variant.comps_mapVals] at hk
        exact h3 c' (by simp [hc']) s' hs' k hk hkc
  have := key (ps.map fun p => p.2.1) S hw hd
  rw [this]
  · intro c hc; obtain ⟨p, hp, rfl⟩ := List.mem_map.1 hc; exact ⟨(h p hp).2.1, (h p hp).2.2.2.2⟩
  · intro c hc; obtain ⟨p, hp, rfl⟩ := List.mem_map.1 hc; exact hhas p hp
  · intro c hc; obtain ⟨p, hp, rfl⟩ := List.mem_map.1 hc; exact hall p hp

end

/-! ## Witnesses and counterexamples -/

/-- Two variants, the second with a glacier; a slow reservoir in both, a lumped one in the sub-basin. -/
def demoSettings : Settings ℕ :=
  { sel := 0
    variants :=
      [ { id := 1, logs := [], coverIdx := [0], unitSplits := [⟨"snow_rain_transition", "snow_rain:linear", [("transition_start", 0)], []⟩],
          basinSplits := [], basinBricks := [⟨"lumped", "storage", [("capacity", 3)], [], []⟩],
          unitBricks := [⟨"open", "ground", [], [⟨"infiltration", "infiltration:socont", [("a", 1)], []⟩], []⟩,
            ⟨"slow", "storage", [("capacity", 5)], [⟨"outflow", "outflow:linear", [("response_factor", 7)], []⟩], []⟩] },
        { id := 2, logs := [], coverIdx := [0, 1], unitSplits := [], basinSplits := [], basinBricks := [],
          unitBricks := [⟨"open", "ground", [], [⟨"infiltration", "infiltration:socont", [("a", 1)], []⟩], []⟩,
            ⟨"ice", "glacier", [], [⟨"melt", "melt:degree_day", [("a", 4)], []⟩], []⟩,
            ⟨"slow", "storage", [("capacity", 5)], [⟨"outflow", "outflow:linear", [("response_factor", 7)], []⟩], []⟩] } ] }

instance (S : Settings ℕ) : Decidable S.Distinct := inferInstanceAs (Decidable (∀ s ∈ S.variants, _ ∧ ∀ k ∈ s.comps, k.2.Nodup))
instance (S : Settings ℕ) : Decidable S.WellFormed := inferInstanceAs (Decidable (_ ∧ _))
instance (S : Settings ℕ) (c : String) : Decidable (S.Has c) :=
  inferInstanceAs (Decidable (∃ s ∈ S.variants, ∃ k ∈ s.comps, k.1.name = c))

example : demoSettings.WellFormed ∧ demoSettings.Distinct ∧ demoSettings.Has "slow" ∧ ¬ demoSettings.Has "fast" ∧
    (∀ s ∈ demoSettings.variants, ∀ k ∈ s.comps, k.1.name = "slow" → "response_factor" ∈ k.2) := by decide +kernel

/-- The meta-type `land_cover`: all hypotheses of `c45_by_type_partial` hold, and both covers are set. -/
example : (¬ demoSettings.Has ("type:" ++ "land_cover")) ∧
    (∀ s ∈ demoSettings.variants, ∀ k ∈ s.comps, k.1.place = .basinBrick → ¬ TypeSelects "land_cover" k.1.type) ∧
    (∀ s ∈ demoSettings.variants, ∀ k ∈ s.comps, k.1.place = .unitBrick → TypeSelects "land_cover" k.1.type → "a" ∈ k.2) := by
  decide +kernel

/-- Hypotheses of `c45_list_partial`: the list ` open ,ice`. -/
example : (∀ p ∈ [(1, "open", 1), (0, "ice", 0)], p.2.1.toList ≠ [] ∧ ',' ∉ p.2.1.toList ∧
      p.2.1.toList.head? ≠ some ' ' ∧ p.2.1.toList.getLast? ≠ some ' ' ∧ ¬ "type:".toList <:+: p.2.1.toList) ∧
    " open ,ice".toList = [','].intercalate
      ([(1, "open", 1), (0, "ice", 0)].map fun p => List.replicate p.1 ' ' ++ p.2.1.toList ++ List.replicate p.2.2 ' ') ∧
    (∀ p ∈ [(1, "open", 1), (0, "ice", 0)], demoSettings.Has p.2.1) ∧
    (∀ p ∈ [(1, "open", 1), (0, "ice", 0)], ∀ s ∈ demoSettings.variants, ∀ k ∈ s.comps, k.1.name = p.2.1 → "a" ∈ k.2) := by
  decide +kernel

/-- Selecting a type that has sub-basin bricks throws: the sub-basin loop looks for the brick among the hydro units'. -/
theorem c45_type_basin_throws :
    (∃ k ∈ (demoSettings.variants.map Variant.comps).flatten, k.1 = ⟨.basinBrick, "lumped", "storage"⟩ ∧ "capacity" ∈ k.2) ∧
    ∃ S', setParameterValue "type:storage" "capacity" 9 demoSettings = .thrown S' := by
  refine ⟨by decide +kernel, ⟨_, rfl⟩⟩

/-- A type nothing has: the call returns true although nothing was set. -/
theorem c45_type_nothing_matches : setParameterValue "type:lake" "capacity" 9 demoSettings = .ret true demoSettings := by
  decide +kernel

/-- An empty list: true although nothing was set. -/
theorem c45_empty_list : setParameterValue " , " "capacity" 9 demoSettings = .ret true demoSettings := by decide +kernel

/-- A list failing at its second name reports failure but keeps the change made for the first. -/
theorem c45_list_not_atomic : ∃ S', setParameterValue "slow,fast" "capacity" 9 demoSettings = .ret false S' ∧
    S' = demoSettings.mapVals (fun k m x => if k.name = "slow" ∧ m = "capacity" then 9 else x) ∧ S' ≠ demoSettings := by
  refine ⟨_, rfl, by decide +kernel, by decide +kernel⟩

/-- A brick with two processes having the same parameter: only the first one is set, and success is reported. -/
def twoOutflows : Settings ℕ :=
  { sel := 0
    variants :=
      [ { id := 1, logs := [], coverIdx := [], unitSplits := [], basinSplits := [], basinBricks := [],
          unitBricks := [⟨"upper", "storage", [], [⟨"fast", "outflow:linear", [("response_factor", 7)], []⟩,
            ⟨"slow", "outflow:linear", [("response_factor", 2)], []⟩], []⟩] } ] }

theorem c45_second_process_ignored : ∃ S', setParameterValue "upper" "response_factor" 9 twoOutflows = .ret true S' ∧
    S' ≠ twoOutflows.mapVals (fun k m x => if k.name = "upper" ∧ m = "response_factor" then 9 else x) := by
  refine ⟨_, rfl, by decide +kernel⟩

/-- A variant with the component but without the parameter: the call throws after the previous variants were changed, and
another variant is left selected. -/
theorem c45_throw_leaves_changes :
    ∃ S', setParameterValue "open" "b" 9 { demoSettings with variants := demoSettings.variants.map fun s =>
        if s.id = 1 then { s with unitBricks := s.unitBricks.map fun b => { b with params := [("b", 1)] } } else s } = .thrown S' ∧
      S'.sel = 1 ∧ S'.variants.map (fun s => s.unitBricks.map fun b => b.params) =
        [[[("b", 9)], [("b", 1)]], [[], [], [("capacity", 5)]]] := by
  refine ⟨_, rfl, by decide +kernel, by decide +kernel⟩

end HB
