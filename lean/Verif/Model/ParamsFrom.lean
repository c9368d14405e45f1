import Verif.Model.ParamsLemmas

/-! # Models made from settings -/

set_option linter.unusedSectionVars false

namespace HB.Par
open HB.Names

section
variable {V : Type}

/-- Settings of the brick at a place. -/
def brickAt (s : Variant V) : Place → Option (BrickSet V)
  | .unitBrick i => s.unitBricks[i]?
  | .basinBrick i => s.basinBricks[i]?
  | _ => none

/-- The brick at that place asks for infinite storage. -/
def infOf (zero : V → Bool) (S : Settings V) (v : ℕ) (p : Place) : Bool :=
  match (S.variants[v]?).bind fun s => brickAt s p with
  | some b => asksInfinite zero b
  | none => false

/-- A unit made from variant `s` at position `v` of settings object `o`. -/
structure UnitFrom (surf : ℕ → List ℕ) (inf : ℕ → Place → Bool) (o v : ℕ) (s : Variant V) (u : BUnit) : Prop where
  bricks : ∃ g, u.bricks = (order (surf v) s).map g ∧
    ∀ i x, s.unitBricks[i]? = some x → BrickFrom u.aspect ⟨o, v, .unitBrick i⟩ (inf v (.unitBrick i)) x (g i)
  splits : AtPos (fun i a b => createSplit ⟨o, v, .unitSplit i⟩ a = some b) s.unitSplits u.splits

/-- The sub-basin made from variant `s` at position `v` of settings object `o`. -/
structure BasinFrom (inf : ℕ → Place → Bool) (o v : ℕ) (s : Variant V) (m : Built) : Prop where
  bricks : AtPos (fun i a b => BrickFrom "" ⟨o, v, .basinBrick i⟩ (inf v (.basinBrick i)) a b) s.basinBricks m.basinBricks
  splits : AtPos (fun i a b => createSplit ⟨o, v, .basinSplit i⟩ a = some b) s.basinSplits m.basinSplits

/-- A model made from settings object `o` holding `S`. -/
structure ModelFrom (surf : ℕ → List ℕ) (inf : ℕ → Place → Bool) (o : ℕ) (S : Settings V) (m : Built) : Prop where
  basin : ∃ v s, S.variants[v]? = some s ∧ s.id = 1 ∧ BasinFrom inf o v s m
  units : ∀ u ∈ m.units, ∃ v s, S.variants[v]? = some s ∧ s.id = u.structureId ∧ UnitFrom surf inf o v s u

theorem selectId_at {l : List (Variant V)} (hn : (l.map fun s => s.id).Nodup) {v : ℕ} {s : Variant V} (h : l[v]? = some s) :
    selectId s.id l = some v := by
  obtain ⟨hv, rfl⟩ := List.getElem?_eq_some_iff.1 h
  unfold selectId
  rw [List.findIdx?_eq_some_iff_getElem]
  refine ⟨hv, by simp, ?_⟩
  intro j hj
  simp only [Bool.not_eq_true, beq_eq_false_iff_ne, ne_eq]
  intro he
  have hj' : j < (l.map fun s => s.id).length := by simpa using hj.trans hv
  have := (List.Nodup.getElem_inj_iff hn (hi := hj') (hj := by simpa using hv)).1 (by simpa using he)
  omega

theorem pick_at {l : List (Variant V)} (hn : (l.map fun s => s.id).Nodup) {v : ℕ} {s : Variant V} (h : l[v]? = some s) (cur : ℕ) :
    pick l cur s.id = v := by
  simp [pick, selectId_at hn h]

theorem exists_at {l : List (Variant V)} {id : ℤ} (h : ∃ s ∈ l, s.id = id) : ∃ (v : ℕ) (s : Variant V), l[v]? = some s ∧ s.id = id := by
  obtain ⟨s, hs, rfl⟩ := h
  obtain ⟨v, hv⟩ := List.mem_iff_getElem?.1 hs
  exact ⟨v, s, hv, rfl⟩

/-! ## Building -/

theorem mapIdxM_atPos {α β : Type} {f : ℕ → α → Option β} {l : List α} {r : List β} :
    mapIdxM f 0 l = some r ↔ AtPos (fun i a b => f i a = some b) l r := by
  constructor
  · intro h
    refine ⟨mapIdxM_length h, fun i a ha => ?_⟩
    obtain ⟨b, h1, h2⟩ := mapIdxM_get h i a ha
    exact ⟨b, h1, by simpa using h2⟩
  · have : ∀ (l : List α) (k : ℕ) (r : List β), AtPos (fun i a b => f (k + i) a = some b) l r → mapIdxM f k l = some r := by
      intro l
      induction l with
      | nil => intro k r h; have : r = [] := by simpa using h.1
               subst this; rfl
      | cons a l ih =>
        intro k r h
        cases r with
        | nil => simp [AtPos] at h
        | cons b r =>
          obtain ⟨b1, hb1, hp⟩ := h.2 0 a (by simp)
          simp only [List.getElem?_cons_zero, Option.some.injEq] at hb1
          subst hb1
          have h2 := ih (k + 1) r ⟨by simpa using h.1, fun i x hx => by
            obtain ⟨y, hy, hpy⟩ := h.2 (i + 1) x (by simpa using hx)
            exact ⟨y, by simpa using hy, by rwa [show k + (i + 1) = k + 1 + i by omega] at hpy⟩⟩
          simp only [Nat.add_zero] at hp
          simp [mapIdxM, hp, h2]
    intro h
    exact this l 0 r (by simpa using h)

/-- The brick created at a position, if it can be. -/
def made (zero : V → Bool) (aspect : String) (obj v : ℕ) (bs : List (BrickSet V)) (i : ℕ) : BBrick :=
  ((bs[i]?).bind fun x => createBrick zero aspect ⟨obj, v, .unitBrick i⟩ x).getD ⟨"", .storage, [], false, []⟩

theorem createSome_iff {zero : V → Bool} {aspect : String} {obj v : ℕ} {bs : List (BrickSet V)} : ∀ {l : List ℕ} {r : List BBrick},
    createSome zero aspect obj v bs l = some r ↔
      (∀ i ∈ l, ∃ x b, bs[i]? = some x ∧ createBrick zero aspect ⟨obj, v, .unitBrick i⟩ x = some b) ∧
      r = l.map (made zero aspect obj v bs) := by
  intro l
  induction l with
  | nil => intro r; simp [createSome, eq_comm]
  | cons i l ih =>
    intro r
    unfold createSome
    cases hb : bs[i]? with
    | none =>
      simp only [reduceCtorEq, false_iff]
      rintro ⟨h, _⟩
      obtain ⟨x, b, hx, _⟩ := h i (by simp)
      rw [hb] at hx
      cases hx
    | some x =>
      simp only [Option.bind_eq_some_iff, Option.map_eq_some_iff, List.forall_mem_cons, List.map_cons, hb, Option.some.injEq]
      constructor
      · rintro ⟨b, hb', r', hr', rfl⟩
        obtain ⟨h1, h2⟩ := ih.1 hr'
        refine ⟨⟨⟨x, b, rfl, hb'⟩, h1⟩, ?_⟩
        rw [← h2]
        simp [made, hb, hb']
      · rintro ⟨⟨⟨x', b, rfl, hb'⟩, h1⟩, rfl⟩
        exact ⟨b, hb', _, ih.2 ⟨h1, rfl⟩, by simp [made, hb, hb']⟩

/-- Creation of a unit, in terms of `UnitFrom`. -/
theorem createUnit_iff {zero : V → Bool} {surf : ℕ → List ℕ} {S : Settings V} {o v : ℕ} {s : Variant V} (hs : S.variants[v]? = some s)
    (hp : ∀ i ∈ surf v ++ s.coverIdx, i < s.unitBricks.length) {id : ℤ} {aspect : String} {u : BUnit} :
    createUnit zero surf o v s id aspect = some u ↔ u.structureId = id ∧ u.aspect = aspect ∧ UnitFrom surf (infOf zero S) o v s u := by
  have hinf : ∀ i x, s.unitBricks[i]? = some x → infOf zero S v (.unitBrick i) = asksInfinite zero x := by
    intro i x hx
    simp [infOf, hs, brickAt, hx]
  obtain ⟨uid, ua, ub, us⟩ := u
  unfold createUnit
  simp only [Option.bind_eq_some_iff, Option.map_eq_some_iff, BUnit.mk.injEq]
  constructor
  · rintro ⟨bs, hbs, sps, hsps, rfl, rfl, rfl, rfl⟩
    obtain ⟨h1, h2⟩ := createSome_iff.1 hbs
    refine ⟨rfl, rfl, ⟨_, h2, ?_⟩, mapIdxM_atPos.1 hsps⟩
    intro i x hx
    have hi : i ∈ order (surf v) s := (order_mem hp i).2 (List.getElem?_eq_some_iff.1 hx).1
    obtain ⟨x', b, hx', hb⟩ := h1 i hi
    rw [hx] at hx'
    cases hx'
    rw [hinf i x hx]
    have : made zero aspect o v s.unitBricks i = b := by simp [made, hx, hb]
    rw [this]
    exact createBrick_from.1 hb
  · rintro ⟨rfl, rfl, ⟨g, hg, hgi⟩, hsp⟩
    dsimp only at hg hgi hsp
    refine ⟨_, createSome_iff.2 ⟨?_, rfl⟩, _, mapIdxM_atPos.2 hsp, rfl, rfl, ?_, rfl⟩
    · intro i hi
      have hi' := (order_mem hp i).1 hi
      have hx := List.getElem?_eq_getElem hi'
      have := hgi i _ hx
      rw [hinf i _ hx] at this
      exact ⟨_, _, hx, createBrick_from.2 this⟩
    · rw [hg]
      apply List.map_congr_left
      intro i hi
      have hx := List.getElem?_eq_getElem ((order_mem hp i).1 hi)
      have := hgi i _ hx
      rw [hinf i _ hx] at this
      simp [made, hx, createBrick_from.2 this]

theorem createUnits_iff {zero : V → Bool} {surf : ℕ → List ℕ} {S : Settings V} {o : ℕ} (ht : Tidy surf S) :
    ∀ {us : List (ℤ × String)} {cur : ℕ} {r : List BUnit}, (∀ u ∈ us, ∃ s ∈ S.variants, s.id = u.1) →
    (createUnits zero surf o S.variants cur us = some r ↔ (r.map fun u => (u.structureId, u.aspect)) = us ∧
      ∀ u ∈ r, ∃ v s, S.variants[v]? = some s ∧ s.id = u.structureId ∧ UnitFrom surf (infOf zero S) o v s u) := by
  intro us
  induction us with
  | nil =>
    intro cur r _
    simp only [createUnits, Option.some.injEq, List.map_eq_nil_iff]
    constructor
    · rintro rfl; simp
    · rintro ⟨rfl, _⟩; rfl
  | cons u us ih =>
    intro cur r hk
    obtain ⟨v, s, hv, hid⟩ := exists_at (hk u (by simp))
    have hpk : pick S.variants cur u.1 = v := by rw [← hid]; exact pick_at ht.ids hv cur
    unfold createUnits
    simp only [hpk, hv, Option.bind_eq_some_iff, Option.map_eq_some_iff]
    have hp := (ht.places v s hv).2
    constructor
    · rintro ⟨x, hx, r', hr', rfl⟩
      obtain ⟨e1, e2, e3⟩ := (createUnit_iff hv hp).1 hx
      obtain ⟨f1, f2⟩ := (ih fun u' hu' => hk u' (by simp [hu'])).1 hr'
      refine ⟨by simp [e1, e2, f1], ?_⟩
      intro u' hu'
      rcases List.mem_cons.1 hu' with rfl | hu'
      · exact ⟨v, s, hv, hid.trans e1.symm, e3⟩
      · exact f2 u' hu'
    · rintro ⟨h1, h2⟩
      cases r with
      | nil => simp at h1
      | cons x r' =>
        simp only [List.map_cons, List.cons.injEq] at h1
        obtain ⟨e1, e2⟩ := h1
        obtain ⟨v', s', hv', hid', hu'⟩ := h2 x (by simp)
        have hvv : v' = v := by
          have a := selectId_at ht.ids hv
          have b := selectId_at ht.ids hv'
          have : s'.id = s.id := by rw [hid', hid, ← e1]
          rw [this, a] at b
          exact (Option.some.inj b).symm
        subst hvv
        rw [hv] at hv'
        cases hv'
        exact ⟨x, (createUnit_iff hv hp).2 ⟨by rw [← e1], by rw [← e1], hu'⟩, r',
          (ih fun u' hu' => hk u' (by simp [hu'])).2 ⟨e2, fun u' hu' => h2 u' (by simp [hu'])⟩, rfl⟩

/-- **Building**: the result is exactly the model made from the settings. -/
theorem build_iff {zero : V → Bool} {surf : ℕ → List ℕ} {S : Settings V} {o : ℕ} (ht : Tidy surf S) {us : List (ℤ × String)}
    (hk : ∀ u ∈ us, ∃ s ∈ S.variants, s.id = u.1) {m : Built} :
    build zero surf o S us = some m ↔ (m.units.map fun u => (u.structureId, u.aspect)) = us ∧ ModelFrom surf (infOf zero S) o S m := by
  obtain ⟨v, s, hv, hid⟩ := exists_at ht.one
  have hpk : pick S.variants S.sel 1 = v := by rw [← hid]; exact pick_at ht.ids hv _
  have hb : ∀ r, mapIdxM (fun i b => createBrick zero "" ⟨o, v, .basinBrick i⟩ b) 0 s.basinBricks = some r ↔
      AtPos (fun i a b => BrickFrom "" ⟨o, v, .basinBrick i⟩ (infOf zero S v (.basinBrick i)) a b) s.basinBricks r := by
    intro r
    rw [mapIdxM_atPos]
    unfold AtPos
    refine and_congr Iff.rfl (forall_congr' fun i => forall_congr' fun a => forall_congr' fun ha => exists_congr fun b =>
      and_congr Iff.rfl ?_)
    have : infOf zero S v (.basinBrick i) = asksInfinite zero a := by simp [infOf, hv, brickAt, ha]
    dsimp only
    rw [this]
    exact createBrick_from
  obtain ⟨mb, ms, mu⟩ := m
  unfold build
  simp only [hpk, hv, Option.bind_eq_some_iff, Option.map_eq_some_iff, Built.mk.injEq]
  constructor
  · rintro ⟨bb, hbb, bs, hbs, r, hr, rfl, rfl, rfl⟩
    obtain ⟨f1, f2⟩ := (createUnits_iff ht hk).1 hr
    exact ⟨f1, ⟨v, s, hv, hid, (hb _).1 hbb, mapIdxM_atPos.1 hbs⟩, f2⟩
  · rintro ⟨h1, ⟨⟨v', s', hv', hid', hbf⟩, h2⟩⟩
    have hvv : v' = v := by
      have a := selectId_at ht.ids hv
      have b := selectId_at ht.ids hv'
      rw [hid', ← hid, a] at b
      exact (Option.some.inj b).symm
    subst hvv
    rw [hv] at hv'
    cases hv'
    exact ⟨_, (hb _).2 hbf.bricks, _, mapIdxM_atPos.2 hbf.splits, _, (createUnits_iff ht hk).2 ⟨h1, h2⟩, rfl, rfl, rfl⟩

/-! ## Settings of the same shape -/

theorem SameVariant.refl (s : Variant V) : SameVariant s s := ⟨rfl, rfl, rfl, rfl, rfl, rfl⟩

theorem SameVariant.symm {s s' : Variant V} (h : SameVariant s s') : SameVariant s' s :=
  ⟨h.id.symm, h.covers.symm, h.unitBricks.symm, h.basinBricks.symm, h.unitSplits.symm, h.basinSplits.symm⟩

theorem SameVariant.trans {s s' s'' : Variant V} (h : SameVariant s s') (h' : SameVariant s' s'') : SameVariant s s'' :=
  ⟨h.id.trans h'.id, h.covers.trans h'.covers, h.unitBricks.trans h'.unitBricks, h.basinBricks.trans h'.basinBricks,
    h.unitSplits.trans h'.unitSplits, h.basinSplits.trans h'.basinSplits⟩

theorem SameShape.refl (S : Settings V) : SameShape S S := List.forall₂_same.2 fun s _ => SameVariant.refl s

theorem SameShape.symm {S S' : Settings V} (h : SameShape S S') : SameShape S' S := by
  unfold SameShape at h ⊢
  exact List.Forall₂.flip (h.imp fun _ _ => SameVariant.symm)

theorem SameShape.trans {S S' S'' : Settings V} (h : SameShape S S') (h' : SameShape S' S'') : SameShape S S'' := by
  unfold SameShape at h h' ⊢
  generalize S.variants = a at *
  generalize S'.variants = b at *
  generalize S''.variants = c at *
  induction h generalizing c with
  | nil => cases h'; exact .nil
  | cons h1 _ ih =>
    cases h' with
    | cons h2 h3 => exact .cons (h1.trans h2) (ih _ h3)

theorem SameShape.at {S S' : Settings V} (h : SameShape S S') {v : ℕ} {s : Variant V} (hs : S.variants[v]? = some s) :
    ∃ s', S'.variants[v]? = some s' ∧ SameVariant s s' := by
  obtain ⟨hl, hg⟩ := List.forall₂_iff_get.1 h
  obtain ⟨hv, rfl⟩ := List.getElem?_eq_some_iff.1 hs
  exact ⟨_, List.getElem?_eq_getElem (hl ▸ hv), hg v hv (hl ▸ hv)⟩

theorem map_at {α β : Type} {f : α → β} {l l' : List α} (h : l.map f = l'.map f) {i : ℕ} {a : α} (ha : l[i]? = some a) :
    ∃ a', l'[i]? = some a' ∧ f a = f a' := by
  have h1 : (l'.map f)[i]? = some (f a) := by rw [← h]; simp [ha]
  simp only [List.getElem?_map, Option.map_eq_some_iff] at h1
  obtain ⟨a', h1, h2⟩ := h1
  exact ⟨a', h1, h2.symm⟩

theorem SameVariant.names {s s' : Variant V} (h : SameVariant s s') :
    (s.unitBricks.map fun b => b.name) = s'.unitBricks.map fun b => b.name := by
  have := congrArg (List.map Prod.fst) h.unitBricks
  simpa [List.map_map, Function.comp_def, eraseBrick] using this

theorem SameVariant.length {s s' : Variant V} (h : SameVariant s s') : s.unitBricks.length = s'.unitBricks.length := by
  simpa using congrArg List.length h.unitBricks

theorem SameVariant.order {s s' : Variant V} (h : SameVariant s s') (l : List ℕ) : Par.order l s = Par.order l s' := by
  simp [Par.order, h.covers, h.length]

theorem SameShape.tidy {surf : ℕ → List ℕ} {S S' : Settings V} (h : SameShape S S') (ht : Tidy surf S) : Tidy surf S' := by
  have hids : (S.variants.map fun s => s.id) = S'.variants.map fun s => s.id := by
    unfold SameShape at h
    generalize S.variants = a at h
    generalize S'.variants = b at h
    induction h with
    | nil => rfl
    | cons h1 _ ih => simp [h1.id, ih]
  refine ⟨hids ▸ ht.ids, ?_, ?_, ?_⟩
  · obtain ⟨v, s, hv, hid⟩ := exists_at ht.one
    obtain ⟨s', hs', hss⟩ := h.at hv
    exact ⟨s', List.mem_of_getElem? hs', by rw [← hss.id]; exact hid⟩
  · intro v s' hs'
    obtain ⟨s, hs, hss⟩ := h.symm.at hs'
    have := ht.places v s hs
    rw [hss.covers, hss.length]
    exact this
  · intro s' hs'
    obtain ⟨v, hv⟩ := List.mem_iff_getElem?.1 hs'
    obtain ⟨s, hs, hss⟩ := h.symm.at hv
    rw [hss.names]
    exact ht.names s (List.mem_of_getElem? hs)

/-! ## Updating -/

theorem updUnit_from {zero : V → Bool} {surf : ℕ → List ℕ} {inf : ℕ → Place → Bool} {o : ℕ} (o' : ℕ) {v : ℕ} {S' : Settings V}
    {s s' : Variant V} {u : BUnit} (hs : SameVariant s s') (hv : S'.variants[v]? = some s')
    (hpl : (surf v ++ s.coverIdx).Nodup ∧ ∀ i ∈ surf v ++ s.coverIdx, i < s.unitBricks.length)
    (hnm : (s.unitBricks.map fun b => b.name).Nodup) (hu : UnitFrom surf inf o v s u) :
    ∃ u', updUnit zero o' v s' u = some u' ∧ u'.structureId = u.structureId ∧ u'.aspect = u.aspect ∧
      UnitFrom surf (fun v p => inf v p || infOf zero S' v p) o' v s' u' := by
  obtain ⟨⟨g, hg, hgi⟩, hsp⟩ := hu
  have hmem := order_mem (surf := surf v) hpl.2
  have hname : ∀ i x, s.unitBricks[i]? = some x → (g i).name = x.name := fun i x hx =>
    ((brickFrom_iff _ _ _ _ _).1 (hgi i x hx)).1
  have hinj : ∀ i ∈ order (surf v) s, ∀ j ∈ order (surf v) s, (g j).name = (g i).name → j = i := by
    intro i hi j hj he
    have hi' := (hmem i).1 hi
    have hj' := (hmem j).1 hj
    rw [hname i _ (List.getElem?_eq_getElem hi'), hname j _ (List.getElem?_eq_getElem hj')] at he
    exact (List.Nodup.getElem_inj_iff hnm (hi := by simpa using hj') (hj := by simpa using hi')).1 (by simpa using he)
  have hupd : ∀ i x', s'.unitBricks[i]? = some x' → ∃ b', updBrick zero u.aspect ⟨o', v, .unitBrick i⟩ x' (g i) = some b' ∧
      BrickFrom u.aspect ⟨o', v, .unitBrick i⟩ (inf v (.unitBrick i) || infOf zero S' v (.unitBrick i)) x' b' := by
    intro i x' hx'
    obtain ⟨x, hx, he⟩ := map_at hs.unitBricks.symm hx'
    have hi : infOf zero S' v (.unitBrick i) = asksInfinite zero x' := by simp [infOf, hv, brickAt, hx']
    rw [hi]
    exact updBrick_from _ he.symm (hgi i x hx)
  obtain ⟨g', e1, e2, _⟩ := updBricks_map (zero := zero) (aspect := u.aspect) (obj := o') (v := v) (order_nodup hpl.1)
    s'.unitBricks 0 g hinj (by
      intro j a ha
      rw [Nat.zero_add]
      obtain ⟨x, hx, he⟩ := map_at hs.unitBricks.symm ha
      refine ⟨(hmem j).2 (List.getElem?_eq_some_iff.1 hx).1, ?_, ?_⟩
      · rw [hname j x hx]
        exact (congrArg Prod.fst he).symm
      · obtain ⟨b', hb', _⟩ := hupd j a ha
        exact ⟨b', hb'⟩)
  obtain ⟨sps, e3, e4⟩ := updIdx_atPos (P := fun i a b => createSplit ⟨o, v, .unitSplit i⟩ a = some b)
    (P' := fun i a b => createSplit ⟨o', v, .unitSplit i⟩ a = some b)
    (f := fun i sp x => BSplit.setParams ⟨o', v, .unitSplit i⟩ sp x) s.unitSplits s'.unitSplits u.splits 0
    (by simpa using congrArg List.length hs.unitSplits) (by simpa using hsp)
    (by
      intro i a a' b ha ha' hp
      obtain ⟨a'', h1, h2⟩ := map_at hs.unitSplits ha
      rw [ha'] at h1
      cases h1
      exact updSplit_from _ h2 hp)
  refine ⟨⟨u.structureId, u.aspect, (order (surf v) s).map g', sps⟩, ?_, rfl, rfl, ⟨g', ?_, ?_⟩, by simpa using e4⟩
  · simp only [updUnit, hg, e1, e3, Option.bind_some, Option.map_some]
  · rw [hs.order]
  · intro i x' hx'
    obtain ⟨b', h1, h2⟩ := hupd i x' hx'
    have := e2 i x' hx'
    rw [Nat.zero_add, h1] at this
    cases this
    exact h2

theorem updUnits_from {zero : V → Bool} {surf : ℕ → List ℕ} {inf : ℕ → Place → Bool} {o : ℕ} (o' : ℕ) {S S' : Settings V}
    (hS : SameShape S S') (ht : Tidy surf S) : ∀ (us : List BUnit) (cur : ℕ),
    (∀ u ∈ us, ∃ v s, S.variants[v]? = some s ∧ s.id = u.structureId ∧ UnitFrom surf inf o v s u) →
    ∃ us', updUnits zero o' S'.variants cur us = some us' ∧
      (us'.map fun u => (u.structureId, u.aspect)) = (us.map fun u => (u.structureId, u.aspect)) ∧
      ∀ u ∈ us', ∃ v s, S'.variants[v]? = some s ∧ s.id = u.structureId ∧
        UnitFrom surf (fun v p => inf v p || infOf zero S' v p) o' v s u := by
  intro us
  induction us with
  | nil => intro cur _; exact ⟨[], rfl, rfl, by simp⟩
  | cons u us ih =>
    intro cur h
    obtain ⟨v, s, hv, hid, hu⟩ := h u (by simp)
    obtain ⟨s', hv', hss⟩ := hS.at hv
    have hpk : pick S'.variants cur u.structureId = v := by
      rw [← hid, hss.id]; exact pick_at (hS.tidy ht).ids hv' cur
    obtain ⟨u', e1, e2, e3, e4⟩ := updUnit_from (zero := zero) o' hss hv' (ht.places v s hv)
      (ht.names s (List.mem_of_getElem? hv)) hu
    obtain ⟨us', f1, f2, f3⟩ := ih v fun x hx => h x (by simp [hx])
    refine ⟨u' :: us', ?_, by simp [e2, e3, f2], ?_⟩
    · simp only [updUnits, hpk, hv', e1, f1, Option.bind_some, Option.map_some]
    · intro x hx
      rcases List.mem_cons.1 hx with rfl | hx
      · exact ⟨v, s', hv', by rw [← hss.id, hid, e2], e4⟩
      · exact f3 x hx

/-- **Updating** a model made from settings of the same shape gives the model made from the new settings, except that
infinite storage stays. -/
theorem update_from {zero : V → Bool} {surf : ℕ → List ℕ} {inf : ℕ → Place → Bool} {o : ℕ} (o' : ℕ) {S S' : Settings V}
    (hS : SameShape S S') (ht : Tidy surf S) {m : Built} (hm : ModelFrom surf inf o S m) :
    ∃ m', update zero o' S' m = some m' ∧
      (m'.units.map fun u => (u.structureId, u.aspect)) = (m.units.map fun u => (u.structureId, u.aspect)) ∧
      ModelFrom surf (fun v p => inf v p || infOf zero S' v p) o' S' m' := by
  obtain ⟨⟨v, s, hv, hid, hb⟩, hu⟩ := hm
  obtain ⟨s', hv', hss⟩ := hS.at hv
  have hpk : pick S'.variants S'.sel 1 = v := by
    rw [← hid, hss.id]; exact pick_at (hS.tidy ht).ids hv' _
  obtain ⟨bb, e1, e2⟩ := updIdx_atPos (P := fun i a b => BrickFrom "" ⟨o, v, .basinBrick i⟩ (inf v (.basinBrick i)) a b)
    (P' := fun i a b => BrickFrom "" ⟨o', v, .basinBrick i⟩ (inf v (.basinBrick i) || infOf zero S' v (.basinBrick i)) a b)
    (f := fun i b x => updBrick zero "" ⟨o', v, .basinBrick i⟩ b x) s.basinBricks s'.basinBricks m.basinBricks 0
    (by simpa using congrArg List.length hss.basinBricks) (by simpa using hb.bricks)
    (by
      intro i a a' b ha ha' hp
      rw [Nat.zero_add] at hp ⊢
      obtain ⟨a'', h1, h2⟩ := map_at hss.basinBricks ha
      rw [ha'] at h1
      cases h1
      have hi : infOf zero S' v (.basinBrick i) = asksInfinite zero a' := by simp [infOf, hv', brickAt, ha']
      rw [hi]
      exact updBrick_from _ h2 hp)
  obtain ⟨bs, e3, e4⟩ := updIdx_atPos (P := fun i a b => createSplit ⟨o, v, .basinSplit i⟩ a = some b)
    (P' := fun i a b => createSplit ⟨o', v, .basinSplit i⟩ a = some b)
    (f := fun i sp x => BSplit.setParams ⟨o', v, .basinSplit i⟩ sp x) s.basinSplits s'.basinSplits m.basinSplits 0
    (by simpa using congrArg List.length hss.basinSplits) (by simpa using hb.splits)
    (by
      intro i a a' b ha ha' hp
      obtain ⟨a'', h1, h2⟩ := map_at hss.basinSplits ha
      rw [ha'] at h1
      cases h1
      exact updSplit_from _ h2 hp)
  obtain ⟨us', f1, f2, f3⟩ := updUnits_from (zero := zero) o' hS ht m.units v hu
  refine ⟨⟨bb, bs, us'⟩, ?_, f2, ⟨v, s', hv', by rw [← hss.id, hid], by simpa using e2, by simpa using e4⟩, f3⟩
  simp only [update, hpk, hv', e1, e3, f1, Option.bind_some, Option.map_some]

/-! ## Reading -/

/-- A model made from settings object `o` reads what that object holds now, as long as its shape is the same. -/
theorem ModelFrom.reads {surf : ℕ → List ℕ} {inf : ℕ → Place → Bool} {o : ℕ} {S : Settings V} {m : Built}
    (hm : ModelFrom surf inf o S m) (ht : Tidy surf S) (one : V) (mem : ℕ → Settings V) (hS : SameShape S (mem o)) :
    Reads one mem m (mem o) := by
  obtain ⟨⟨v, s, hv, hid, hb⟩, hu⟩ := hm
  obtain ⟨s', hv', hss⟩ := hS.at hv
  refine ⟨⟨s', List.mem_of_getElem? hv', by rw [← hss.id, hid], ?_, ?_⟩, ?_⟩
  · rw [List.forall₂_iff_get]
    have hl : s.basinBricks.length = s'.basinBricks.length := by simpa using congrArg List.length hss.basinBricks
    refine ⟨hb.bricks.1.trans hl, ?_⟩
    intro i h1 h2
    obtain ⟨a, ha, hp⟩ := hb.bricks.get' (List.getElem?_eq_getElem h1)
    obtain ⟨a', ha', he⟩ := map_at hss.basinBricks ha
    have : s'.basinBricks.get ⟨i, h2⟩ = a' := by
      rw [List.getElem?_eq_getElem h2, Option.some.injEq] at ha'
      exact ha'
    rw [this]
    refine hp.reads he ?_ ?_
    · simp [hv', paramsAt, ha']
    · intro k p' hk
      simp [hv', paramsAt, procPlace, ha', hk]
  · rw [List.forall₂_iff_get]
    have hl : s.basinSplits.length = s'.basinSplits.length := by simpa using congrArg List.length hss.basinSplits
    refine ⟨hb.splits.1.trans hl, ?_⟩
    intro i h1 h2
    obtain ⟨a, ha, hp⟩ := hb.splits.get' (List.getElem?_eq_getElem h1)
    obtain ⟨a', ha', he⟩ := map_at hss.basinSplits ha
    have : s'.basinSplits.get ⟨i, h2⟩ = a' := by
      rw [List.getElem?_eq_getElem h2, Option.some.injEq] at ha'
      exact ha'
    rw [this]
    exact split_reads hp he (by simp [hv', paramsAt, ha'])
  · intro u hu'
    obtain ⟨v, s, hv, hid, ⟨g, hg, hgi⟩, hsp⟩ := hu u hu'
    obtain ⟨s', hv', hss⟩ := hS.at hv
    have hmem := order_mem (surf := surf v) (ht.places v s hv).2
    have hr : ∀ i x', s'.unitBricks[i]? = some x' → BrickReads one mem u.aspect (g i) x' := by
      intro i x' hx'
      obtain ⟨x, hx, he⟩ := map_at hss.unitBricks.symm hx'
      refine (hgi i x hx).reads he.symm ?_ ?_
      · simp [hv', paramsAt, hx']
      · intro k p' hk
        simp [hv', paramsAt, procPlace, hx', hk]
    refine ⟨s', List.mem_of_getElem? hv', by rw [← hss.id, hid], ?_, ?_, ?_⟩
    · intro b hb
      rw [hg] at hb
      obtain ⟨i, hi, rfl⟩ := List.mem_map.1 hb
      have hi' := (hmem i).1 hi
      rw [hss.length] at hi'
      exact ⟨_, List.getElem_mem hi', hr i _ (List.getElem?_eq_getElem hi')⟩
    · intro x' hx'
      obtain ⟨i, hi⟩ := List.mem_iff_getElem?.1 hx'
      refine ⟨g i, ?_, hr i x' hi⟩
      rw [hg]
      refine List.mem_map_of_mem ((hmem i).2 ?_)
      rw [hss.length]
      exact (List.getElem?_eq_some_iff.1 hi).1
    · rw [List.forall₂_iff_get]
      have hl : s.unitSplits.length = s'.unitSplits.length := by simpa using congrArg List.length hss.unitSplits
      refine ⟨hsp.1.trans hl, ?_⟩
      intro i h1 h2
      obtain ⟨a, ha, hp⟩ := hsp.get' (List.getElem?_eq_getElem h1)
      obtain ⟨a', ha', he⟩ := map_at hss.unitSplits ha
      have : s'.unitSplits.get ⟨i, h2⟩ = a' := by
        rw [List.getElem?_eq_getElem h2, Option.some.injEq] at ha'
        exact ha'
      rw [this]
      exact split_reads hp he (by simp [hv', paramsAt, ha'])

/-! ## Setting values keeps the shape -/

theorem erase_setFirst (n : String) (x : V) (l : List (String × V)) : erasePs (setFirst n x l) = erasePs l := by
  induction l with
  | nil => rfl
  | cons e l ih =>
    simp only [setFirst, updFirst] at ih ⊢
    split <;> simp_all [erasePs]

theorem updFirst_erase {α β : Type} {p : α → Bool} {f : α → α} {e : α → β} (hf : ∀ a, e (f a) = e a) (l : List α) :
    (updFirst p f l).map e = l.map e := by
  induction l with
  | nil => rfl
  | cons a l ih =>
    unfold updFirst
    split <;> simp [hf, ih]

theorem erase_setParam {n : String} {x : V} {b b' : BrickSet V} (h : b.setParam n x = some b') : eraseBrick b' = eraseBrick b := by
  unfold BrickSet.setParam at h
  split at h
  · cases h
    simp [eraseBrick, erase_setFirst]
  · split at h
    · cases h
      simp only [eraseBrick, Prod.mk.injEq, true_and]
      exact updFirst_erase (fun p => by simp [erase_setFirst]) _
    · cases h

theorem erase_setInBricks {c n : String} {x : V} {l l' : List (BrickSet V)} (h : setInBricks c n x l = some l') :
    l'.map eraseBrick = l.map eraseBrick := by
  unfold setInBricks at h
  split at h
  · cases h
  · cases h
    refine updFirst_erase (fun b => ?_) _
    cases hb : b.setParam n x with
    | none => rfl
    | some b' => exact erase_setParam hb

theorem erase_setInSplits {c n : String} {x : V} {l l' : List (SplitSet V)} (h : setInSplits c n x l = some l') :
    l'.map eraseSplit = l.map eraseSplit := by
  unfold setInSplits at h
  split at h
  · cases h
  · split at h
    · cases h
      exact updFirst_erase (fun b => by simp [eraseSplit, erase_setFirst]) _
    · cases h

theorem erase_typeLoop {n : String} {x : V} : ∀ (cs : List String) (bs : List (BrickSet V)),
    (typeLoop n x cs bs).2.map eraseBrick = bs.map eraseBrick := by
  intro cs
  induction cs with
  | nil => intro bs; rfl
  | cons c cs ih =>
    intro bs
    unfold typeLoop
    cases h : setInBricks c n x bs with
    | none => rfl
    | some bs' => exact (ih bs').trans (erase_setInBricks h)

/-- The settings left by a call, whatever its outcome. -/
def left {S : Type} : SetOut S → S
  | .ret _ s => s
  | .thrown s => s

theorem sameVariant_setParam (c n : String) (x : V) (s : Variant V) : SameVariant s (left (s.setParam c n x)) := by
  unfold Variant.setParam
  split
  · cases h : setInBricks c n x s.unitBricks with
    | none => exact .refl s
    | some bs => exact ⟨rfl, rfl, (erase_setInBricks h).symm, rfl, rfl, rfl⟩
  split
  · cases h : setInBricks c n x s.basinBricks with
    | none => exact .refl s
    | some bs => exact ⟨rfl, rfl, rfl, (erase_setInBricks h).symm, rfl, rfl⟩
  split
  · cases h : setInSplits c n x s.unitSplits with
    | none => exact .refl s
    | some bs => exact ⟨rfl, rfl, rfl, rfl, (erase_setInSplits h).symm, rfl⟩
  split
  · cases h : setInSplits c n x s.basinSplits with
    | none => exact .refl s
    | some bs => exact ⟨rfl, rfl, rfl, rfl, rfl, (erase_setInSplits h).symm⟩
  split
  · dsimp only
    split <;> exact ⟨rfl, rfl, (erase_typeLoop _ _).symm, rfl, rfl, rfl⟩
  · exact .refl s

theorem sameShape_loop (c n : String) (x : V) : ∀ (l : List (Variant V)) (i : ℕ),
    List.Forall₂ SameVariant l (loopVariants c n x i l).1 := by
  intro l
  induction l with
  | nil => intro i; exact .nil
  | cons s l ih =>
    intro i
    have h := sameVariant_setParam c n x s
    unfold loopVariants
    cases hs : s.setParam c n x with
    | thrown s' =>
      rw [hs] at h
      exact .cons h (List.forall₂_same.2 fun s _ => SameVariant.refl s)
    | ret b s' =>
      rw [hs] at h
      exact .cons h (ih (i + 1))

theorem sameShape_setOne (c n : String) (x : V) (S : Settings V) : SameShape S (left (setOne c n x S)) := by
  unfold setOne
  dsimp only
  split <;> exact sameShape_loop c n x S.variants 0

/-- Setting a parameter, whatever the outcome, changes values only. -/
theorem sameShape_set (c n : String) (x : V) (S : Settings V) : SameShape S (left (setParameterValue c n x S)) := by
  unfold setParameterValue
  split
  · generalize tokens c = l
    induction l generalizing S with
    | nil => exact .refl S
    | cons c l ih =>
      have h := sameShape_setOne c n x S
      unfold setList
      cases hs : setOne c n x S with
      | thrown S' => rw [hs] at h; exact h
      | ret b S' =>
        rw [hs] at h
        cases b
        · exact h
        · exact SameShape.trans h (ih S')
  · exact sameShape_setOne c n x S

end

end HB.Par
