import Verif.Model.PredefinedWF

/-! # Described structures send water forward, and their areas fit. -/

set_option linter.unusedSectionVars false
set_option linter.unusedSimpArgs false

namespace HB.Wire

open HB.Names

section
variable {v : Variant} {bas : List String} (h : Good v bas)
include h

/-- A surface component lies on the land cover it is named after. -/
theorem parent_pos {i k : ℕ} {c : Cover} {b : Brick} (h1 : nc v ≤ i) (h2 : i < nc v + nk v + nw v)
    (hb : (Spec.complete v).unitBricks[i]? = some b) (hp : b.parent = c.name) (hk : v.base.covers[k]? = some c) :
    Spec.parentOf (Spec.complete v) i = some k := by
  have hne : c.name ≠ "" := (h.names.plain c (List.mem_of_getElem? hk)).1
  unfold Spec.parentOf
  rw [if_pos (by rw [complete_surfaces, List.mem_range'_1]; omega), hb]
  simp only [Option.bind_some, hp, hne, if_false]
  have hg := cover_get (v := v) hk
  obtain ⟨hl, he⟩ := List.getElem?_eq_some_iff.1 hg
  rw [List.findIdx?_eq_some_iff_getElem]
  refine ⟨hl, by rw [he]; simp [Spec.fill, Spec.coverBrick], fun j hj => ?_⟩
  simp only [decide_eq_true_eq]
  intro hn
  have hj' : (Spec.complete v).unitBricks[j]? = some ((Spec.complete v).unitBricks[j]'(by omega)) := List.getElem?_eq_getElem _
  have := (pos_unique h hj' hg (by rw [hn]; rfl)).1
  omega

theorem parent_cover {i k : ℕ} (hp : Spec.parentOf (Spec.complete v) i = some k) :
    ∃ b : Brick, (Spec.complete v).unitBricks[k]? = some b ∧ b.type ∈ Spec.coverTypes := by
  have hi : i ∈ (Spec.complete v).surfaces := by
    by_contra hi
    unfold Spec.parentOf at hp
    rw [if_neg hi] at hp
    cases hp
  rw [complete_surfaces, List.mem_range'_1] at hi
  obtain ⟨b, hb⟩ : ∃ b, (Spec.complete v).unitBricks[i]? = some b := by
    have : i < (Spec.complete v).unitBricks.length := by rw [complete_length]; omega
    exact ⟨_, List.getElem?_eq_getElem this⟩
  have key : ∀ c ∈ v.base.covers, b.parent = c.name →
      ∃ b : Brick, (Spec.complete v).unitBricks[k]? = some b ∧ b.type ∈ Spec.coverTypes := by
    intro c hc hpar
    obtain ⟨j, hj⟩ := List.mem_iff_getElem?.1 hc
    rw [parent_pos h hi.1 (by omega) hb hpar hj] at hp
    cases hp
    exact ⟨_, cover_get hj, h.build.types c hc⟩
  cases sort_of h hb with
  | cover c h1 => omega
  | canopy c _ _ hc _ he => subst he; exact key c hc rfl
  | snow c _ _ _ hc he => subst he; exact key c hc rfl
  | storage k it h1 => omega

theorem turn_cover {i : ℕ} (hi : i < nc v) : (Spec.turn (Spec.complete v) i).1 = 0 ∧ (Spec.turn (Spec.complete v) i).2.1 = 1 := by
  have hc := List.getElem?_eq_getElem (l := v.base.covers) hi
  have hg := cover_get (v := v) hc
  unfold Spec.turn
  refine ⟨?_, ?_⟩
  · rw [hg]
    have : Spec.Direct (Spec.fill v.items (Spec.coverBrick v.base.covers[i])) := by
      refine .inl ?_
      have key : ∀ t ∈ Spec.coverTypes, t ∈ Spec.fractionTypes := by decide
      exact key _ (h.build.types _ (List.getElem_mem hi))
    simp [this]
  · dsimp only
    rw [if_neg (by rw [complete_surfaces, List.mem_range'_1]; omega), if_pos (by rw [complete_covers, List.mem_range]; exact hi)]

theorem turn_surface {i : ℕ} (h1 : nc v ≤ i) (h2 : i < nc v + nk v + nw v) :
    Spec.turn (Spec.complete v) i = (0, 0, i - nc v) := by
  have hm : i ∈ (Spec.complete v).surfaces := by rw [complete_surfaces, List.mem_range'_1]; omega
  have hidx : (Spec.complete v).surfaces.idxOf i = i - nc v := by
    have hl : i - nc v < (Spec.complete v).surfaces.length := by rw [complete_surfaces, List.length_range']; omega
    have hnd : (Spec.complete v).surfaces.Nodup := by rw [complete_surfaces]; exact List.nodup_range'
    have := hnd.idxOf_getElem (i - nc v) hl
    rw [← this]
    congr 1
    simp only [complete_surfaces, List.getElem_range']
    omega
  obtain ⟨b, hb⟩ : ∃ b, (Spec.complete v).unitBricks[i]? = some b := by
    have : i < (Spec.complete v).unitBricks.length := by rw [complete_length]; omega
    exact ⟨_, List.getElem?_eq_getElem this⟩
  have hd : Spec.Direct b := by
    cases sort_of h hb with
    | cover c h1 => omega
    | canopy c _ _ hc _ he => subst he; exact .inl (by decide : "interception_storage" ∈ Spec.fractionTypes)
    | snow c _ _ _ hc he => subst he; exact .inl (by decide : "snowpack" ∈ Spec.fractionTypes)
    | storage k it h1 => omega
  unfold Spec.turn
  rw [if_pos hm, if_pos hm, hidx, hb]
  simp [hd]

theorem turn_storage {k : ℕ} {it : Item} (hk : (Spec.itemsAt .unit v.items)[k]? = some it) :
    Spec.turn (Spec.complete v) (nc v + nk v + nw v + k) = (if it.direct then 0 else 1, 2, nc v + nk v + nw v + k) := by
  have hit := mem_itemsAt.1 (List.mem_of_getElem? hk)
  have hty := (h.plan.storages it hit.1 (by rw [hit.2]; decide)).1
  have hd : Spec.Direct (Spec.storageOf it) ↔ it.direct = true := by
    unfold Spec.Direct
    change it.kind ∈ _ ∨ it.direct = true ↔ _
    rw [hty]
    have : "storage" ∉ Spec.fractionTypes := by decide
    simp [this]
  have h1 : nc v + nk v + nw v + k ∉ (Spec.complete v).surfaces := by rw [complete_surfaces, List.mem_range'_1]; omega
  have h2 : nc v + nk v + nw v + k ∉ (Spec.complete v).covers := by rw [complete_covers, List.mem_range]; omega
  unfold Spec.turn
  rw [if_neg h1, if_neg h1, if_neg h2, if_neg h2, storage_get hk]
  simp only [Option.elim_some]
  by_cases hx : it.direct = true
  · rw [if_pos (hd.2 hx), if_pos hx]
  · rw [if_neg (fun h => hx (hd.1 h)), if_neg hx]

end

section
variable {K : Type} {inp : Input K} (hd : Spec.Described inp)
include hd

/-- The name of a brick of the unit stands for that brick. -/
theorem named_own {u : ℕ} {un : UnitIn K} {v : Variant} (hg : Good v (basNames inp)) (hs : un.str = Spec.complete v) {j : ℕ} {b0 : Brick}
    (hj : (Spec.complete v).unitBricks[j]? = some b0) {t : String} (ht : b0.name = t) {c : Comp} {b' : Brick}
    (hn : Spec.BrickNamed inp u un t c b') : c = .unitBrick u j ∧ b' = b0 := by
  subst ht
  cases hn with
  | own h1 h2 =>
    rw [hs] at h1
    obtain ⟨rfl, rfl⟩ := pos_unique hg h1 hj h2
    exact ⟨rfl, rfl⟩
  | basin h0 => exact absurd rfl (h0 b0 (by rw [hs]; exact List.mem_of_getElem? hj))

/-- Names other than those of bricks of the unit stand for storages of the sub-basin. -/
theorem named_storage {u : ℕ} {un : UnitIn K} {v : Variant} (hg : Good v (basNames inp)) (hs : un.str = Spec.complete v) {t : String}
    (ht : Spec.Reaches v (basNames inp) t) {c : Comp} {b' : Brick} (hn : Spec.BrickNamed inp u un t c b') :
    b'.type = "storage" ∧ ((∃ i, c = .basinBrick i) ∨
      ∃ k it, (Spec.itemsAt .unit v.items)[k]? = some it ∧ it.key = t ∧ c = .unitBrick u (nc v + nk v + nw v + k)) := by
  rcases ht with ht | ⟨it, hit, rfl⟩
  · cases hn with
    | @own i _ h1 h2 =>
      have hap := hg.plan.apart _ ht
      rw [hs] at h1
      have : b'.name ∈ (Spec.complete v).unitBricks.map (·.name) := List.mem_map.2 ⟨b', List.mem_of_getElem? h1, rfl⟩
      rw [complete_names, List.mem_append] at this
      rcases this with h | h
      · exact absurd (h2 ▸ h) hap.1
      · obtain ⟨it, hit, hk⟩ := List.mem_map.1 h
        rw [mem_itemsAt] at hit
        exact absurd (by rw [hk, h2]) (hap.2.2 it hit.1 hit.2)
    | basin h0 h1 h2 => exact ⟨(basin_brick hd h1).1, .inl ⟨_, rfl⟩⟩
  · obtain ⟨k, hk, hb⟩ := storage_at hg hit
    obtain ⟨rfl, rfl⟩ := named_own hd hg hs hb rfl hn
    have hit' := mem_itemsAt.1 hit
    exact ⟨(hg.plan.storages it hit'.1 (by rw [hit'.2]; decide)).1, .inr ⟨k, it, hk, rfl, rfl⟩⟩

theorem basin_output {i : ℕ} {b : Brick} {o : Out} (ho : Spec.BasinOutput inp i b o) : o.target = "outlet" ∧ o.inst = false := by
  obtain ⟨hb, p, hp, -, ho⟩ := ho
  obtain ⟨-, -, v, it, hg, hit, hpl, rfl⟩ := basin_brick hd hb
  obtain ⟨q, hq, rfl⟩ := List.mem_map.1 hp
  have h1 := procOf_outs ho
  refine ⟨?_, h1.2.2 (hg.plan.timed it hit (by rw [hpl]; decide) q hq)⟩
  have := h1.1
  rw [(hg.plan.fromBasin it hit hpl q hq).1, List.mem_singleton] at this
  exact this

/-- Outputs of the bricks of a unit, brick by brick. -/
theorem unit_output (hnr : Spec.NoRedistribution inp) {u : ℕ} {un : UnitIn K} {i : ℕ} {b : Brick} {o : Out}
    (ho : Spec.UnitOutput inp u un i b o) {v : Variant} (hg : Good v (basNames inp)) (hs : un.str = Spec.complete v) :
    (i < nc v ∧ o.target ≠ "lateral" ∧ Spec.Reaches v (basNames inp) o.target) ∨
    (∃ (c : Cover) (k : ℕ), nc v ≤ i ∧ i < nc v + nk v ∧ v.base.covers[k]? = some c ∧ b.type = "interception_storage" ∧ b.parent = c.name ∧
      (o.target = c.name ∨ v.base.withSnow = true ∧ o.target = c.name ++ "_snowpack")) ∨
    (∃ (c : Cover) (k : ℕ), nc v + nk v ≤ i ∧ i < nc v + nk v + nw v ∧ v.base.covers[k]? = some c ∧ b = Spec.snowBrick v.base c ∧
      (o.target = c.name ∨ o.target = c.name ++ "_snowpack" ∧ o.inst = true)) ∨
    (∃ (k : ℕ) (it : Item), i = nc v + nk v + nw v + k ∧ (Spec.itemsAt .unit v.items)[k]? = some it ∧ b = Spec.storageOf it ∧ o.inst = false ∧
      o.target ≠ "lateral" ∧ (o.target = "outlet" ∨ ∃ (k' : ℕ) (it' : Item), k < k' ∧ (Spec.itemsAt .unit v.items)[k']? = some it' ∧ it'.key = o.target ∧
        (it.direct = false → it'.direct = false))) := by
  obtain ⟨hu, hb, p, hp, hat, ho⟩ := ho
  have hbm : b ∈ un.str.unitBricks := List.mem_of_getElem? hb
  rw [hs] at hb
  cases sort_of hg hb with
  | cover c h1 h2 hc hn hty _ _ hpr =>
    obtain ⟨it, hit, hpl, hk, q, hq, rfl⟩ := hpr p hp
    have ht := (procOf_outs ho).1
    exact .inl ⟨h1, ((hg.plan.written it hit q hq).2 _ ht).2.2, hg.plan.fromCover it hit hpl q hq hat _ ht⟩
  | canopy c h1 h2 hc hcc he =>
    subst he
    obtain ⟨k, hk⟩ := List.mem_iff_getElem?.1 hc
    refine .inr (.inl ⟨c, k, h1, h2, hk, rfl, rfl, ?_⟩)
    rcases List.mem_cons.mp hp with rfl | hp
    · simp only [Spec.pr, List.mem_singleton] at ho
      subst ho
      dsimp only [Spec.belowCanopy]
      split
      · rename_i hv
        simp [Spec.viaSnowpack] at hv
        exact .inr ⟨hv.1, rfl⟩
      · exact .inl rfl
    · rw [List.mem_singleton] at hp
      subst hp
      cases ho
  | snow c h1 h2 hw hc he =>
    subst he
    obtain ⟨k, hk⟩ := List.mem_iff_getElem?.1 hc
    refine .inr (.inr (.inl ⟨c, k, h1, h2, hk, rfl, ?_⟩))
    rcases (snow_proc hg.names hg.build hc hp).2 o ho with ⟨h1, -⟩ | ⟨h1, -⟩ | ⟨h3, -⟩
    · exact .inl h1
    · exact .inr ⟨h1, snow_inst hp ho h1⟩
    · exact absurd h3 (hnr un (List.mem_of_getElem? hu) _ hbm p hp o ho)
  | storage k it h1 hk hit hpl he =>
    subst he
    obtain ⟨q, hq, rfl⟩ := List.mem_map.1 hp
    have ht := procOf_outs ho
    refine .inr (.inr (.inr ⟨k, it, h1, hk, rfl, ht.2.2 (hg.plan.timed it hit (by rw [hpl]; decide) q hq),
      ((hg.plan.written it hit q hq).2 _ ht.1).2.2, feedsLater_get hg.plan.forward hk hq hat ht.1⟩))

theorem suffixed_ne_lateral (n : String) : n ++ "_snowpack" ≠ "lateral" := by
  intro he
  have : n ++ "_snowpack" ∉ Spec.keywords := suffix_ne_keyword (.inl rfl)
  rw [he] at this
  exact this (by decide)

theorem described_forward (hnr : Spec.NoRedistribution inp) : Spec.Forward inp := by
  refine ⟨?_, ?_, ?_⟩
  · intro u un i b o ho
    obtain ⟨v, hg, hs, -⟩ := unit_good hd ho.1
    have hc : ∀ (k : ℕ) (c : Cover), v.base.covers[k]? = some c → c.name ≠ "lateral" := by
      intro k c hk he
      exact hg.build.names c (List.mem_of_getElem? hk) (by rw [he]; decide)
    rcases unit_output hd hnr ho hg hs with ⟨-, h, -⟩ | ⟨c, k, -, -, hk, -, -, h | ⟨-, h⟩⟩ | ⟨c, k, -, -, hk, -, h | ⟨h, -⟩⟩ | ⟨k, it, -, -, -, -, h, -⟩
    · exact h
    · rw [h]; exact hc k c hk
    · rw [h]; exact suffixed_ne_lateral hd _
    · rw [h]; exact hc k c hk
    · rw [h]; exact suffixed_ne_lateral hd _
    · exact h
  · intro u un i b o ho hinst hno c b' hn
    obtain ⟨v, hg, hs, -⟩ := unit_good hd ho.1
    rcases unit_output hd hnr ho hg hs with ⟨hi, -, hr⟩ | ⟨c0, k, h1, h2, hk, -, -, h⟩ | ⟨c0, k, h1, h2, hk, -, h⟩ | ⟨k, it, hi, hk, -, -, -, h⟩
    · rcases (named_storage hd hg hs hr hn).2 with ⟨j, rfl⟩ | ⟨k, it, hk, -, rfl⟩
      · trivial
      · refine ⟨rfl, un, ho.1, ?_⟩
        rw [hs, turn_storage hg hk]
        obtain ⟨t1, t2⟩ := turn_cover hg hi
        by_cases hx : it.direct = true
        · refine .inr ⟨by rw [t1]; simp [hx], .inl (by rw [t2]; simp)⟩
        · refine .inl (by rw [t1]; simp [hx])
    · have hsurf := turn_surface hg h1 (by omega)
      rcases h with h | ⟨hw, h⟩
      · obtain ⟨rfl, -⟩ := named_own hd hg hs (cover_get hk) (t := o.target) h.symm hn
        refine ⟨rfl, un, ho.1, ?_⟩
        obtain ⟨t1, t2⟩ := turn_cover hg (List.getElem?_eq_some_iff.1 hk).1
        rw [hs, hsurf]
        exact .inr ⟨t1.symm, .inl (by rw [t2]; simp)⟩
      · obtain ⟨j, j1, j2, hj⟩ := snow_at hg hw (List.mem_of_getElem? hk)
        obtain ⟨rfl, -⟩ := named_own hd hg hs hj (t := o.target) h.symm hn
        refine ⟨rfl, un, ho.1, ?_⟩
        rw [hs, hsurf, turn_surface hg (by omega) j2]
        refine .inr ⟨rfl, .inr ⟨rfl, ?_⟩⟩
        change i - nc v < j - nc v
        omega
    · have hsurf := turn_surface hg (i := i) (by omega) (by omega)
      rcases h with h | ⟨-, h⟩
      · obtain ⟨rfl, -⟩ := named_own hd hg hs (cover_get hk) (t := o.target) h.symm hn
        refine ⟨rfl, un, ho.1, ?_⟩
        obtain ⟨t1, t2⟩ := turn_cover hg (List.getElem?_eq_some_iff.1 hk).1
        rw [hs, hsurf]
        exact .inr ⟨t1.symm, .inl (by rw [t2]; simp)⟩
      · rw [hinst] at h; cases h
    · rcases h with h | ⟨k', it', hlt, hk', hkey, hdir⟩
      · exact absurd h hno
      · obtain ⟨rfl, -⟩ := named_own hd hg hs (storage_get hk') (t := o.target) hkey hn
        refine ⟨rfl, un, ho.1, ?_⟩
        subst hi
        rw [hs, turn_storage hg hk, turn_storage hg hk']
        by_cases hx : it.direct = true
        · by_cases hy : it'.direct = true
          · simp only [hx, hy, if_true]
            exact .inr ⟨rfl, .inr ⟨rfl, by change nc v + nk v + nw v + k < nc v + nk v + nw v + k'; omega⟩⟩
          · exact .inl (by simp [hx, hy])
        · have hy := hdir (by simpa using hx)
          simp only [hx, hy, if_false]
          exact .inr ⟨rfl, .inr ⟨rfl, by change nc v + nk v + nw v + k < nc v + nk v + nw v + k'; omega⟩⟩
  · intro i b o ho hno
    exact absurd (basin_output hd ho).1 hno

theorem described_stageable (hnr : Spec.NoRedistribution inp) : Spec.Stageable inp := by
  refine ⟨?_, fun i b o ho => (basin_output hd ho).2, ?_⟩
  · intro u un i b o ho hdir
    obtain ⟨v, hg, hs, -⟩ := unit_good hd ho.1
    have hb := ho.2.1
    rw [hs] at hb
    rcases unit_output hd hnr ho hg hs with ⟨hi, -⟩ | ⟨c0, k, h1, h2, hk, hty, -⟩ | ⟨c0, k, h1, h2, hk, rfl, -⟩ | ⟨k, it, hi, hk, -, h, -⟩
    · exfalso
      have hc := List.getElem?_eq_getElem (l := v.base.covers) hi
      rw [cover_get hc] at hb
      cases hb
      refine hdir (.inl ?_)
      have key : ∀ t ∈ Spec.coverTypes, t ∈ Spec.fractionTypes := by decide
      exact key _ (hg.build.types _ (List.getElem_mem hi))
    · exact absurd (.inl (by rw [hty]; decide)) hdir
    · exact absurd (.inl (by decide : "snowpack" ∈ Spec.fractionTypes)) hdir
    · exact h
  · intro b hb
    obtain ⟨i, hi⟩ := List.mem_iff_getElem?.1 hb
    rw [(basin_brick hd hi).1]
    decide

variable [Field K] [LinearOrder K]

theorem extent_cover {u : ℕ} {un : UnitIn K} {v : Variant} (hg : Good v (basNames inp)) (hu : inp.units[u]? = some un)
    (hs : un.str = Spec.complete v) {ext : ℕ → ℕ → K} {k : ℕ} {c : Cover} (hk : v.base.covers[k]? = some c) :
    Spec.extent inp ext (.unitBrick u k) = ext u k := by
  unfold Spec.extent
  simp only [hu, hs, cover_get hk]
  rw [if_pos]
  exact hg.build.types c (List.mem_of_getElem? hk)

theorem extent_surface {u : ℕ} {un : UnitIn K} {v : Variant} (hg : Good v (basNames inp)) (hu : inp.units[u]? = some un)
    (hs : un.str = Spec.complete v) {ext : ℕ → ℕ → K} {i k : ℕ} {c : Cover} {b : Brick} (h1 : nc v ≤ i) (h2 : i < nc v + nk v + nw v)
    (hb : (Spec.complete v).unitBricks[i]? = some b) (hp : b.parent = c.name) (hk : v.base.covers[k]? = some c)
    (hty : b.type ∈ Spec.surfaceTypes) : Spec.extent inp ext (.unitBrick u i) = ext u k := by
  have key : ∀ t ∈ Spec.surfaceTypes, t ∉ Spec.coverTypes := by decide
  unfold Spec.extent
  simp only [hu, hs, hb, parent_pos hg h1 h2 hb hp hk]
  rw [if_neg (key _ hty), if_pos hty]

theorem described_areasFit (hnr : Spec.NoRedistribution inp) {ext : ℕ → ℕ → K} (ha : Spec.AreasGiven inp ext) : Spec.AreasFit inp ext := by
  have hsto : "storage" ∉ Spec.fractionTypes := by decide
  have hi : "interception_storage" ∈ Spec.surfaceTypes := by decide
  have hw' : "snowpack" ∈ Spec.surfaceTypes := by decide
  have hci : ∀ t ∈ Spec.coverTypes, t ∉ Spec.surfaceTypes := by decide
  have hcf : ∀ t ∈ Spec.coverTypes, t ∈ Spec.fractionTypes := by decide
  -- where a canopy or snowpack sends its water
  have hout : ∀ u un i b o, Spec.UnitOutput inp u un i b o → ∀ v, Good v (basNames inp) → un.str = Spec.complete v →
      b.type ∈ Spec.surfaceTypes → ∃ c b', Spec.BrickNamed inp u un o.target c b' ∧ b'.type ∈ Spec.fractionTypes ∧
        Spec.extent inp ext (.unitBrick u i) = Spec.extent inp ext c ∧ o.target ≠ "outlet" := by
    intro u un i b o ho v hg hs hty
    have hb := ho.2.1
    rw [hs] at hb
    have hcn : ∀ (k : ℕ) (c : Cover), v.base.covers[k]? = some c → c.name ≠ "outlet" := by
      intro k c hk he
      exact hg.build.names c (List.mem_of_getElem? hk) (by rw [he]; decide)
    have hsn : ∀ n : String, n ++ "_snowpack" ≠ "outlet" := by
      intro n he
      have : n ++ "_snowpack" ∉ Spec.keywords := suffix_ne_keyword (.inl rfl)
      rw [he] at this
      exact this (by decide)
    have tocov : ∀ (c : Cover) (k : ℕ), nc v ≤ i → i < nc v + nk v + nw v → v.base.covers[k]? = some c → b.parent = c.name → o.target = c.name →
        ∃ c b', Spec.BrickNamed inp u un o.target c b' ∧ b'.type ∈ Spec.fractionTypes ∧
        Spec.extent inp ext (.unitBrick u i) = Spec.extent inp ext c ∧ o.target ≠ "outlet" := by
      intro c k h1 h2 hk hp ht
      refine ⟨.unitBrick u k, _, .own (by rw [hs]; exact cover_get hk) ht.symm, hcf _ (hg.build.types c (List.mem_of_getElem? hk)), ?_, ?_⟩
      · rw [extent_surface hd hg ho.1 hs h1 h2 hb hp hk hty, extent_cover hd hg ho.1 hs hk]
      · rw [ht]; exact hcn k c hk
    have tosnow : ∀ (c : Cover) (k : ℕ), nc v ≤ i → i < nc v + nk v + nw v → v.base.covers[k]? = some c → b.parent = c.name → v.base.withSnow = true →
        o.target = c.name ++ "_snowpack" →
        ∃ c b', Spec.BrickNamed inp u un o.target c b' ∧ b'.type ∈ Spec.fractionTypes ∧
        Spec.extent inp ext (.unitBrick u i) = Spec.extent inp ext c ∧ o.target ≠ "outlet" := by
      intro c k h1 h2 hk hp hw ht
      obtain ⟨j, j1, j2, hj⟩ := snow_at hg hw (List.mem_of_getElem? hk)
      refine ⟨.unitBrick u j, _, .own (by rw [hs]; exact hj) ht.symm, (by decide : "snowpack" ∈ Spec.fractionTypes), ?_, ?_⟩
      · rw [extent_surface hd hg ho.1 hs h1 h2 hb hp hk hty, extent_surface hd hg ho.1 hs (by omega) j2 hj rfl hk hw']
      · rw [ht]; exact hsn _
    rcases unit_output hd hnr ho hg hs with ⟨h1, -⟩ | ⟨c0, k, h1, h2, hk, -, hp, h | ⟨hw, h⟩⟩ | ⟨c0, k, h1, h2, hk, rfl, h | ⟨h, -⟩⟩ | ⟨k, it, h1, hk, rfl, -⟩
    · exfalso
      have hc := List.getElem?_eq_getElem (l := v.base.covers) h1
      rw [cover_get hc] at hb
      cases hb
      exact hci _ (hg.build.types _ (List.getElem_mem h1)) hty
    · exact tocov c0 k h1 (by omega) hk hp h
    · exact tosnow c0 k h1 (by omega) hk hp hw h
    · exact tocov c0 k (by omega) h2 hk rfl h
    · refine tosnow c0 k (by omega) h2 hk rfl ?_ h
      by_contra hw
      simp only [nw, hw, if_false] at h2
      simp at h2
      omega
    · have hit := mem_itemsAt.1 (List.mem_of_getElem? hk)
      have : it.kind = "storage" := (hg.plan.storages it hit.1 (by rw [hit.2]; decide)).1
      change it.kind ∈ _ at hty
      rw [this] at hty
      exact absurd hty (by decide)
  refine ⟨ha.positive, ?_, ?_, ?_, ?_⟩
  · intro u un hu i b hb hty
    obtain ⟨v, hg, hs, -⟩ := unit_good hd hu
    refine ha.fraction u un hu i ?_
    rw [hs] at hb ⊢
    rw [complete_covers, List.mem_range]
    have key : ∀ t ∈ Spec.coverTypes, t ≠ "interception_storage" ∧ t ≠ "snowpack" ∧ t ≠ "storage" := by decide
    cases sort_of hg hb with
    | cover c h1 => exact h1
    | canopy c _ _ hc _ he => subst he; exact absurd rfl (key _ hty).1
    | snow c _ _ _ hc he => subst he; exact absurd rfl (key _ hty).2.1
    | storage k it _ hk hit hpl he =>
      subst he
      exact absurd (hg.plan.storages it hit (by rw [hpl]; decide)).1 (key _ hty).2.2
  · intro u un hu i k hp
    obtain ⟨v, hg, hs, -⟩ := unit_good hd hu
    rw [hs] at hp ⊢
    exact parent_cover hg hp
  · intro u un i b o ho hno c b' hn hty
    obtain ⟨v, hg, hs, -⟩ := unit_good hd ho.1
    have hsurf : b.type ∈ Spec.surfaceTypes → Spec.extent inp ext (.unitBrick u i) = Spec.extent inp ext c := by
      intro hb
      obtain ⟨c1, b1, hn1, -, he, -⟩ := hout u un i b o ho v hg hs hb
      have : c1 = c := by
        cases hn1 with
        | own h1 h2 =>
          rw [hs] at h1
          exact (named_own hd hg hs h1 h2 hn).1.symm
        | basin h0 h1 h2 =>
          cases hn with
          | own h3 h4 => exact absurd h4 (h0 _ (List.mem_of_getElem? h3))
          | basin h3 h4 h5 =>
            have := (basin_brick hd h4).1
            rw [this] at hty
            exact absurd hty hsto
      rw [← this]; exact he
    have hno' : ∀ t, Spec.Reaches v (basNames inp) t → t = o.target → Spec.extent inp ext (.unitBrick u i) = Spec.extent inp ext c := by
      rintro t hr rfl
      have := (named_storage hd hg hs hr hn).1
      rw [this] at hty
      exact absurd hty hsto
    rcases unit_output hd hnr ho hg hs with ⟨-, -, hr⟩ | ⟨c0, k, -, -, -, h, -⟩ | ⟨c0, k, -, -, -, rfl, -⟩ | ⟨k, it, -, -, -, -, -, h | ⟨k', it', -, h1, h2, -⟩⟩
    · exact hno' _ hr rfl
    · exact hsurf (by rw [h]; exact hi)
    · exact hsurf hw'
    · exact absurd h hno
    · exact hno' _ (.inr ⟨it', List.mem_of_getElem? h1, h2⟩) rfl
  · intro u un i b o ho hty h
    obtain ⟨v, hg, hs, -⟩ := unit_good hd ho.1
    obtain ⟨c1, b1, hn1, hf, -, hne⟩ := hout u un i b o ho v hg hs hty
    rcases h with h | h
    · exact absurd h hne
    · exact absurd hf (h _ _ hn1)

end

end HB.Wire
