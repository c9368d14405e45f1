import Verif.Model.PredefinedLemmas
import Mathlib.Data.List.TakeWhile

/-! # Lemmas on described structures: positions, names, what feeds what. -/

set_option linter.unusedSectionVars false
set_option linter.unusedSimpArgs false

namespace HB.Wire

open HB.Names

/-- A good variant. -/
structure Good (v : Variant) (bas : List String) : Prop where
  names : Spec.GoodNames v.base
  build : Spec.Buildable v.base
  plan : Spec.Plan v bas

section
variable {v : Variant} {bas : List String} (h : Good v bas)

/-- Number of land covers. -/
def nc (v : Variant) : ℕ := v.base.covers.length

/-- Number of canopies. -/
def nk (v : Variant) : ℕ := (Spec.canopies v.base).length

/-- Number of snowpacks. -/
def nw (v : Variant) : ℕ := if v.base.withSnow then v.base.covers.length else 0

theorem complete_covers : (Spec.complete v).covers = List.range (nc v) := rfl

theorem complete_surfaces : (Spec.complete v).surfaces = List.range' (nc v) (nk v + nw v) := rfl

theorem complete_unitSplits : (Spec.complete v).unitSplits = (Spec.base v.base).unitSplits := rfl

theorem complete_basinSplits : (Spec.complete v).basinSplits = [] := rfl

theorem complete_bricks : (Spec.complete v).unitBricks =
    v.base.covers.map (fun c => Spec.fill v.items (Spec.coverBrick c)) ++
      ((Spec.canopies v.base).map (fun c => Spec.fill v.items (Spec.canopyBrick v.base c)) ++
        ((if v.base.withSnow then v.base.covers.map (fun c => Spec.fill v.items (Spec.snowBrick v.base c)) else []) ++
          (Spec.itemsAt .unit v.items).map Spec.storageOf)) := by
  unfold Spec.complete Spec.base
  simp only [List.map_append, List.append_assoc]
  congr 1
  · simp
  · congr 1
    · simp
    · congr 1
      split <;> simp

theorem cover_get {i : ℕ} {c : Cover} (hc : v.base.covers[i]? = some c) :
    (Spec.complete v).unitBricks[i]? = some (Spec.fill v.items (Spec.coverBrick c)) := by
  have hl := (List.getElem?_eq_some_iff.1 hc).1
  rw [complete_bricks, List.getElem?_append_left (by simpa using hl), List.getElem?_map, hc]
  rfl

theorem canopy_get {k : ℕ} {c : Cover} (hc : (Spec.canopies v.base)[k]? = some c) :
    (Spec.complete v).unitBricks[nc v + k]? = some (Spec.fill v.items (Spec.canopyBrick v.base c)) := by
  have hl := (List.getElem?_eq_some_iff.1 hc).1
  rw [complete_bricks, List.getElem?_append_right (by simp [nc])]
  simp only [List.length_map, nc, Nat.add_sub_cancel_left]
  rw [List.getElem?_append_left (by simpa using hl), List.getElem?_map, hc]
  rfl

theorem snow_get (hw : v.base.withSnow = true) {k : ℕ} {c : Cover} (hc : v.base.covers[k]? = some c) :
    (Spec.complete v).unitBricks[nc v + nk v + k]? = some (Spec.fill v.items (Spec.snowBrick v.base c)) := by
  have hl := (List.getElem?_eq_some_iff.1 hc).1
  rw [complete_bricks, List.getElem?_append_right (by simp [nc, nk]; omega), List.getElem?_append_right (by simp [nc, nk]; omega)]
  simp only [List.length_map, nc, nk, hw, if_true]
  rw [show v.base.covers.length + (Spec.canopies v.base).length + k - v.base.covers.length - (Spec.canopies v.base).length = k by omega]
  rw [List.getElem?_append_left (by simpa using hl), List.getElem?_map, hc]
  rfl

theorem storage_get {k : ℕ} {it : Item} (hk : (Spec.itemsAt .unit v.items)[k]? = some it) :
    (Spec.complete v).unitBricks[nc v + nk v + nw v + k]? = some (Spec.storageOf it) := by
  have e : (if v.base.withSnow then v.base.covers.map (fun c => Spec.fill v.items (Spec.snowBrick v.base c)) else []).length = nw v := by
    unfold nw; split <;> simp
  rw [complete_bricks, List.getElem?_append_right (by simp [nc, nk]; omega), List.getElem?_append_right (by simp [nc, nk]; omega),
    List.getElem?_append_right (by rw [e]; simp [nc, nk]; omega), e]
  simp only [List.length_map, nc, nk]
  rw [show v.base.covers.length + (Spec.canopies v.base).length + nw v + k - v.base.covers.length - (Spec.canopies v.base).length - nw v = k by omega]
  rw [List.getElem?_map, hk]
  rfl

/-- What stands at a position. -/
theorem at_cases {i : ℕ} {b : Brick} (hb : (Spec.complete v).unitBricks[i]? = some b) :
    (i < nc v ∧ ∃ c, v.base.covers[i]? = some c ∧ b = Spec.fill v.items (Spec.coverBrick c)) ∨
    (nc v ≤ i ∧ i < nc v + nk v ∧ ∃ c ∈ v.base.covers, c.canopy = true ∧ b = Spec.fill v.items (Spec.canopyBrick v.base c)) ∨
    (nc v + nk v ≤ i ∧ i < nc v + nk v + nw v ∧ v.base.withSnow = true ∧ ∃ c ∈ v.base.covers,
      b = Spec.fill v.items (Spec.snowBrick v.base c)) ∨
    (∃ k it, i = nc v + nk v + nw v + k ∧ (Spec.itemsAt .unit v.items)[k]? = some it ∧ b = Spec.storageOf it) := by
  by_cases h1 : i < nc v
  · have hc := List.getElem?_eq_getElem h1
    rw [cover_get hc] at hb
    exact .inl ⟨h1, _, hc, by cases hb; rfl⟩
  · by_cases h2 : i < nc v + nk v
    · obtain ⟨k, rfl⟩ : ∃ k, i = nc v + k := ⟨i - nc v, by omega⟩
      have hk : k < (Spec.canopies v.base).length := by unfold nk at h2; omega
      have hc := List.getElem?_eq_getElem hk
      rw [canopy_get hc] at hb
      have hm := List.getElem_mem hk
      unfold Spec.canopies at hm
      rw [List.mem_filter] at hm
      exact .inr (.inl ⟨by omega, h2, _, hm.1, hm.2, by cases hb; rfl⟩)
    · by_cases h3 : i < nc v + nk v + nw v
      · have hw : v.base.withSnow = true := by
          by_contra hw
          simp only [nw, hw, if_false] at h3
          exact h2 h3
        obtain ⟨k, rfl⟩ : ∃ k, i = nc v + nk v + k := ⟨i - (nc v + nk v), by omega⟩
        have hk : k < v.base.covers.length := by simp only [nw, hw, if_true] at h3; omega
        have hc := List.getElem?_eq_getElem hk
        rw [snow_get hw hc] at hb
        exact .inr (.inr (.inl ⟨by omega, h3, hw, _, List.getElem_mem hk, by cases hb; rfl⟩))
      · obtain ⟨k, rfl⟩ : ∃ k, i = nc v + nk v + nw v + k := ⟨i - (nc v + nk v + nw v), by omega⟩
        have hk : k < (Spec.itemsAt .unit v.items).length := by
          by_contra hk
          have hlen : (Spec.complete v).unitBricks.length = nc v + nk v + nw v + (Spec.itemsAt .unit v.items).length := by
            rw [complete_bricks]
            unfold nc nk nw
            split <;> simp <;> omega
          have := (List.getElem?_eq_some_iff.1 hb).1
          omega
        have hc := List.getElem?_eq_getElem hk
        rw [storage_get hc] at hb
        exact .inr (.inr (.inr ⟨k, _, rfl, hc, by cases hb; rfl⟩))

theorem complete_length : (Spec.complete v).unitBricks.length = nc v + nk v + nw v + (Spec.itemsAt .unit v.items).length := by
  rw [complete_bricks]
  unfold nc nk nw
  split <;> simp <;> omega

theorem mem_itemsAt {pl : Place} {l : List Item} {it : Item} : it ∈ Spec.itemsAt pl l ↔ it ∈ l ∧ it.place = pl := by
  simp [Spec.itemsAt]

theorem complete_names : (Spec.complete v).unitBricks.map (·.name) =
    (Spec.base v.base).unitBricks.map (·.name) ++ (Spec.itemsAt .unit v.items).map (·.key) := by
  unfold Spec.complete
  simp only [List.map_append, List.map_map]
  rfl

include h

theorem complete_nodup : ((Spec.complete v).unitBricks.map (·.name)).Nodup := by
  rw [complete_names]
  refine List.nodup_append.mpr ⟨h.names.distinct, ?_, ?_⟩
  · exact (List.Sublist.map _ List.filter_sublist).nodup h.plan.keys
  · intro x hx y hy he
    subst he
    obtain ⟨it, hit, rfl⟩ := List.mem_map.1 hy
    rw [mem_itemsAt] at hit
    exact h.plan.fresh it hit.1 hit.2 hx

/-- A name stands for one position. -/
theorem pos_unique {i j : ℕ} {b b' : Brick} (hi : (Spec.complete v).unitBricks[i]? = some b)
    (hj : (Spec.complete v).unitBricks[j]? = some b') (he : b.name = b'.name) : i = j ∧ b = b' := by
  obtain ⟨hi', ei⟩ := List.getElem?_eq_some_iff.1 hi
  obtain ⟨hj', ej⟩ := List.getElem?_eq_some_iff.1 hj
  have : i = j := by
    refine (List.Nodup.getElem_inj_iff (complete_nodup h) (hi := by simpa using hi') (hj := by simpa using hj')).mp ?_
    simp only [List.getElem_map, ei, ej, he]
  subst this
  exact ⟨rfl, by rw [← ei, ← ej]⟩

/-- An entry for a land cover lists processes for that cover only. -/
theorem listed_cover {n : String} {p : Proc} (hp : p ∈ Spec.listedFor v.items n) :
    ∃ it ∈ v.items, it.place = .cover ∧ it.key = n ∧ ∃ q ∈ it.procs, p = Spec.procOf q := by
  unfold Spec.listedFor at hp
  obtain ⟨it, hit, hp⟩ := List.mem_flatMap.1 hp
  rw [List.mem_filter] at hit
  obtain ⟨q, hq, rfl⟩ := List.mem_map.1 hp
  have := of_decide_eq_true hit.2
  exact ⟨it, hit.1, this.1, this.2, q, hq, rfl⟩

/-- No process is listed for a surface component. -/
theorem listed_surface {b : Brick} (hb : b ∈ (Spec.base v.base).unitBricks) (hn : ∀ c ∈ v.base.covers, b ≠ Spec.coverBrick c) :
    Spec.listedFor v.items b.name = [] := by
  rw [List.eq_nil_iff_forall_not_mem]
  intro p hp
  obtain ⟨it, hit, hpl, hk, -⟩ := listed_cover h hp
  obtain ⟨-, c, hc, hcn⟩ := h.plan.covers it hit hpl
  refine hn c hc ?_
  have h1 := cover_mem h.names h.build hc
  have hnd := h.names.distinct
  obtain ⟨i, hi⟩ := List.mem_iff_getElem?.1 hb
  obtain ⟨j, hj⟩ := List.mem_iff_getElem?.1 h1
  obtain ⟨hi', ei⟩ := List.getElem?_eq_some_iff.1 hi
  obtain ⟨hj', ej⟩ := List.getElem?_eq_some_iff.1 hj
  have : i = j := by
    refine (List.Nodup.getElem_inj_iff hnd (hi := by simpa using hi') (hj := by simpa using hj')).mp ?_
    simp only [List.getElem_map, ei, ej]
    rw [← hk, ← hcn]
    rfl
  subst this
  rw [← ei, ← ej]

theorem fill_surface {b : Brick} (hb : b ∈ (Spec.base v.base).unitBricks) (hn : b.type ∉ Spec.coverTypes) : Spec.fill v.items b = b := by
  unfold Spec.fill
  rw [listed_surface h hb fun c hc he => hn (by rw [he]; exact h.build.types c hc), List.append_nil]

theorem fill_snow (hw : v.base.withSnow = true) {c : Cover} (hc : c ∈ v.base.covers) :
    Spec.fill v.items (Spec.snowBrick v.base c) = Spec.snowBrick v.base c :=
  fill_surface h (snow_mem h.names h.build hw hc) (by change "snowpack" ∉ _; decide)

theorem fill_canopy {c : Cover} (hc : c ∈ v.base.covers) (hcc : c.canopy = true) :
    Spec.fill v.items (Spec.canopyBrick v.base c) = Spec.canopyBrick v.base c :=
  fill_surface h (canopy_mem h.names h.build hc hcc) (by change "interception_storage" ∉ _; decide)

/-- The four sorts of bricks, with their processes. -/
inductive Role (v : Variant) (i : ℕ) (b : Brick) : Prop
  | cover (c : Cover) : i < nc v → v.base.covers[i]? = some c → c ∈ v.base.covers → b.name = c.name → b.type = c.type → b.direct = false →
      b.parent = "" → (∀ p ∈ b.procs, ∃ it ∈ v.items, it.place = .cover ∧ it.key = c.name ∧ ∃ q ∈ it.procs, p = Spec.procOf q) → Role v i b
  | canopy (c : Cover) : nc v ≤ i → i < nc v + nk v → c ∈ v.base.covers → c.canopy = true → b = Spec.canopyBrick v.base c → Role v i b
  | snow (c : Cover) : nc v + nk v ≤ i → i < nc v + nk v + nw v → v.base.withSnow = true → c ∈ v.base.covers →
      b = Spec.snowBrick v.base c → Role v i b
  | storage (k : ℕ) (it : Item) : i = nc v + nk v + nw v + k → (Spec.itemsAt .unit v.items)[k]? = some it → it ∈ v.items →
      it.place = .unit → b = Spec.storageOf it → Role v i b

theorem sort_of {i : ℕ} {b : Brick} (hb : (Spec.complete v).unitBricks[i]? = some b) : Role v i b := by
  rcases at_cases hb with ⟨h1, c, h2, rfl⟩ | ⟨h1, h2, c, hc, hcc, rfl⟩ | ⟨h1, h2, hw, c, hc, rfl⟩ | ⟨k, it, h1, h2, rfl⟩
  · refine .cover c h1 h2 (List.mem_of_getElem? h2) rfl rfl rfl rfl fun p hp => ?_
    exact listed_cover h (by simpa [Spec.fill, Spec.coverBrick] using hp)
  · exact .canopy c h1 h2 hc hcc (fill_canopy h hc hcc)
  · exact .snow c h1 h2 hw hc (fill_snow h hw hc)
  · obtain ⟨h3, h4⟩ := mem_itemsAt.1 (List.mem_of_getElem? h2)
    exact .storage k it h1 h2 h3 h4 rfl

theorem sort_mem {b : Brick} (hb : b ∈ (Spec.complete v).unitBricks) : ∃ i, Role v i b := by
  obtain ⟨i, hi⟩ := List.mem_iff_getElem?.1 hb
  exact ⟨i, sort_of h hi⟩

omit h in
theorem cover_at {c : Cover} (hc : c ∈ v.base.covers) : ∃ i b, i < nc v ∧ v.base.covers[i]? = some c ∧
    (Spec.complete v).unitBricks[i]? = some b ∧ b.name = c.name ∧ b.type = c.type := by
  obtain ⟨i, hi⟩ := List.mem_iff_getElem?.1 hc
  exact ⟨i, _, (List.getElem?_eq_some_iff.1 hi).1, hi, cover_get hi, rfl, rfl⟩

theorem snow_at (hw : v.base.withSnow = true) {c : Cover} (hc : c ∈ v.base.covers) : ∃ i, nc v + nk v ≤ i ∧ i < nc v + nk v + nw v ∧
    (Spec.complete v).unitBricks[i]? = some (Spec.snowBrick v.base c) := by
  obtain ⟨k, hk⟩ := List.mem_iff_getElem?.1 hc
  refine ⟨_, Nat.le_add_right _ k, ?_, by rw [← fill_snow h hw hc]; exact snow_get hw hk⟩
  have := (List.getElem?_eq_some_iff.1 hk).1
  simp only [nw, hw, if_true]
  omega

theorem storage_at {it : Item} (hit : it ∈ Spec.itemsAt .unit v.items) : ∃ k, (Spec.itemsAt .unit v.items)[k]? = some it ∧
    (Spec.complete v).unitBricks[nc v + nk v + nw v + k]? = some (Spec.storageOf it) := by
  obtain ⟨k, hk⟩ := List.mem_iff_getElem?.1 hit
  exact ⟨k, hk, storage_get hk⟩

theorem complete_distinct : Spec.DistinctUnit (Spec.complete v) := by
  obtain ⟨⟨h1, h2⟩, -, h3⟩ := base_distinct h.names h.build
  refine ⟨⟨h1, fun i hi => ?_⟩, complete_nodup h, h3⟩
  have := h2 i hi
  refine lt_of_lt_of_le this ?_
  unfold Spec.complete
  simp

/-- No brick is called like a keyword. -/
theorem complete_plain {b : Brick} (hb : b ∈ (Spec.complete v).unitBricks) : b.name ∉ Spec.keywords := by
  obtain ⟨i, hs⟩ := sort_mem h hb
  cases hs with
  | cover c _ _ hc hn => rw [hn]; exact h.build.names c hc
  | canopy c _ _ hc hcc hb => subst hb; exact base_names h.names h.build (canopy_mem h.names h.build hc hcc)
  | snow c _ _ hw hc hb => subst hb; exact base_names h.names h.build (snow_mem h.names h.build hw hc)
  | storage k it _ _ hit hpl hb => subst hb; exact (h.plan.storages it hit (by rw [hpl]; decide)).2

end

/-- The outputs of a described process. -/
theorem procOf_outs {q : PItem} {o : Out} (ho : o ∈ (Spec.procOf q).outs) : o.target ∈ q.targets ∧ o.content = .water ∧ (q.inst = false → o.inst = false) := by
  change o ∈ Spec.outsOfItem q at ho
  unfold Spec.outsOfItem at ho
  cases ht : q.targets with
  | nil => rw [ht] at ho; cases ho
  | cons t ts =>
    rw [ht] at ho
    rcases List.mem_cons.1 ho with rfl | ho
    · exact ⟨by simp, rfl, fun h => h⟩
    · obtain ⟨t', ht', rfl⟩ := List.mem_map.1 ho
      exact ⟨by simp [ht'], rfl, fun _ => rfl⟩

theorem feedsLater_get {l : List Item} (hl : Spec.FeedsLater l) {k : ℕ} {it : Item} (hk : l[k]? = some it) {p : PItem} (hp : p ∈ it.procs)
    (ha : p.kind ∉ Spec.atmosphereNames) {t : String} (ht : t ∈ p.targets) :
    t = "outlet" ∨ ∃ (k' : ℕ) (it' : Item), k < k' ∧ l[k']? = some it' ∧ it'.key = t ∧ (it.direct = false → it'.direct = false) := by
  induction l generalizing k with
  | nil => simp at hk
  | cons x l ih =>
    cases k with
    | zero =>
      simp only [List.getElem?_cons_zero, Option.some.injEq] at hk
      subst hk
      rcases hl.1 p hp ha t ht with h | ⟨it', h1, h2, h3⟩
      · exact .inl h
      · obtain ⟨j, hj⟩ := List.mem_iff_getElem?.1 h1
        exact .inr ⟨j + 1, it', by omega, by simpa using hj, h2, h3⟩
    | succ k =>
      rcases ih hl.2 (by simpa using hk) with h | ⟨j, it', h1, h2, h3⟩
      · exact .inl h
      · exact .inr ⟨j + 1, it', by omega, by simpa using h2, h3⟩

/-- The processes of a snowpack that feed it do so at once. -/
theorem snow_inst {g : BaseArgs} {c : Cover} {p : Proc} (hp : p ∈ Spec.snowProcs g c) {o : Out} (ho : o ∈ p.outs)
    (ht : o.target = c.name ++ "_snowpack") : o.inst = true := by
  have hne : c.name ≠ c.name ++ "_snowpack" := by
    intro he
    have := congrArg (fun s => s.toList.length) he
    simp [String.toList_append] at this
  have hlat : ("lateral" : String) ≠ c.name ++ "_snowpack" := by
    intro he
    have : c.name ++ "_snowpack" ∉ Spec.keywords := suffix_ne_keyword (.inl rfl)
    rw [← he] at this
    exact this (by decide)
  unfold Spec.snowProcs at hp
  rcases List.mem_append.mp hp with hp | hp
  · rcases List.mem_append.mp hp with hp | hp
    · rcases List.mem_append.mp hp with hp | hp
      · split at hp
        · rw [List.mem_singleton] at hp
          subst hp
          simp only [Spec.pr, List.mem_singleton] at ho
          subst ho
          exact absurd ht hne
        · rcases List.mem_append.mp hp with hp | hp
          · rcases List.mem_cons.mp hp with rfl | hp
            · simp only [Spec.pr, List.mem_singleton] at ho
              subst ho; rfl
            · rw [List.mem_singleton] at hp
              subst hp
              simp only [Spec.pr, List.mem_singleton] at ho
              subst ho
              exact absurd ht hne
          · cases hq : g.refreezing with
            | none => rw [hq] at hp; cases hp
            | some q =>
              rw [hq] at hp
              simp only [Spec.opt, Option.map_some, Option.toList_some, List.mem_singleton] at hp
              subst hp
              simp only [Spec.pr, List.mem_singleton] at ho
              subst ho; rfl
      · split at hp
        · cases hq : g.snowIce with
          | none => rw [hq] at hp; cases hp
          | some q =>
            rw [hq] at hp
            simp only [Spec.opt, Option.map_some, Option.toList_some, List.mem_singleton] at hp
            subst hp
            simp only [Spec.pr, List.mem_singleton] at ho
            subst ho
            exact absurd ht hne
        · cases hp
    · cases hq : g.redistribution with
      | none => rw [hq] at hp; cases hp
      | some q =>
        rw [hq] at hp
        simp only [Spec.opt, Option.map_some, Option.toList_some, List.mem_singleton] at hp
        subst hp
        simp only [Spec.pr, List.mem_singleton] at ho
        subst ho
        exact absurd ht hlat
  · cases hq : g.sublimation with
    | none => rw [hq] at hp; cases hp
    | some q =>
      rw [hq] at hp
      simp only [Spec.opt, Option.map_some, Option.toList_some, List.mem_singleton] at hp
      subst hp
      simp [Spec.pr] at ho

end HB.Wire
