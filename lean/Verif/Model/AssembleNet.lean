import Verif.Model.AssembleFlux

/-!
# The assembled network meets the conditions of the water balance
-/

namespace HB

set_option linter.unusedSectionVars false

open HB.Names HB.Wire HB.Asm

namespace Asm

variable {K : Type} [Field K] [LinearOrder K] [IsStrictOrderedRing K]

/-! ## Stores -/

theorem brickOf_isBrick {inp : Input K} {c : Comp} {b : Wire.Brick} (h : Spec.brickOf inp c = some b) : IsBrick c := by
  cases c <;> simp [Spec.brickOf, IsBrick] at h ⊢

theorem mem_allBricks {inp : Input K} {c : Comp} {b : Wire.Brick} : (c, b) ∈ allBricks inp ↔ Spec.brickOf inp c = some b := by
  unfold allBricks
  rw [List.mem_append, List.mem_flatMap]
  constructor
  · rintro (⟨uu, huu, h⟩ | h)
    · obtain ⟨bi, hbi, he⟩ := List.mem_map.1 h
      cases he
      exact brickOf_unit (mem_zipIdx' huu) (mem_zipIdx' hbi)
    · obtain ⟨bi, hbi, he⟩ := List.mem_map.1 h
      cases he
      exact mem_zipIdx' hbi
  · intro h
    cases c with
    | unitBrick u i =>
      obtain ⟨un, hu, hb⟩ := Option.bind_eq_some_iff.1 h
      exact .inl ⟨(un, u), List.mem_zipIdx_iff_getElem?.2 hu, List.mem_map.2 ⟨(b, i), List.mem_zipIdx_iff_getElem?.2 hb, rfl⟩⟩
    | basinBrick i => exact .inr (List.mem_map.2 ⟨(b, i), List.mem_zipIdx_iff_getElem?.2 h, rfl⟩)
    | unitSplit u i => cases h
    | basinSplit i => cases h

theorem mem_stores {inp : Input K} {ext : ℕ → ℕ → K} {x : Comp × Store} :
    x ∈ Spec.stores inp ext ↔ Spec.Exists inp ext x.1 ∧ ∃ b, Spec.brickOf inp x.1 = some b ∧ x.2 ∈ Spec.storesOfType b.type := by
  unfold Spec.stores
  rw [List.mem_flatMap]
  constructor
  · rintro ⟨cb, hcb, h⟩
    obtain ⟨h1, h2⟩ := List.mem_filter.1 hcb
    obtain ⟨s, hs, rfl⟩ := List.mem_map.1 h
    exact ⟨of_decide_eq_true h2, cb.2, mem_allBricks.1 h1, hs⟩
  · rintro ⟨h1, b, hb, hs⟩
    exact ⟨(x.1, b), List.mem_filter.2 ⟨mem_allBricks.2 hb, decide_eq_true h1⟩, List.mem_map.2 ⟨x.2, hs, rfl⟩⟩

theorem store_isBrick {inp : Input K} {ext : ℕ → ℕ → K} {x : Comp × Store} (h : x ∈ Spec.stores inp ext) : IsBrick x.1 := by
  obtain ⟨_, b, hb, _⟩ := mem_stores.1 h
  exact brickOf_isBrick hb

theorem basin_exists (inp : Input K) (ext : ℕ → ℕ → K) (i : ℕ) : Spec.Exists inp ext (.basinBrick i) := by
  unfold Spec.Exists Spec.extent
  rw [abs_one]; exact prec_lt_one

/-- A brick is handled exactly when it exists. -/
theorem brick_order {inp : Input K} {m : Wire.Model K} (hd : Spec.Distinct inp) (h : build inp = .ok m) (ext : ℕ → ℕ → K)
    {c : Comp} {b : Wire.Brick} (hb : Spec.brickOf inp c = some b) : c ∈ order inp m ext ↔ Spec.Exists inp ext c := by
  rw [mem_order hd h]
  cases c with
  | unitBrick u i =>
    obtain ⟨un, hu, hb⟩ := Option.bind_eq_some_iff.1 hb
    exact ⟨fun h => h.2, fun h => ⟨⟨un, b, hu, hb⟩, h⟩⟩
  | basinBrick i => exact ⟨fun _ => basin_exists inp ext i, fun _ => ⟨b, hb⟩⟩
  | unitSplit u i => cases hb
  | basinSplit i => cases hb

theorem mem_rd {inp : Input K} {c : Comp} {n : ℕ} :
    n ∈ rd inp c ↔ ∃ b s, Spec.brickOf inp c = some b ∧ s ∈ Spec.storesOfType b.type ∧ n = contId c s := by
  unfold rd
  cases hb : Spec.brickOf inp c with
  | none => simp
  | some b =>
    have e : ((storesOf (clsOf b)).map fun s => contId c s.1) = ((storesOf (clsOf b)).map (·.1)).map fun s => contId c s := by
      rw [List.map_map]; rfl
    simp only [e, storesOf_type, List.mem_map, Option.some.injEq]
    constructor
    · rintro ⟨s, hs, h⟩; exact ⟨b, s, rfl, hs, h.symm⟩
    · rintro ⟨_, s, rfl, hs, h⟩; exact ⟨s, hs, h.symm⟩

theorem nodup_stores (t : String) : (Spec.storesOfType t).Nodup := by
  unfold Spec.storesOfType; split <;> [decide; (split <;> decide)]

theorem nodup_rd (inp : Input K) (c : Comp) : (rd inp c).Nodup := by
  unfold rd
  cases hb : Spec.brickOf inp c with
  | none => exact List.nodup_nil
  | some b =>
    have e : ((storesOf (clsOf b)).map fun s => contId c s.1) = ((storesOf (clsOf b)).map (·.1)).map fun s => contId c s := by
      rw [List.map_map]; rfl
    simp only [e, storesOf_type]
    exact (nodup_stores _).map fun s s' h => (contId_inj (brickOf_isBrick hb) (brickOf_isBrick hb) h).2

theorem mem_reads {inp : Input K} {m : Wire.Model K} (hd : Spec.Distinct inp) (h : build inp = .ok m) (ext : ℕ → ℕ → K) {n : ℕ} :
    n ∈ (order inp m ext).flatMap (rd inp) ↔ ∃ x ∈ Spec.stores inp ext, n = contId x.1 x.2 := by
  rw [List.mem_flatMap]
  constructor
  · rintro ⟨c, hc, hn⟩
    obtain ⟨b, s, hb, hs, rfl⟩ := mem_rd.1 hn
    exact ⟨(c, s), mem_stores.2 ⟨(brick_order hd h ext hb).1 hc, b, hb, hs⟩, rfl⟩
  · rintro ⟨x, hx, rfl⟩
    obtain ⟨hex, b, hb, hs⟩ := mem_stores.1 hx
    exact ⟨x.1, (brick_order hd h ext hb).2 hex, mem_rd.2 ⟨b, x.2, hb, hs, rfl⟩⟩

/-! ## Ends of the fluxes -/

theorem target_eq (inp : Input K) (ext : ℕ → ℕ → K) (f : Wire.Flux K) :
    (fluxSpec inp ext f).target = (Spec.targetOf f).elim .outside fun x => .cont (contId x.1 x.2) := by
  unfold fluxSpec Spec.targetOf
  have hs : storeOfContent f.content = (if f.content = .snow then .snow else if f.content = .ice then .ice else .water) := by
    cases f.content <;> rfl
  rw [hs]
  cases f.dst with
  | outlet => rfl
  | atmosphere => rfl
  | comp c => cases c <;> rfl

theorem targetOf_some {f : Wire.Flux K} {x : Comp × Store} (h : Spec.targetOf f = some x) : f.dst = .comp x.1 ∧ IsBrick x.1 := by
  unfold Spec.targetOf at h
  cases hd : f.dst with
  | outlet => rw [hd] at h; cases h
  | atmosphere => rw [hd] at h; cases h
  | comp c =>
    rw [hd] at h
    cases c <;> simp only [Option.some.injEq, reduceCtorEq] at h <;> subst h <;> exact ⟨rfl, trivial⟩

theorem target_cont {inp : Input K} {ext : ℕ → ℕ → K} {f : Wire.Flux K} {c : Comp} {s : Store} (hc : IsBrick c)
    (h : (fluxSpec inp ext f).target = .cont (contId c s)) : Spec.targetOf f = some (c, s) := by
  rw [target_eq] at h
  cases ht : Spec.targetOf f with
  | none => rw [ht] at h; cases h
  | some x =>
    rw [ht] at h
    simp only [Option.elim, Target.cont.injEq] at h
    obtain ⟨h1, h2⟩ := contId_inj (targetOf_some ht).2 hc h
    rw [← h1, ← h2]

theorem denotes_brick {inp : Input K} {u : ℕ} {un : UnitIn K} {t : String} {c : Comp} (hc : IsBrick c)
    (h : Spec.Denotes inp u un t (.comp c)) : t ≠ "outlet" ∧ ∃ b, Spec.BrickNamed inp u un t c b := by
  cases h with
  | brick h1 h2 => exact ⟨h1, _, h2⟩
  | split h1 h2 h3 => cases h3 <;> exact hc.elim

/-- Delayed fluxes go forward. -/
theorem forward {inp : Input K} (hf : Spec.Forward inp) {f : Wire.Flux K} (hk : Kind inp f) (hi : f.inst = false) {c : Comp}
    (hc : IsBrick c) (hdst : f.dst = .comp c) : Bf inp f.src c ∨ ∃ i, f.src = .basinSplit i := by
  cases hk with
  | @unit u un i b p o hs ho hp hw =>
    obtain ⟨ht, b', hb'⟩ := denotes_brick hc (hdst ▸ hw.dest)
    have hin : o.inst = false := by
      cases hin : o.inst with
      | false => rfl
      | true => rw [hw.inst.2 ⟨hin, c, b', hdst, hb'⟩] at hi; cases hi
    have := hf.units u un i b o ho hin ht c b' hb'
    rw [hs]
    left
    cases c <;> exact this
  | unitAir hs hu hb hp ha => rw [ha.dest] at hdst; cases hdst
  | @basin i b p o hs ho hp hw =>
    have := hdst ▸ hw.dest
    rw [hs]
    cases this with
    | brick h1 h2 h3 => exact .inl (hf.basin i b o ho h1 _ _ h2 h3)
    | split h1 h2 h3 => exact hc.elim
  | basinAir hs hb hp ha => rw [ha.dest] at hdst; cases hdst
  | split hs hu hsp hw =>
    obtain ⟨ht, b', hb'⟩ := denotes_brick hc (hdst ▸ hw.dest)
    rw [hs]
    left
    cases hb' with
    | own h1 h2 => rfl
    | basin h1 h2 h3 => trivial
  | basinSplit hs hsp hw => exact .inr ⟨_, hs⟩

/-! ## The conditions -/

/-- Containers of the system. -/
def sysC (inp : Input K) (ext : ℕ → ℕ → K) (s0 : Phys K) : Finset ℕ :=
  ((Spec.system inp ext s0).map fun x => contId x.1 x.2).toFinset

/-- Fluxes of components that are not handled. -/
def stuckF (inp : Input K) (m : Wire.Model K) (ext : ℕ → ℕ → K) : Finset ℕ :=
  ((m.net.outs.zipIdx.filter fun e => decide (e.1.src ∉ order inp m ext)).map (·.2)).toFinset

theorem mem_stuckF {inp : Input K} {m : Wire.Model K} {ext : ℕ → ℕ → K} {k : ℕ} :
    k ∈ stuckF inp m ext ↔ ∃ f, m.net.outs[k]? = some f ∧ f.src ∉ order inp m ext := by
  unfold stuckF
  rw [List.mem_toFinset, List.mem_map]
  constructor
  · rintro ⟨e, he, rfl⟩
    obtain ⟨h1, h2⟩ := List.mem_filter.1 he
    exact ⟨e.1, mem_zipIdx' h1, of_decide_eq_true h2⟩
  · rintro ⟨f, hf, hn⟩
    exact ⟨(f, k), List.mem_filter.2 ⟨List.mem_zipIdx_iff_getElem?.2 hf, decide_eq_true hn⟩, rfl⟩

theorem mem_sysC {inp : Input K} {ext : ℕ → ℕ → K} {s0 : Phys K} {n : ℕ} :
    n ∈ sysC inp ext s0 ↔ ∃ x ∈ Spec.system inp ext s0, n = contId x.1 x.2 := by
  unfold sysC
  rw [List.mem_toFinset, List.mem_map]
  exact ⟨fun ⟨x, hx, h⟩ => ⟨x, hx, h.symm⟩, fun ⟨x, hx, h⟩ => ⟨x, hx, h.symm⟩⟩

theorem system_stores {inp : Input K} {ext : ℕ → ℕ → K} {s0 : Phys K} {x : Comp × Store} (h : x ∈ Spec.system inp ext s0) :
    x ∈ Spec.stores inp ext := (List.mem_filter.1 h).1

theorem contId_system {inp : Input K} {ext : ℕ → ℕ → K} {s0 : Phys K} {c : Comp} (hc : IsBrick c) (s : Store) :
    contId c s ∈ sysC inp ext s0 ↔ (c, s) ∈ Spec.system inp ext s0 := by
  rw [mem_sysC]
  constructor
  · rintro ⟨x, hx, h⟩
    obtain ⟨h1, h2⟩ := contId_inj hc (store_isBrick (system_stores hx)) h
    rw [h1, h2]; exact hx
  · intro h; exact ⟨_, h, rfl⟩

theorem flatMap_map' {α β γ : Type} (l : List α) (f : α → β) (g : β → List γ) : (l.map f).flatMap g = l.flatMap fun a => g (f a) := by
  rw [List.flatMap_map]

theorem feedForward {inp : Input K} {m : Wire.Model K} (hd : Spec.Distinct inp) (h : build inp = .ok m) (hf : Spec.Forward inp)
    (ext : ℕ → ℕ → K) (s0 : Phys K) : FeedForward (asm inp m ext) (sysC inp ext s0) (stuckF inp m ext) := by
  have hfeed : ∀ c c', c' ∈ order inp m ext → ¬ Bf inp c' c →
      noFeed (asm inp m ext) ⟨rd inp c, wr inp m.net c⟩ ⟨rd inp c', wr inp m.net c'⟩ := by
    intro c c' hc' hbf k hk hi n hn ht
    obtain ⟨f, hfk, hsrc⟩ := (mem_wr hd h).1 hk
    obtain ⟨b, s, hb, hs, rfl⟩ := mem_rd.1 hn
    rw [flux_some hfk] at hi ht
    have htar := target_cont (brickOf_isBrick hb) ht
    rcases forward hf (kinds hd h hf.noLateral (List.mem_of_getElem? hfk)) hi (brickOf_isBrick hb) (targetOf_some htar).1 with hh | ⟨i, hh⟩
    · rw [hsrc] at hh; exact hbf hh
    · rw [hsrc] at hh
      rw [hh, mem_order hd h] at hc'
      exact hc'
  refine ⟨List.nodup_range, ⟨?_, ?_, ?_, ?_, ?_, ?_⟩, ?_⟩
  · rw [blocks_eq, List.pairwise_map]
    exact (order_pairwise hd m ext).imp_of_mem fun {c c'} _ hc' hbf => hfeed c c' hc' hbf
  · rw [blocks_eq]
    intro b hb
    obtain ⟨c, hc, rfl⟩ := List.mem_map.1 hb
    exact hfeed c c hc (not_bf_self inp c)
  · rw [blocks_eq, flatMap_map', List.nodup_flatMap]
    refine ⟨fun c _ => nodup_rd inp c, (nodup_order m hd ext).imp fun {c c'} hne n h1 h2 => ?_⟩
    obtain ⟨b, s, hb, _, rfl⟩ := mem_rd.1 h1
    obtain ⟨b', s', hb', _, he⟩ := mem_rd.1 h2
    exact hne (contId_inj (brickOf_isBrick hb) (brickOf_isBrick hb') he).1
  · rw [blocks_eq, flatMap_map', List.nodup_flatMap]
    refine ⟨fun c _ => nodup_wr inp m.net c, (nodup_order m hd ext).imp fun {c c'} hne n h1 h2 => ?_⟩
    obtain ⟨f, hf1, h3⟩ := (mem_wr hd h).1 h1
    obtain ⟨f', hf2, h4⟩ := (mem_wr hd h).1 h2
    rw [hf1] at hf2
    cases hf2
    exact hne (h3.symm.trans h4)
  · rw [blocks_eq, flatMap_map']
    intro k hk
    obtain ⟨c, hc, hk⟩ := List.mem_flatMap.1 hk
    obtain ⟨f, hf1, h3⟩ := (mem_wr hd h).1 hk
    refine ⟨List.mem_range.2 (List.getElem?_eq_some_iff.1 hf1).1, by simp, fun hS => ?_⟩
    obtain ⟨f', hf2, h4⟩ := mem_stuckF.1 hS
    rw [hf1] at hf2
    cases hf2
    exact h4 (h3 ▸ hc)
  · intro n _ _ k hk _
    rw [blocks_eq, flatMap_map']
    have hlt := List.mem_range.1 (List.mem_filter.1 hk).1
    have hf1 := List.getElem?_eq_getElem hlt
    by_cases ho : (m.net.outs[k]).src ∈ order inp m ext
    · exact .inr (.inr (List.mem_flatMap.2 ⟨_, ho, (mem_wr hd h).2 ⟨_, hf1, rfl⟩⟩))
    · exact .inr (.inl (mem_stuckF.2 ⟨_, hf1, ho⟩))
  · intro n hn
    obtain ⟨x, hx, rfl⟩ := mem_sysC.1 hn
    rw [blocks_eq, flatMap_map']
    exact (mem_reads hd h ext).2 ⟨x, system_stores hx, rfl⟩

theorem brickOK {inp : Input K} {m : Wire.Model K} (hd : Spec.Distinct inp) (h : build inp = .ok m) {c : Comp} {b : Wire.Brick}
    (hb : Spec.brickOf inp c = some b) : Spec.BrickOK b := by
  have hwf := (c57_builds_iff hd).1 ⟨m, h⟩
  cases c with
  | unitBrick u i =>
    obtain ⟨un, hu, hb⟩ := Option.bind_eq_some_iff.1 hb
    exact (hwf.units u un hu).bricks b (List.mem_of_getElem? hb)
  | basinBrick i => exact hwf.bricks b (List.mem_of_getElem? hb)
  | unitSplit u i => cases hb
  | basinSplit i => cases hb

theorem own_mkBrick {b : Wire.Brick} (hb : Spec.BrickOK b) (n : Wire.Net K) (c : Comp) (x : Bool) :
    ∀ p ∈ (mkBrick n c b x).procs, p.src ∈ (mkBrick n c b x).conts.map (·.1) := by
  intro p hp
  obtain ⟨pj, hpj, rfl⟩ := List.mem_map.1 hp
  have hst := (procStore_eq hb (List.mem_of_getElem? (mem_zipIdx' hpj))).2
  rw [← storesOf_type] at hst
  obtain ⟨s, hs, he⟩ := List.mem_map.1 hst
  refine List.mem_map.2 ⟨(contId c s.1, s.2), List.mem_map.2 ⟨s, hs, rfl⟩, ?_⟩
  simp only [he]

theorem directOwn {inp : Input K} {m : Wire.Model K} (hd : Spec.Distinct inp) (h : build inp = .ok m) (ext : ℕ → ℕ → K) :
    DirectOwn (asm inp m ext) := by
  intro u hu b hb
  obtain ⟨uu, huu, rfl⟩ := List.mem_map.1 hu
  obtain ⟨ib, hib, rfl⟩ := List.mem_map.1 hb
  have h2 := mem_unitBricks_of (List.mem_filter.1 hib).1
  exact own_mkBrick (brickOK hd h (brickOf_unit (mem_zipIdx' huu) h2)) _ _ _

/-- What the solver handles. -/
theorem mem_solver {inp : Input K} {m : Wire.Model K} {ext : ℕ → ℕ → K} {b : HB.Brick} (hb : b ∈ (asm inp m ext).solver) :
    ∃ c wb, b = mkBrick m.net c wb false ∧ Spec.brickOf inp c = some wb ∧
      ((∃ u un i, c = .unitBrick u i ∧ inp.units[u]? = some un ∧ un.str.unitBricks[i]? = some wb ∧ ¬ Spec.Direct wb) ∨
        ∃ i, c = .basinBrick i) := by
  rcases List.mem_append.1 hb with hb | hb
  · obtain ⟨uu, huu, hb⟩ := List.mem_flatMap.1 hb
    obtain ⟨ib, hib, rfl⟩ := List.mem_map.1 hb
    obtain ⟨h1, h2⟩ := List.mem_filter.1 hib
    have h3 := mem_unitBricks_of h1
    refine ⟨_, _, rfl, brickOf_unit (mem_zipIdx' huu) h3, .inl ⟨_, _, _, rfl, mem_zipIdx' huu, h3, fun hh => ?_⟩⟩
    have := (isDirect_iff _).2 hh
    simp [this] at h2
  · obtain ⟨bi, hbi, rfl⟩ := List.mem_map.1 hb
    exact ⟨_, _, rfl, mem_zipIdx' hbi, .inr ⟨_, rfl⟩⟩

theorem stageOK {inp : Input K} {m : Wire.Model K} (hd : Spec.Distinct inp) (h : build inp = .ok m) (hf : Spec.Forward inp)
    (hs : Spec.Stageable inp) (ext : ℕ → ℕ → K) : StageOK (asm inp m ext) := by
  refine ⟨?_, ?_, ?_⟩
  · intro b hb c hc
    obtain ⟨c', wb, rfl, hbo, hkind⟩ := mem_solver hb
    obtain ⟨s, hs', rfl⟩ := List.mem_map.1 hc
    refine storesOf_static wb ?_ s hs'
    rcases hkind with ⟨u, un, i, rfl, hu, hwb, hnd⟩ | ⟨i, rfl⟩
    · intro ht
      exact hnd (.inl (by rw [ht]; decide))
    · exact hs.noSnow wb (List.mem_of_getElem? hbo)
  · intro b hb
    obtain ⟨c', wb, rfl, hbo, _⟩ := mem_solver hb
    exact own_mkBrick (brickOK hd h hbo) _ _ _
  · intro k hk
    obtain ⟨b, hb, hk⟩ := List.mem_flatMap.1 hk
    obtain ⟨c', wb, rfl, hbo, hkind⟩ := mem_solver hb
    have hblk := block_mkBrick inp m.net hbo false
    have hk' : k ∈ wr inp m.net c' := by
      have := congrArg Block.writes hblk
      simp only [Brick.block] at this
      rw [← this]; exact hk
    obtain ⟨f, hfk, hsrc⟩ := (mem_wr hd h).1 hk'
    rw [flux_some hfk]
    change f.inst = false
    cases kinds hd h hf.noLateral (List.mem_of_getElem? hfk) with
    | @unit u un i b p o hs1 ho hp hw =>
      cases hin : f.inst with
      | false => rfl
      | true =>
        have hoi := (hw.inst.1 hin).1
        rw [hs1] at hsrc
        rcases hkind with ⟨u', un', i', rfl, hu', hwb', hnd⟩ | ⟨i', rfl⟩
        · cases hsrc
          have e1 := ho.1
          have e2 := ho.2.1
          rw [hu'] at e1; cases e1
          rw [hwb'] at e2; cases e2
          rw [hs.units _ _ _ _ _ ho hnd] at hoi
          cases hoi
        · cases hsrc
    | unitAir _ _ _ _ ha => exact ha.inst
    | basin _ ho _ hw =>
      cases hin : f.inst with
      | false => rfl
      | true => exact absurd (hw.inst hin).1 (by simp [hs.basin _ _ _ ho])
    | basinAir _ _ _ ha => exact ha.inst
    | split _ _ _ hw => exact hw.inst
    | basinSplit hs1 _ hw =>
      rw [hs1] at hsrc
      rcases hkind with ⟨u', un', i', rfl, _⟩ | ⟨i', rfl⟩ <;> cases hsrc

/-! ## Areas -/

/-- The balance of the system. -/
def geo (inp : Input K) (m : Wire.Model K) (ext : ℕ → ℕ → K) (s0 : Phys K) : Spec.Geo K where
  C := sysC inp ext s0
  A := fun n => Spec.areaOf inp ext (compOf n)
  tA := fun k => (m.net.outs[k]?).elim 0 (Spec.fluxArea inp ext)

theorem scale_eq {fs : FluxSpec K} (h : fs.frac ≤ 1) (x : K) : fs.scale x = x * fs.frac := by
  unfold FluxSpec.scale
  rcases h.lt_or_eq with h | h
  · simp [h, h.ne]
  · simp [h]

theorem unit_le {inp : Input K} {ext : ℕ → ℕ → K} (ha : Spec.AreasFit inp ext) {u : ℕ} {un : UnitIn K}
    (hu : inp.units[u]? = some un) : 0 < un.area ∧ 0 < Spec.basinArea inp ∧ un.area ≤ Spec.basinArea inp := by
  have hm := List.mem_of_getElem? hu
  have h1 := ha.positive un hm
  have h2 : un.area ≤ Spec.basinArea inp := by
    unfold Spec.basinArea
    exact List.single_le_sum (fun x hx => by
      obtain ⟨v, hv, rfl⟩ := List.mem_map.1 hx
      exact (ha.positive v hv).le) _ (List.mem_map_of_mem hm)
  exact ⟨h1, h1.trans_le h2, h2⟩

theorem extent_le {inp : Input K} {ext : ℕ → ℕ → K} (ha : Spec.AreasFit inp ext) (c : Comp) :
    0 ≤ Spec.extent inp ext c ∧ Spec.extent inp ext c ≤ 1 := by
  have h1 : (0 : K) ≤ 1 ∧ (1 : K) ≤ 1 := ⟨zero_le_one, le_rfl⟩
  cases c with
  | unitBrick u i =>
    cases hu : inp.units[u]? with
    | none => simp only [Spec.extent, hu]; exact h1
    | some un =>
      cases hb : un.str.unitBricks[i]? with
      | none => simp only [Spec.extent, hu, hb]; exact h1
      | some b =>
        rw [extent_unit hu hb]
        split
        · rename_i ht
          exact ha.fraction u un hu i b hb ht
        · split
          · split
            · rename_i k hk
              obtain ⟨b', hb', ht⟩ := ha.parents u un hu i k hk
              exact ha.fraction u un hu k b' hb' ht
            · exact h1
          · exact h1
  | _ => exact h1

theorem area_nonneg {inp : Input K} {ext : ℕ → ℕ → K} (ha : Spec.AreasFit inp ext) (c : Comp) : 0 ≤ Spec.areaOf inp ext c := by
  have hT : 0 ≤ Spec.basinArea inp := by
    unfold Spec.basinArea
    refine List.sum_nonneg fun x hx => ?_
    obtain ⟨v, hv, rfl⟩ := List.mem_map.1 hx
    exact (ha.positive v hv).le
  cases c with
  | unitBrick u i =>
    refine mul_nonneg ?_ (extent_le ha _).1
    cases hu : inp.units[u]? with
    | none => exact le_rfl
    | some un => exact (unit_le ha hu).1.le
  | unitSplit u i =>
    cases hu : inp.units[u]? with
    | none => simp [Spec.areaOf, hu]
    | some un => simpa [Spec.areaOf, hu] using (unit_le ha hu).1.le
  | basinBrick i => exact hT
  | basinSplit i => exact hT

theorem brickNamed_brickOf {inp : Input K} {u : ℕ} {un : UnitIn K} (hu : inp.units[u]? = some un) {t : String} {c : Comp}
    {b : Wire.Brick} (h : Spec.BrickNamed inp u un t c b) : Spec.brickOf inp c = some b := by
  cases h with
  | own h1 h2 => exact brickOf_unit hu h1
  | basin h1 h2 h3 => exact h2

/-- The volume a unit flux releases is the volume it delivers. -/
theorem conserve_unit {inp : Input K} {ext : ℕ → ℕ → K} (hd : Spec.Distinct inp) (ha : Spec.AreasFit inp ext) {f : Wire.Flux K}
    {u i : ℕ} {un : UnitIn K} {b : Wire.Brick} {o : Out} (hs : f.src = .unitBrick u i) (ho : Spec.UnitOutput inp u un i b o)
    (hw : Spec.Wired inp u un b o f) (x : K) :
    Spec.fluxArea inp ext f * (fluxSpec inp ext f).scale x = Spec.areaOf inp ext f.src * x := by
  have hu := ho.1
  have hb := ho.2.1
  have hum := List.mem_of_getElem? hu
  obtain ⟨ap, tp, le⟩ := unit_le ha hu
  have hfrac : (fluxSpec inp ext f).frac = f.unitFrac * if f.weighted then landFrac inp ext f.src else 1 := rfl
  have hland : landFrac inp ext f.src = if b.type ∈ Spec.coverTypes then ext u i else 1 := by
    rw [hs]
    unfold landFrac
    simp only [hu, Option.bind_some, hb]
    by_cases hc : b.type ∈ Spec.coverTypes
    · simp [hc, (isCover_type b).2 hc]
    · have : isCover (clsOf b) = false := by
        cases hh : isCover (clsOf b) with
        | false => rfl
        | true => exact absurd ((isCover_type b).1 hh) hc
      simp [hc, this]
  have hsrc : Spec.areaOf inp ext f.src = un.area * Spec.extent inp ext (.unitBrick u i) := by
    rw [hs]; simp [Spec.areaOf, hu]
  have hext := extent_unit (ext := ext) hu hb
  set e := Spec.extent inp ext (.unitBrick u i) with he
  have hle := extent_le ha (.unitBrick u i)
  rw [← he] at hle
  -- extent of the destination
  let dext : K := match f.dst with
    | .comp c => Spec.extent inp ext c
    | _ => 1
  -- the weight follows the extents
  have hweight : (if f.weighted then landFrac inp ext f.src else 1) * dext = e := by
    by_cases hfr : b.type ∈ Spec.fractionTypes
    · by_cases hwt : f.weighted = true
      · have h1 := (hw.weighted.1 hwt).2
        have hd1 : dext = 1 := by
          simp only [dext]
          cases hdst : f.dst with
          | outlet => rfl
          | atmosphere => rfl
          | comp c =>
            have hden := hw.dest
            rw [hdst] at hden
            cases hden with
            | brick h2 h3 =>
              have h4 := h1 c _ hdst h3
              rw [fraction_iff, not_or] at h4
              cases h3 with
              | own h5 h6 => simp only [extent_unit hu h5, h4.1, h4.2, if_false]
              | basin h5 h6 h7 => rfl
            | split h2 h3 h4 => cases h4 <;> rfl
        rw [hd1, mul_one, if_pos hwt, hland]
        by_cases hc : b.type ∈ Spec.coverTypes
        · rw [if_pos hc, hext, if_pos hc]
        · rw [if_neg hc]
          have hsf : b.type ∈ Spec.surfaceTypes := ((fraction_iff _).1 hfr).resolve_left hc
          refine (ha.surface u un i b o ho hsf ?_).symm
          by_cases hout : o.target = "outlet"
          · exact .inl hout
          · refine .inr fun c b' hb' => ?_
            refine h1 c b' ?_ hb'
            have hden := hw.dest
            cases hdst : f.dst with
            | outlet => rw [hdst] at hden; cases hden; exact absurd (by assumption) hout
            | atmosphere => rw [hdst] at hden; cases hden
            | comp c' =>
              rw [hdst] at hden
              cases hden with
              | brick h2 h3 => rw [(brickNamed_unique hd hum h3 hb').1]
              | split h2 h3 h4 => exact (h3 _ _ hb').elim
      · rw [if_neg (by simpa using hwt), one_mul]
        have : ∃ c b', f.dst = .comp c ∧ Spec.BrickNamed inp u un o.target c b' ∧ b'.type ∈ Spec.fractionTypes := by
          by_contra hno
          push Not at hno
          exact hwt (hw.weighted.2 ⟨hfr, fun c b' h1 h2 => hno c b' h1 h2⟩)
        obtain ⟨c, b', h1, h2, h3⟩ := this
        have hout : o.target ≠ "outlet" := by
          have hden := hw.dest
          rw [h1] at hden
          cases hden <;> assumption
        have := ha.agree u un i b o ho hout c b' h2 h3
        simp only [dext, h1]
        exact this.symm
    · have hwt : ¬ f.weighted = true := fun hh => hfr (hw.weighted.1 hh).1
      rw [if_neg hwt, one_mul]
      have hn := hfr
      rw [fraction_iff, not_or] at hn
      have he1 : e = 1 := by rw [hext]; simp only [hn.1, hn.2, if_false]
      rw [he1]
      simp only [dext]
      cases hdst : f.dst with
      | outlet => rfl
      | atmosphere => rfl
      | comp c =>
        have hden := hw.dest
        rw [hdst] at hden
        cases hden with
        | brick h2 h3 =>
          rename_i b'
          by_cases hfb : b'.type ∈ Spec.fractionTypes
          · rw [← he1]; exact (ha.agree u un i b o ho h2 c _ h3 hfb).symm
          · rw [fraction_iff, not_or] at hfb
            cases h3 with
            | own h5 h6 => simp only [extent_unit hu h5, hfb.1, hfb.2, if_false]
            | basin h5 h6 h7 => rfl
        | split h2 h3 h4 => cases h4 <;> rfl
  -- the unit fraction follows the areas
  have hunit : Spec.fluxArea inp ext f * f.unitFrac = un.area * dext := by
    have hT : Spec.basinArea inp * (un.area / (inp.units.map (·.area)).sum) = un.area := by
      have : Spec.basinArea inp ≠ 0 := tp.ne'
      unfold Spec.basinArea at this ⊢
      field_simp
    unfold Spec.fluxArea
    simp only [dext]
    cases hdst : f.dst with
    | outlet => simp only [mul_one]; rw [hw.leaving (by rw [hdst]; trivial)]; exact hT
    | atmosphere =>
      have hden := hw.dest
      rw [hdst] at hden
      cases hden
    | comp c =>
      cases c with
      | unitBrick v j =>
        have : v = u := by
          have hden := hw.dest
          rw [hdst] at hden
          cases hden with
          | brick h2 h3 => cases h3; rfl
          | split h2 h3 h4 => cases h4
        subst this
        rw [hw.staying (by rw [hdst]; exact id), mul_one]
        simp [Spec.areaOf, hu]
      | unitSplit v j =>
        have : v = u := by
          have hden := hw.dest
          rw [hdst] at hden
          cases hden with
          | brick h2 h3 => cases h3
          | split h2 h3 h4 => cases h4; rfl
        subst this
        rw [hw.staying (by rw [hdst]; exact id), mul_one]
        simp [Spec.areaOf, hu, Spec.extent]
      | basinBrick j =>
        rw [hw.leaving (by rw [hdst]; trivial)]
        simp only [Spec.areaOf, Spec.extent, mul_one]
        exact hT
      | basinSplit j =>
        rw [hw.leaving (by rw [hdst]; trivial)]
        simp only [Spec.areaOf, Spec.extent, mul_one]
        exact hT
  have hfle : (fluxSpec inp ext f).frac ≤ 1 := by
    rw [hfrac]
    have h1 : 0 ≤ f.unitFrac ∧ f.unitFrac ≤ 1 := by
      by_cases hl : Spec.LeavesUnit f.dst
      · rw [hw.leaving hl]
        change 0 ≤ un.area / Spec.basinArea inp ∧ un.area / Spec.basinArea inp ≤ 1
        exact ⟨div_nonneg ap.le tp.le, (div_le_one tp).2 le⟩
      · rw [hw.staying hl]; exact ⟨zero_le_one, le_rfl⟩
    have h2 : (if f.weighted then landFrac inp ext f.src else 1) ≤ (1 : K) := by
      split
      · rw [hland]
        split
        · rename_i hc
          exact (ha.fraction u un hu i b hb hc).2
        · exact le_rfl
      · exact le_rfl
    exact (mul_le_mul_of_nonneg_left h2 h1.1).trans (by rw [mul_one]; exact h1.2)
  rw [scale_eq hfle, hfrac, hsrc, ← hweight]
  calc Spec.fluxArea inp ext f * (x * (f.unitFrac * if f.weighted then landFrac inp ext f.src else 1))
      = (Spec.fluxArea inp ext f * f.unitFrac) * (x * if f.weighted then landFrac inp ext f.src else 1) := by ring
    _ = _ := by rw [hunit]; ring

end Asm

end HB
