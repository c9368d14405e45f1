import Verif.Spec.Precip
import Verif.Model.PrecipTime
import Verif.Model.PredefinedRun

/-! # What comes in and goes out, in terms of precipitation, evapotranspiration and inexhaustible stores. -/

set_option linter.unusedSectionVars false
set_option linter.unusedSimpArgs false

namespace HB.Wire

open HB.Names

variable {K : Type} [Field K] [LinearOrder K] [IsStrictOrderedRing K]

/-- The destination is a splitter. -/
def toSplit : Dest → Bool
  | .comp (.unitSplit _ _) => true
  | .comp (.basinSplit _) => true
  | _ => false

/-- The source is a splitter. -/
def isSplit : Comp → Bool
  | .unitSplit _ _ => true
  | .basinSplit _ => true
  | _ => false

section
variable {inp : Input K} (hd : Spec.Described inp)
include hd

/-- A brick that does not exist has no area at all. -/
theorem no_area {ext : ℕ → ℕ → K} (hcov : Spec.Covered inp ext) {c : Comp} {b : Brick} (hb : Spec.brickOf inp c = some b)
    (hn : ¬ Spec.Exists inp ext c) : Spec.areaOf inp ext c = 0 := by
  cases c with
  | basinBrick i => exact absurd (Asm.basin_exists inp ext i) hn
  | unitSplit u i => cases hb
  | basinSplit i => cases hb
  | unitBrick u i =>
    obtain ⟨un, hu, hb⟩ := Option.bind_eq_some_iff.1 hb
    obtain ⟨v, hg, hs, -⟩ := unit_good hd hu
    have hb' := hb
    rw [hs] at hb'
    have key : ∀ k, k < nc v → Spec.extent inp ext (.unitBrick u i) = ext u k → Spec.areaOf inp ext (.unitBrick u i) = 0 := by
      intro k hk he
      unfold Spec.Exists at hn
      rw [he] at hn
      have : ext u k = 0 := by
        rcases hcov.clear u un hu k (by rw [hs, complete_covers]; exact List.mem_range.2 hk) with h | h
        · exact h
        · exact absurd (lt_of_lt_of_le h (le_abs_self _)) hn
      simp only [Spec.areaOf, he, this, mul_zero]
    have pos : ∀ c ∈ v.base.covers, ∃ k, k < nc v ∧ v.base.covers[k]? = some c := fun c hc => by
      obtain ⟨k, hk⟩ := List.mem_iff_getElem?.1 hc
      exact ⟨k, (List.getElem?_eq_some_iff.1 hk).1, hk⟩
    cases sort_of hg hb' with
    | cover c h1 h2 => exact key i h1 (extent_cover hd hg hu hs h2)
    | canopy c h1 h2 hc hcc he =>
      subst he
      obtain ⟨k, hk, hk'⟩ := pos c hc
      exact key k hk (extent_surface hd hg hu hs h1 (by omega) hb' rfl hk' (by change "interception_storage" ∈ _; decide))
    | snow c h1 h2 hw hc he =>
      subst he
      obtain ⟨k, hk, hk'⟩ := pos c hc
      exact key k hk (extent_surface hd hg hu hs (by omega) h2 hb' rfl hk' (by change "snowpack" ∈ _; decide))
    | storage k it h1 h2 h3 h4 he =>
      subst he
      exfalso
      apply hn
      unfold Spec.Exists
      have h5 : (Spec.storageOf it).type = "storage" := (hg.plan.storages it h3 (by rw [h4]; decide)).1
      rw [Asm.extent_unit hu hb, h5, if_neg (by decide), if_neg (by decide), abs_one]
      exact Asm.prec_lt_one

/-- A brick that takes a content has a store for it. -/
theorem takes_store {t : String} {k : Content} (h : Spec.Takes t k) :
    (if k = .snow then Store.snow else if k = .ice then .ice else .water) ∈ Spec.storesOfType t := by
  rcases h with rfl | ⟨rfl, rfl⟩ | ⟨rfl, rfl⟩
  · unfold Spec.storesOfType
    split <;> [decide; (split <;> decide)]
  · decide
  · decide

variable {m : Wire.Model K} (hb : build inp = .ok m) {ext : ℕ → ℕ → K} (hcov : Spec.Covered inp ext)
include hb

theorem named_store {u : ℕ} {un : UnitIn K} (hu : inp.units[u]? = some un) {o : Out} (hok : Spec.NamedOK inp u un o)
    {c : Comp} {b : Brick} (hn : Spec.BrickNamed inp u un o.target c b) : Spec.brickOf inp c = some b ∧ Spec.Takes b.type o.content := by
  have hd' := described_distinct hd
  constructor
  · cases hn with
    | own h1 h2 => simp [Spec.brickOf, hu, h1]
    | basin h0 h1 h2 => exact h1
  · rcases hok with ⟨c', b', h1, h2⟩ | ⟨h0, -⟩
    · obtain ⟨rfl, rfl⟩ := brickNamed_unique hd' (List.mem_of_getElem? hu) hn h1
      exact h2
    · exact absurd hn (h0 c b)

include hcov

/-- Where a flux comes from and where it goes. -/
theorem ends (hnr : Spec.NoRedistribution inp) {k : ℕ} {f : Flux K} (hf : m.net.outs[k]? = some f) {ph : Phys K}
    (hi : Asm.Idle inp m ext ph) :
    ((Spec.sourceOf inp f = none ∧ isSplit f.src = true) ∨
      (∃ x, Spec.sourceOf inp f = some x ∧ isSplit f.src = false ∧ toSplit f.dst = false ∧ (x ∈ Spec.stores inp ext ∨ ph.amt k = 0))) ∧
    ((f.dst = .outlet ∧ Spec.targetOf f = none) ∨ (f.dst = .atmosphere ∧ isSplit f.src = false ∧ Spec.targetOf f = none) ∨
      (toSplit f.dst = true ∧ Spec.targetOf f = none ∧ ∃ c, f.dst = .comp c) ∨
      ∃ x c, Spec.targetOf f = some x ∧ f.dst = .comp c ∧ toSplit f.dst = false ∧ (x ∈ Spec.stores inp ext ∨ Spec.fluxArea inp ext f = 0)) := by
  have hd' := described_distinct hd
  have hwf := (c57_builds_iff hd').1 ⟨m, hb⟩
  have hfm := List.mem_of_getElem? hf
  -- sources
  have hsrc : ∀ (b : Brick) (p : Proc), Spec.brickOf inp f.src = some b → b.procs[f.proc]? = some p →
      ∃ x, Spec.sourceOf inp f = some x ∧ (x ∈ Spec.stores inp ext ∨ ph.amt k = 0) := by
    intro b p h1 h2
    refine ⟨(f.src, Spec.drawsFrom b p), by simp [Spec.sourceOf, h1, h2], ?_⟩
    by_cases he : Spec.Exists inp ext f.src
    · have h3 := Asm.procStore_eq (Asm.brickOK hd' hb h1) (List.mem_of_getElem? h2)
      exact .inl (Asm.mem_stores.2 ⟨he, b, h1, h3.1 ▸ h3.2⟩)
    · exact .inr (hi k (Asm.mem_stuckF.2 ⟨f, hf, fun ho => he ((Asm.brick_order hd' hb ext h1).1 ho)⟩))
  -- bricks as destinations
  have hdst : ∀ (c : Comp) (b : Brick), f.dst = .comp c → Spec.brickOf inp c = some b → Spec.Takes b.type f.content →
      ∃ x c, Spec.targetOf f = some x ∧ f.dst = .comp c ∧ toSplit f.dst = false ∧ (x ∈ Spec.stores inp ext ∨ Spec.fluxArea inp ext f = 0) := by
    intro c b h1 h2 h3
    refine ⟨(c, if f.content = .snow then .snow else if f.content = .ice then .ice else .water), c, ?_, h1, ?_, ?_⟩
    · cases c <;> first | (cases h2; done) | simp only [Spec.targetOf, h1]
    · cases c <;> first | (cases h2; done) | simp only [toSplit, h1]
    · by_cases he : Spec.Exists inp ext c
      · exact .inl (Asm.mem_stores.2 ⟨he, b, h2, takes_store hd h3⟩)
      · refine .inr ?_
        unfold Spec.fluxArea
        rw [h1]
        exact no_area hd hcov h2 he
  have hsplit : ∀ (u : ℕ) (un : UnitIn K) (t : String), Spec.Denotes inp u un t f.dst → f.dst = .outlet ∨ (∃ c b, f.dst = .comp c ∧ Spec.BrickNamed inp u un t c b) ∨
      (toSplit f.dst = true ∧ Spec.targetOf f = none ∧ (∃ c, f.dst = .comp c) ∧ ∀ c b, ¬ Spec.BrickNamed inp u un t c b) := by
    intro u un t h1
    unfold Spec.targetOf
    revert h1
    cases f.dst with
    | outlet => intro _; exact .inl rfl
    | atmosphere => intro h; cases h
    | comp c =>
      intro h
      cases h with
      | brick h1 h2 => exact .inr (.inl ⟨_, _, rfl, h2⟩)
      | split h1 h2 h3 => cases h3 <;> exact .inr (.inr ⟨rfl, rfl, ⟨_, rfl⟩, h2⟩)
  have hout : f.dst = .outlet → f.dst = .outlet ∧ Spec.targetOf f = none := fun h => ⟨h, by simp [Spec.targetOf, h]⟩
  have hlat : ∀ u un i b o, Spec.UnitOutput inp u un i b o → o.target ≠ "lateral" := (described_forward hd hnr).noLateral
  cases Asm.kinds hd' hb hlat hfm with
  | @unit u un i b p o hs ho hp hw =>
    have hbo : Spec.brickOf inp f.src = some b := by rw [hs]; simp [Spec.brickOf, ho.1, ho.2.1]
    obtain ⟨x, hx1, hx2⟩ := hsrc b p hbo hp
    have hwfo := hwf.units u un ho.1
    obtain ⟨hu, hbb, q, hq, hqa, hoq⟩ := ho
    have hnamed : o.target ≠ "outlet" → Spec.NamedOK inp u un o := by
      intro hne
      rcases hwfo.outs b (List.mem_of_getElem? hbb) q hq hqa o hoq with h | ⟨h, -⟩ | ⟨-, h⟩
      · exact absurd h hne
      · exact absurd h (hlat u un i b o ⟨hu, hbb, q, hq, hqa, hoq⟩)
      · exact h
    -- a brick is named
    obtain ⟨v, hg, hsv, -⟩ := unit_good hd hu
    have hname : o.target = "outlet" ∨ ∃ c b', Spec.BrickNamed inp u un o.target c b' := by
      have hcover : ∀ c ∈ v.base.covers, ∃ c' b', Spec.BrickNamed inp u un c.name c' b' := by
        intro c hc
        obtain ⟨j, b', -, -, hj, hn, -⟩ := cover_at hc
        exact ⟨_, b', .own (by rw [hsv]; exact hj) hn⟩
      have hsnow : v.base.withSnow = true → ∀ c ∈ v.base.covers, ∃ c' b', Spec.BrickNamed inp u un (c.name ++ "_snowpack") c' b' := by
        intro hw c hc
        obtain ⟨j, -, -, hj⟩ := snow_at hg hw hc
        exact ⟨_, _, .own (by rw [hsv]; exact hj) rfl⟩
      rcases unit_output hd hnr ⟨hu, hbb, q, hq, hqa, hoq⟩ hg hsv with ⟨-, -, hr⟩ | ⟨c, k', -, -, hk', -, -, h1 | ⟨hw, h1⟩⟩ | ⟨c, k', h3, h4, hk', -, h1 | ⟨h1, -⟩⟩ |
        ⟨k', it, -, -, -, -, -, h1 | ⟨k'', it', -, hk'', h1, -⟩⟩
      · obtain ⟨c', b', hn, -⟩ := reaches hd hg hsv (u := u) hr
        exact .inr ⟨c', b', hn⟩
      · rw [h1]; exact .inr (hcover c (List.mem_of_getElem? hk'))
      · rw [h1]; exact .inr (hsnow hw c (List.mem_of_getElem? hk'))
      · rw [h1]; exact .inr (hcover c (List.mem_of_getElem? hk'))
      · have hw : v.base.withSnow = true := by
          by_contra hw
          simp only [nw, hw] at h4
          simp at h4
          omega
        rw [h1]; exact .inr (hsnow hw c (List.mem_of_getElem? hk'))
      · exact .inl h1
      · exact .inr ⟨_, _, .own (by rw [hsv]; exact storage_get hk'') h1⟩
    have hbrick : isSplit f.src = false := by rw [hs]; rfl
    rcases hsplit u un o.target hw.dest with h1 | ⟨c, b', h1, h2⟩ | ⟨h1, h2, ⟨c, hc⟩, h3⟩
    · exact ⟨.inr ⟨x, hx1, hbrick, by simp [toSplit, h1], hx2⟩, .inl (hout h1)⟩
    · have hne : o.target ≠ "outlet" := by
        have := hw.dest
        rw [h1] at this
        cases this <;> assumption
      obtain ⟨h4, h5⟩ := named_store hd hb hu (hnamed hne) h2
      obtain ⟨y, c', hy1, hy2, hy3, hy4⟩ := hdst c b' h1 h4 (by rw [hw.content]; exact h5)
      exact ⟨.inr ⟨x, hx1, hbrick, hy3, hx2⟩, .inr (.inr (.inr ⟨y, c', hy1, hy2, hy3, hy4⟩))⟩
    · exfalso
      rcases hname with hne | ⟨c', b', hn⟩
      · have := hw.dest
        rw [hc] at this
        cases this <;> contradiction
      · exact h3 c' b' hn
  | @unitAir u un i b p hs hu hbb hp hair =>
    have hbo : Spec.brickOf inp f.src = some b := by rw [hs]; simp [Spec.brickOf, hu, hbb]
    obtain ⟨x, hx1, hx2⟩ := hsrc b p hbo hp
    have hbrick : isSplit f.src = false := by rw [hs]; rfl
    exact ⟨.inr ⟨x, hx1, hbrick, by simp [toSplit, hair.dest], hx2⟩, .inr (.inl ⟨hair.dest, hbrick, by simp [Spec.targetOf, hair.dest]⟩)⟩
  | @basin i b p o hs ho hp hw =>
    have hbo : Spec.brickOf inp f.src = some b := by rw [hs]; exact ho.1
    obtain ⟨x, hx1, hx2⟩ := hsrc b p hbo hp
    have hbrick : isSplit f.src = false := by rw [hs]; rfl
    have h1 := (basin_output hd ho).1
    have h2 : f.dst = .outlet := by
      have := hw.dest
      revert this
      cases f.dst with
      | outlet => intro _; rfl
      | atmosphere => intro h; cases h
      | comp c => intro h; cases h <;> contradiction
    exact ⟨.inr ⟨x, hx1, hbrick, by simp [toSplit, h2], hx2⟩, .inl (hout h2)⟩
  | @basinAir i b p hs hbb hp hair =>
    have hbo : Spec.brickOf inp f.src = some b := by rw [hs]; exact hbb
    obtain ⟨x, hx1, hx2⟩ := hsrc b p hbo hp
    have hbrick : isSplit f.src = false := by rw [hs]; rfl
    exact ⟨.inr ⟨x, hx1, hbrick, by simp [toSplit, hair.dest], hx2⟩, .inr (.inl ⟨hair.dest, hbrick, by simp [Spec.targetOf, hair.dest]⟩)⟩
  | @split u un i s o hs hu hsp _ =>
    have h0 : f.proc = 0 := by
      rcases c57_only_declared hd' hb f hfm with ⟨_, _, _, _, _, h, _⟩ | ⟨_, _, _, _, _, h, _⟩ | ⟨_, _, _, h, _⟩ | ⟨_, _, h, _⟩
      · rw [hs] at h; cases h
      · exact h
      · rw [hs] at h; cases h
      · rw [hs] at h; cases h
    have hmem : f ∈ m.net.outputs (.unitSplit u i) 0 := List.mem_filter.2 ⟨hfm, by simp [hs, h0]⟩
    obtain ⟨o, ho, hw⟩ := Asm.forall₂_mem (c57_splitter_outputs hd' hb hu hsp) hmem
    refine ⟨.inl ⟨by simp [Spec.sourceOf, hs, Spec.brickOf], by rw [hs]; rfl⟩, ?_⟩
    rcases hsplit u un o.target hw.dest with h1 | ⟨c, b', h1, h2⟩ | ⟨h1, h2, h3, -⟩
    · exact .inl (hout h1)
    · have hne : o.target ≠ "outlet" := by
        have := hw.dest
        rw [h1] at this
        cases this <;> assumption
      have hok : Spec.NamedOK inp u un o := by
        rcases (hwf.units u un hu).splitOuts s (List.mem_of_getElem? hsp) o ho with h | h
        · exact absurd h hne
        · exact h
      obtain ⟨h4, h5⟩ := named_store hd hb hu hok h2
      exact .inr (.inr (.inr (hdst c b' h1 h4 (by rw [hw.content]; exact h5))))
    · exact .inr (.inr (.inl ⟨h1, h2, h3⟩))
  | basinSplit hs hsp hw =>
    rw [basin_splits hd] at hsp
    simp at hsp

omit hb hcov hd in
theorem system_endless (s0 : Phys K) {x : Comp × Store} (hx : x ∈ Spec.stores inp ext) :
    Spec.inside (Spec.system inp ext s0) (some x) = !Spec.inside (Spec.endless inp ext s0) (some x) := by
  simp only [Spec.inside, Option.elim, Spec.system, Spec.endless, List.mem_filter, hx, true_and]
  cases (s0.cont (Asm.contId x.1 x.2)).infinite <;> simp

/-- Fluxes handed out by the splitters to bricks or to the outlet. -/
def handedOut (f : Flux K) : Bool := isSplit f.src && !toSplit f.dst

omit hb hcov hd in
theorem sum_map_add' {α : Type} (l : List α) (f g : α → K) : (l.map f).sum + (l.map g).sum = (l.map fun a => f a + g a).sum := by
  induction l with
  | nil => simp
  | cons a l ih => simp only [List.map_cons, List.sum_cons, ← ih]; ring

/-- What comes in less what is lost elsewhere than at the outlet. -/
theorem flow_identity (hnr : Spec.NoRedistribution inp) (s0 : Phys K) {ph : Phys K} (hi : Asm.Idle inp m ext ph) :
    Spec.inflow inp ext m (Spec.system inp ext s0) ph - Spec.losses inp ext m (Spec.system inp ext s0) ph =
      Spec.volumeOf inp ext m handedOut ph + Spec.supplied inp ext m (Spec.endless inp ext s0) ph - Spec.evaporated inp ext m ph := by
  unfold Spec.inflow Spec.losses Spec.supplied Spec.evaporated Spec.volumeOf
  rw [Asm.sum_map_sub, Asm.sum_map_sub, sum_map_add', Asm.sum_map_sub]
  congr 1
  apply List.map_congr_left
  intro e he
  have hf := Asm.mem_zipIdx' he
  obtain ⟨h1, h2⟩ := ends hd hb hcov hnr hf hi
  have hin : ∀ l, Spec.inside l (none : Option (Comp × Store)) = false := fun _ => rfl
  have zero : ∀ x, Spec.fluxArea inp ext e.1 * ph.amt e.2 = x → x = 0 →
      ∀ a b c d g : Bool, (if a then Spec.fluxArea inp ext e.1 * ph.amt e.2 else 0) - (if b then Spec.fluxArea inp ext e.1 * ph.amt e.2 else 0) =
        (if c then Spec.fluxArea inp ext e.1 * ph.amt e.2 else 0) + ((if d then Spec.fluxArea inp ext e.1 * ph.amt e.2 else 0) -
          (if g then Spec.fluxArea inp ext e.1 * ph.amt e.2 else 0)) - 0 := by
    intro x h1 h2 a b c d g
    rw [h1, h2]
    simp
  rcases h1 with ⟨h1, h3⟩ | ⟨x, h1, h3, h4, hx | hx⟩
  · rcases h2 with ⟨h2, h5⟩ | ⟨h2, h5, h6⟩ | ⟨h2, h5, c, h6⟩ | ⟨y, c, h5, h6, h7, hy | hy⟩
    · simp [handedOut, h1, h3, h2, h5, hin, toSplit]
    · rw [h3] at h5; cases h5
    · simp [handedOut, h1, h3, h2, h5, h6, hin]
      rw [h6] at h2; simp [h2]
    · have hse := system_endless s0 hy
      cases hE : Spec.inside (Spec.endless inp ext s0) (some y) <;> rw [hE] at hse <;>
        simp [handedOut, h1, h3, h5, h6, hin, hse, hE] <;> rw [h6] at h7 <;> simp [h7]
    · simp [hy]
  · have hsx := system_endless s0 hx
    rcases h2 with ⟨h2, h5⟩ | ⟨h2, h5, h6⟩ | ⟨h2, h5, c, h6⟩ | ⟨y, c, h5, h6, h7, hy | hy⟩
    · cases hE : Spec.inside (Spec.endless inp ext s0) (some x) <;> rw [hE] at hsx <;>
        simp [handedOut, h1, h3, h2, h5, hin, hsx, hE]
    · cases hE : Spec.inside (Spec.endless inp ext s0) (some x) <;> rw [hE] at hsx <;>
        simp [handedOut, h1, h3, h2, h6, hin, hsx, hE]
    · rw [h2] at h4; cases h4
    · have hsy := system_endless s0 hy
      cases hE : Spec.inside (Spec.endless inp ext s0) (some x) <;> cases hE' : Spec.inside (Spec.endless inp ext s0) (some y) <;>
        rw [hE] at hsx <;> rw [hE'] at hsy <;> simp [handedOut, h1, h3, h5, h6, hin, hsx, hE, hsy, hE']
    · simp [hy]
  · simp [hx]

end

end HB.Wire
