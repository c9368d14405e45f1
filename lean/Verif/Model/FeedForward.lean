import Verif.Model.BalanceLemmas

/-!
# Feed-forward networks are sound

If every brick only feeds bricks processed after it, each released amount is booked by its target
exactly once before it is overwritten.
-/

namespace HB

set_option linter.unusedSectionVars false

open Spec

variable {K σ : Type} [Field K] [LinearOrder K] [IsStrictOrderedRing K]

/-- A block of the step: the containers whose inputs are booked, then the fluxes written. -/
structure Block where
  reads : List Nat
  writes : List Nat
  deriving DecidableEq

/-- Blocks of a brick. -/
def Brick.block (b : Brick) : Block := ⟨b.conts.map (·.1), b.outs⟩

/-- Blocks of the direct phase, in processing order: the splitters of a unit, then its bricks. -/
def Net.blocksDirect (net : Net K) : List Block :=
  net.units.flatMap (fun u => u.splitters.map (fun sp => ⟨[], sp.2⟩) ++
    (u.direct.filter (!·.null)).map Brick.block)

/-- Blocks of the solver. -/
def Net.blocksSolve (net : Net K) : List Block := net.solver.map Brick.block

/-- Blocks of a whole step. -/
def Net.blocks (net : Net K) : List Block := net.blocksDirect ++ net.blocksSolve

/-- `b'` (at or after `b`) does not feed `b` through a delayed flux. -/
def noFeed (net : Net K) (b b' : Block) : Prop :=
  ∀ f ∈ b'.writes, (net.flux f).inst = false → ∀ c ∈ b.reads, (net.flux f).target ≠ .cont c

instance (net : Net K) (b b' : Block) : Decidable (noFeed net b b') := by
  unfold noFeed; infer_instance

/-- Every block only feeds later blocks, containers are booked once, fluxes written once, and the
delayed inputs of the containers of the system are written (or given in `F`, or stuck at zero: `S`). -/
structure Ordered (net : Net K) (C S F : Finset Nat) (bl : List Block) : Prop where
  order : bl.Pairwise (noFeed net)
  self : ∀ b ∈ bl, noFeed net b b
  contsNodup : (bl.flatMap (·.reads)).Nodup
  writesNodup : (bl.flatMap (·.writes)).Nodup
  known : ∀ f ∈ bl.flatMap (·.writes), f ∈ net.fluxes ∧ f ∉ F ∧ f ∉ S
  inputs : ∀ c ∈ bl.flatMap (·.reads), c ∈ C → ∀ f ∈ net.inputs c, (net.flux f).inst = false →
    f ∈ F ∨ f ∈ S ∨ f ∈ bl.flatMap (·.writes)

/-- The schedule of a block (the kind of booking and the source containers are irrelevant here). -/
def Follows (bk : Block) (l : List Sh) : Prop :=
  ∃ i r w : List Sh, l = i ++ (r ++ w) ∧ (∀ sh ∈ i, ∃ c, sh = Sh.inj c) ∧
    (∃ kinds : List (Nat × Bool), kinds.map (·.1) = bk.reads ∧ r = kinds.map (fun c => Sh.read c.1 c.2)) ∧
    (w.filterMap Sh.write?).map Prod.snd = bk.writes ∧
    ∀ sh ∈ w, ∀ c st, sh ≠ Sh.read c st

theorem Sound.injs (net : Net K) (C S : Finset Nat) (i l : List Sh) (F : Finset Nat) (hi : ∀ sh ∈ i, ∃ c, sh = Sh.inj c) :
    (Sound net C S F (i ++ l) ↔ Sound net C S F l) ∧ runF net C F (i ++ l) = runF net C F l := by
  induction i with
  | nil => exact ⟨Iff.rfl, rfl⟩
  | cons sh i ih =>
    obtain ⟨c, rfl⟩ := hi sh (by simp)
    have := ih fun s hs => hi s (by simp [hs])
    exact ⟨⟨fun h => this.1.1 h.2, fun h => ⟨trivial, this.1.2 h⟩⟩, this.2⟩

theorem Sound.reads (net : Net K) (C S : Finset Nat) (kinds : List (Nat × Bool)) (F : Finset Nat)
    (hnd : (kinds.map (·.1)).Nodup)
    (h : ∀ c ∈ kinds.map (·.1), c ∈ C → ∀ f ∈ net.inputs c, (net.flux f).inst = false → f ∈ F ∨ f ∈ S) :
    Sound net C S F (kinds.map (fun c => Sh.read c.1 c.2)) ∧
    ∀ f, f ∈ runF net C F (kinds.map (fun c => Sh.read c.1 c.2)) ↔
      f ∈ F ∧ ∀ c ∈ kinds.map (·.1), (net.flux f).target ≠ .cont c := by
  induction kinds generalizing F with
  | nil => simp [Sound, runF]
  | cons k l ih =>
    simp only [List.map_cons, List.nodup_cons] at hnd
    have hh := ih (F.filter (fun f => (net.flux f).target ≠ .cont k.1)) hnd.2 (by
      intro c hc hC f hf hi
      have hne : c ≠ k.1 := fun e => hnd.1 (e ▸ hc)
      rcases h c (by simp at hc ⊢; exact Or.inr hc) hC f hf hi with h1 | h1
      · refine Or.inl (Finset.mem_filter.2 ⟨h1, ?_⟩)
        have : (net.flux f).target = .cont c := by simpa using (List.mem_filter.1 hf).2
        rw [this]; intro e; exact hne (Target.cont.inj e)
      · exact Or.inr h1)
    refine ⟨⟨?_, hh.1⟩, fun f => ?_⟩
    · intro hC f hf hi
      exact h k.1 (by simp) hC f hf hi
    · simp only [List.map_cons, runF, List.foldl_cons, nextF] at hh ⊢
      rw [hh.2 f, Finset.mem_filter]
      simp [and_assoc]

theorem Sound.writes (net : Net K) (C S : Finset Nat) (w : List Sh) (F : Finset Nat)
    (hr : ∀ sh ∈ w, ∀ c st, sh ≠ Sh.read c st)
    (hnd : ((w.filterMap Sh.write?).map Prod.snd).Nodup)
    (h : ∀ f ∈ (w.filterMap Sh.write?).map Prod.snd, f ∈ net.fluxes ∧ f ∉ F ∧ f ∉ S) :
    Sound net C S F w ∧
    ∀ f, f ∈ runF net C F w ↔
      f ∈ F ∨ (f ∈ (w.filterMap Sh.write?).map Prod.snd ∧ tracked net C f = true) := by
  induction w generalizing F with
  | nil => simp [Sound, runF]
  | cons sh l ih =>
    have hr' : ∀ sh ∈ l, ∀ c st, sh ≠ Sh.read c st := fun s hs => hr s (by simp [hs])
    have hmain : ∀ f0, sh.write?.map Prod.snd = some f0 → (∀ F, nextF net C F sh = if tracked net C f0 then insert f0 F else F) →
        (okEv net C S F sh ↔ (f0 ∈ net.fluxes ∧ f0 ∉ F ∧ f0 ∉ S)) →
        Sound net C S F (sh :: l) ∧ ∀ f, f ∈ runF net C F (sh :: l) ↔
          f ∈ F ∨ (f ∈ ((sh :: l).filterMap Sh.write?).map Prod.snd ∧ tracked net C f = true) := by
      intro f0 hw hn hok
      obtain ⟨q, hq, hq2⟩ := Option.map_eq_some_iff.1 hw
      rw [List.filterMap_cons, hq] at hnd h ⊢
      simp only [List.map_cons, hq2, List.nodup_cons, List.mem_cons, forall_eq_or_imp] at hnd h ⊢
      have hh := ih (nextF net C F sh) hr' hnd.2 (by
        intro f hf
        refine ⟨(h.2 f hf).1, ?_, (h.2 f hf).2.2⟩
        have hne : f ≠ f0 := fun e => hnd.1 (e ▸ hf)
        rw [hn]; split
        · simp [hne, (h.2 f hf).2.1]
        · exact (h.2 f hf).2.1)
      refine ⟨⟨hok.2 h.1, hh.1⟩, fun f => ?_⟩
      have : runF net C F (sh :: l) = runF net C (nextF net C F sh) l := rfl
      rw [this, hh.2 f, hn]
      by_cases ht : tracked net C f0 = true
      · simp only [ht, if_true, Finset.mem_insert]
        constructor
        · rintro ((rfl | h1) | h1)
          · exact Or.inr ⟨Or.inl rfl, ht⟩
          · exact Or.inl h1
          · exact Or.inr ⟨Or.inr h1.1, h1.2⟩
        · rintro (h1 | ⟨rfl | h1, h2⟩)
          · exact Or.inl (Or.inr h1)
          · exact Or.inl (Or.inl rfl)
          · exact Or.inr ⟨h1, h2⟩
      · simp only [ht]
        constructor
        · rintro (h1 | h1)
          · exact Or.inl (by simpa using h1)
          · exact Or.inr ⟨Or.inr h1.1, h1.2⟩
        · rintro (h1 | ⟨rfl | h1, h2⟩)
          · exact Or.inl (by simpa using h1)
          · exact absurd h2 ht
          · exact Or.inr ⟨h1, h2⟩
    cases sh with
    | ext f0 => exact hmain f0 rfl (fun _ => rfl) Iff.rfl
    | out src f0 => exact hmain f0 rfl (fun _ => rfl) Iff.rfl
    | read c st => exact absurd rfl (hr _ (by simp) c st)
    | inj c =>
      have hh := ih F hr' hnd h
      exact ⟨⟨trivial, hh.1⟩, hh.2⟩
    | fin c =>
      have hh := ih F hr' hnd h
      exact ⟨⟨trivial, hh.1⟩, hh.2⟩

/-- Blocks in order: the schedule is sound, and a flux still in transit at the end was in transit at
the start or tracked, and its target was never booked. -/
theorem Ordered.sound {net : Net K} {C S : Finset Nat} : ∀ (bl : List Block) (ls : List (List Sh))
    (F : Finset Nat), List.Forall₂ Follows bl ls → Ordered net C S F bl → FreshOK net C S F →
    Sound net C S F ls.flatten ∧
    ∀ f ∈ runF net C F ls.flatten, tracked net C f = true ∧
      ∀ c ∈ bl.flatMap (·.reads), (net.flux f).target ≠ .cont c := by
  intro bl
  induction bl with
  | nil =>
    intro ls F hf _ hF
    cases hf
    simp only [List.flatten_nil, Sound, runF, List.foldl_nil, List.flatMap_nil, List.not_mem_nil,
      false_implies, implies_true, and_true, true_and]
    exact fun f hf => (hF f hf).2.1
  | cons b bl ih =>
    intro ls F hf ho hF
    cases hf with
    | @cons _ l _ ls hb hbl =>
    obtain ⟨i, r, w, rfl, hinj, ⟨kinds, hk, rfl⟩, hw, hnr⟩ := hb
    have hcn := ho.contsNodup
    have hwn := ho.writesNodup
    simp only [List.flatMap_cons] at hcn hwn
    rw [List.nodup_append] at hcn hwn
    have hord := List.pairwise_cons.1 ho.order
    -- booking
    have hreads := Sound.reads net C S kinds F (by rw [hk]; exact hcn.1) (by
      intro c hc hC f hfi hi
      rw [hk] at hc
      rcases ho.inputs c (by simp [hc]) hC f hfi hi with h1 | h1 | h1
      · exact Or.inl h1
      · exact Or.inr h1
      · exfalso
        have htc : (net.flux f).target = .cont c := by simpa using (List.mem_filter.1 hfi).2
        simp only [List.flatMap_cons, List.mem_append, List.mem_flatMap] at h1
        rcases h1 with h1 | ⟨b', hb', h1⟩
        · exact ho.self b (by simp) f h1 hi c hc htc
        · exact hord.1 b' hb' f h1 hi c hc htc)
    set F1 := runF net C F (kinds.map (fun c => Sh.read c.1 c.2)) with hF1
    have hF1' : ∀ f, f ∈ F1 ↔ f ∈ F ∧ ∀ c ∈ b.reads, (net.flux f).target ≠ .cont c := by
      intro f; rw [hreads.2 f, hk]
    have hwrites := Sound.writes net C S w F1 hnr (by rw [hw]; exact hwn.1) (by
      intro f hfw
      rw [hw] at hfw
      have := ho.known f (by simp [hfw])
      exact ⟨this.1, fun h => this.2.1 ((hF1' f).1 h).1, this.2.2⟩)
    set F2 := runF net C F1 w with hF2
    have hF2' : ∀ f, f ∈ F2 ↔ f ∈ F1 ∨ (f ∈ b.writes ∧ tracked net C f = true) := by
      intro f; rw [hwrites.2 f, hw]
    have hfresh2 : FreshOK net C S F2 := by
      intro f hf2
      rcases (hF2' f).1 hf2 with h | h
      · exact hF f ((hF1' f).1 h).1
      · have := ho.known f (by simp [h.1])
        exact ⟨this.1, h.2, this.2.2⟩
    have ho2 : Ordered net C S F2 bl := by
      refine ⟨hord.2, fun b' hb' => ho.self b' (by simp [hb']), hcn.2.1, hwn.2.1, ?_, ?_⟩
      · intro f hfw
        have := ho.known f (by simp only [List.flatMap_cons, List.mem_append]; exact Or.inr hfw)
        refine ⟨this.1, ?_, this.2.2⟩
        intro h2
        rcases (hF2' f).1 h2 with h | h
        · exact this.2.1 ((hF1' f).1 h).1
        · exact hwn.2.2 f h.1 f hfw rfl
      · intro c hc hC f hfi hi
        have htc : (net.flux f).target = .cont c := by simpa using (List.mem_filter.1 hfi).2
        have hnb : ∀ c' ∈ b.reads, (net.flux f).target ≠ .cont c' := by
          intro c' hc' e
          rw [htc] at e
          have : c = c' := Target.cont.inj e
          exact hcn.2.2 c' hc' c hc this.symm
        have htr : tracked net C f = true := by simp [tracked, into, hi, htc, hC]
        rcases ho.inputs c (by simp only [List.flatMap_cons, List.mem_append]; exact Or.inr hc) hC f hfi hi with h1 | h1 | h1
        · exact Or.inl ((hF2' f).2 (Or.inl ((hF1' f).2 ⟨h1, hnb⟩)))
        · exact Or.inr (Or.inl h1)
        · simp only [List.flatMap_cons, List.mem_append] at h1
          rcases h1 with h1 | h1
          · exact Or.inl ((hF2' f).2 (Or.inr ⟨h1, htr⟩))
          · exact Or.inr (Or.inr h1)
    have hI := ih ls F2 hbl ho2 hfresh2
    have hrunF : runF net C F (kinds.map (fun c => Sh.read c.1 c.2) ++ w) = F2 := by
      simp only [runF, List.foldl_append]; rfl
    rw [List.flatten_cons, List.append_assoc, (Sound.injs net C S i _ F hinj).1, (Sound.injs net C S i _ F hinj).2, ← List.flatten_cons]
    refine ⟨?_, ?_⟩
    · rw [List.flatten_cons, Sound.append, Sound.append, hrunF]
      exact ⟨⟨hreads.1, hwrites.1⟩, hI.1⟩
    · intro f hfe
      have : runF net C F ((kinds.map (fun c => Sh.read c.1 c.2) ++ w) :: ls).flatten
          = runF net C F2 ls.flatten := by
        rw [← hrunF]; simp only [runF, List.flatten_cons, List.foldl_append]
      rw [this] at hfe
      have := hI.2 f hfe
      refine ⟨this.1, ?_⟩
      intro c hc
      simp only [List.flatMap_cons, List.mem_append] at hc
      rcases hc with hc | hc
      · -- never becomes in transit towards a container already booked
        intro e
        -- f ∈ runF F2 rest: either f ∈ F2 or written by a later block
        have horigin : ∀ (l : List Sh) (F : Finset Nat), f ∈ runF net C F l →
            f ∈ F ∨ f ∈ (writesOf l).map Prod.snd := by
          intro l
          induction l with
          | nil => intro F h; exact Or.inl h
          | cons sh l ihl =>
            intro F h
            have h' : f ∈ runF net C (nextF net C F sh) l := h
            have hcase : f ∈ nextF net C F sh → f ∈ F ∨ sh.write?.map Prod.snd = some f := by
              intro hn
              cases sh with
              | ext f0 | out src f0 =>
                simp only [nextF] at hn; split at hn
                · rcases Finset.mem_insert.1 hn with h | h
                  · exact Or.inr (by simp [Sh.write?, h])
                  · exact Or.inl h
                · exact Or.inl hn
              | read c st => exact Or.inl (Finset.mem_filter.1 hn).1
              | inj c => exact Or.inl hn
              | fin c => exact Or.inl hn
            rcases ihl _ h' with h1 | h1
            · rcases hcase h1 with h2 | h2
              · exact Or.inl h2
              · right
                obtain ⟨q, hq, hq2⟩ := Option.map_eq_some_iff.1 h2
                simp only [writesOf, List.filterMap_cons, hq, List.map_cons, List.mem_cons]
                exact Or.inl hq2.symm
            · right
              simp only [writesOf, List.filterMap_cons] at h1 ⊢
              cases sh.write? with
              | none => exact h1
              | some q => simp only [List.map_cons, List.mem_cons]; exact Or.inr h1
        have hwl : (writesOf ls.flatten).map Prod.snd = bl.flatMap (·.writes) := by
          clear * - hbl
          induction hbl with
          | nil => rfl
          | @cons b l bl ls hb _ ih =>
            obtain ⟨i, r, w, rfl, hinj, ⟨kinds, hk, rfl⟩, hw, hnr⟩ := hb
            simp only [writesOf, List.flatten_cons, List.filterMap_append, List.map_append,
              List.flatMap_cons] at ih ⊢
            rw [ih, hw]
            have : List.filterMap Sh.write? (kinds.map (fun c => Sh.read c.1 c.2)) = [] := by
              rw [List.filterMap_eq_nil_iff]
              intro a ha
              obtain ⟨q, _, rfl⟩ := List.mem_map.1 ha
              rfl
            have hi0 : List.filterMap Sh.write? i = [] := by
              rw [List.filterMap_eq_nil_iff]
              intro a ha
              obtain ⟨c, rfl⟩ := hinj a ha
              rfl
            rw [this, hi0]; simp
        have htr := this.1
        simp only [tracked, Bool.and_eq_true, Bool.not_eq_true'] at htr
        rcases horigin _ _ hfe with h1 | h1
        · rcases (hF2' f).1 h1 with h2 | h2
          · exact ((hF1' f).1 h2).2 c hc e
          · exact ho.self b (by simp) f h2.1 htr.1 c hc e
        · rw [hwl] at h1
          obtain ⟨b', hb', h1⟩ := List.mem_flatMap.1 h1
          exact hord.1 b' hb' f h1 htr.1 c hc e
      · exact this.2 c hc

end HB
