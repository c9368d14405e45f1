import Verif.Model.ApartLemmas

/-!
# A time step, inside and outside a part of a model

Used for C72.
-/

set_option linter.unusedSectionVars false

namespace HB

open Spec

variable {K σ τ : Type} [Field K] [LinearOrder K] [IsStrictOrderedRing K]

namespace Apart

variable {P : Part} {view : σ → τ} {net : Net K} {laws laws' : Laws K σ}

/-- A brick of the model. -/
def Of (net : Net K) (b : Brick) : Prop := b ∈ net.solver ∨ ∃ u ∈ net.units, b ∈ u.direct

theorem outs_in {b : Brick} (hb : P.Inside b) : ∀ f ∈ b.outs, P.F f := by
  intro f hf
  obtain ⟨p, hp, hfp⟩ := List.mem_flatMap.1 hf
  exact hb.2.2 p hp f hfp

theorem outs_out {b : Brick} (hb : P.Outside net b) : ∀ f ∈ b.outs, ¬ P.F f := by
  intro f hf
  obtain ⟨p, hp, hfp⟩ := List.mem_flatMap.1 hf
  exact (hb.2.2 p hp f hfp).1

theorem finBrick_in (hL : Local net P view laws laws') {b : Brick} (ho : Of net b) (hb : P.Inside b) {s t : Sys K σ} (h : Alike P view s t) :
    Alike P view (finBrick laws b s) (finBrick laws' b t) := by
  have hph : SameIn P (b.conts.foldl (fun ph c => finCont ph c.1) s.ph) (b.conts.foldl (fun ph c => finCont ph c.1) t.ph) :=
    foldl_rel (SameIn P) (fun ph (c : ℕ × Bool) => finCont ph c.1) (fun ph (c : ℕ × Bool) => finCont ph c.1) b.conts
      (fun c _ x y hxy => finCont_in hxy c.1) _ _ h.1
  refine ⟨hph, h.2.1, ?_⟩
  exact foldl_rel (fun a b => view a = view b) _ _ b.procs (fun p hp x y hxy => hL.fin b ho hb p hp x y _ _ hxy hph) _ _ h.2.2

theorem finBrick_out (hL : ∀ b, Of net b → P.Outside net b → ∀ p ∈ b.procs, ∀ h ph, view (laws.fin p.pid h ph) = view h) {b : Brick}
    (ho : Of net b) (hb : P.Outside net b) (s : Sys K σ) : Alike P view s (finBrick laws b s) := by
  have hph : SameIn P s.ph (b.conts.foldl (fun ph c => finCont ph c.1) s.ph) := by
    refine foldl_rel (fun _ y => SameIn P s.ph y) (fun ph (c : ℕ × Bool) => finCont ph c.1) (fun ph (c : ℕ × Bool) => finCont ph c.1) b.conts
      (fun c hc x y hxy => SameIn.trans hxy (finCont_out y (hb.1 c hc))) s.ph _ (SameIn.refl _)
  refine ⟨hph, fun _ _ => rfl, ?_⟩
  exact (foldl_rel (fun _ y => view s.hid = view y) (fun h (p : Proc) => laws.fin p.pid h (b.conts.foldl (fun ph c => finCont ph c.1) s.ph))
    (fun h (p : Proc) => laws.fin p.pid h (b.conts.foldl (fun ph c => finCont ph c.1) s.ph)) b.procs
    (fun p hp x y hxy => hxy.trans (hL b ho hb p hp y _).symm) s.hid s.hid rfl)

theorem callRates_in (hL : Local net P view laws laws') {b : Brick} (ho : Of net b) (hb : P.Inside b) {p : Proc} (hp : p ∈ b.procs)
    {s t : Sys K σ} (h : Alike P view s t) :
    (∀ f ∈ p.outs, (callRates laws p s).1 f = (callRates laws' p t).1 f) ∧ Alike P view (callRates laws p s).2 (callRates laws' p t).2 := by
  obtain ⟨h1, h2, h3⟩ := hL.rates b ho hb p hp s.hid t.hid s.ph t.ph h.2.2 h.1
  refine ⟨h1, ?_, h.2.1, h3⟩
  unfold callRates
  dsimp only
  rw [h2]
  exact injCont_in h.1 _ _

/-- The laws outside do not touch what concerns the part. -/
def Blind (net : Net K) (P : Part) (view : σ → τ) (laws : Laws K σ) : Prop :=
  (∀ b, Of net b → P.Outside net b → ∀ p ∈ b.procs, ∀ h ph, view (laws.rates p.pid h ph).2.2 = view h ∧ view (laws.fin p.pid h ph) = view h) ∧
  ∀ u ∈ net.units, ∀ sp ∈ u.splitters, (∀ f ∈ sp.2, ¬ P.F f) → ∀ h ph, view (laws.split sp.1 h ph).2 = view h

theorem blind_left (hL : Local net P view laws laws') : Blind net P view laws :=
  ⟨fun b ho hb p hp h ph => ⟨(hL.foreign b ho hb p hp h ph).1, (hL.foreign b ho hb p hp h ph).2.1⟩,
   fun u hu sp hsp hf h ph => (hL.foreignSplit u hu sp hsp hf h ph).1⟩

theorem blind_right (hL : Local net P view laws laws') : Blind net P view laws' :=
  ⟨fun b ho hb p hp h ph => ⟨(hL.foreign b ho hb p hp h ph).2.2.1, (hL.foreign b ho hb p hp h ph).2.2.2⟩,
   fun u hu sp hsp hf h ph => (hL.foreignSplit u hu sp hsp hf h ph).2⟩

theorem callRates_out (hL : Blind net P view laws) {b : Brick} (ho : Of net b) (hb : P.Outside net b) {p : Proc} (hp : p ∈ b.procs)
    (s : Sys K σ) : Alike P view s (callRates laws p s).2 :=
  ⟨injCont_out _ (hb.2.1 p hp) _, fun _ _ => rfl, ((hL.1 b ho hb p hp s.hid s.ph).1).symm⟩

theorem directProc_in (hA : Apart net P) (hL : Local net P view laws laws') {dt : K} {b : Brick} (ho : Of net b) (hb : P.Inside b) {p : Proc}
    (hp : p ∈ b.procs) {s s' t t' : Sys K σ} (h : Alike P view s t) (h1 : directProc net laws dt b s p = .ok s')
    (h2 : directProc net laws' dt b t p = .ok t') : Alike P view s' t' := by
  obtain ⟨hr, hs⟩ := callRates_in hL ho hb hp h
  unfold directProc at h1 h2
  dsimp only at h1 h2
  generalize hs1 : ({ ph := (callRates laws p s).2.ph, rate := _, hid := _ } : Sys K σ) = s1 at h1
  generalize ht1 : ({ ph := (callRates laws' p t).2.ph, rate := _, hid := _ } : Sys K σ) = t1 at h2
  have h3 : Alike P view s1 t1 := by
    rw [← hs1, ← ht1]
    refine ⟨hs.1, fun f hf => ?_, hs.2.2⟩
    dsimp only
    exact setRates_in p.outs (v := fun f => some _) (v' := fun f => some _) (fun f hf => by rw [hr f hf]) (hs.2.1 f hf)
  cases e1 : constrainCont net dt b s1 p.src with
  | error e => rw [e1] at h1; simp [bind, Except.bind] at h1
  | ok s2 =>
    cases e2 : constrainCont net dt b t1 p.src with
    | error e => rw [e2] at h2; simp [bind, Except.bind] at h2
    | ok t2 =>
      rw [e1] at h1; rw [e2] at h2
      simp only [bind, Except.bind, pure, Except.pure, Except.ok.injEq] at h1 h2
      subst h1 h2
      have h4 := constrainCont_in hA hb (hb.2.1 p hp) h3 e1 e2
      refine ⟨?_, fun f hf => setRates_in p.outs (v := fun _ => some 0) (v' := fun _ => some 0) (fun _ _ => rfl) (h4.2.1 f hf), h4.2.2⟩
      refine foldl_rel (SameIn P) _ _ p.outs (fun f hf x y hxy => ?_) _ _ h4.1
      rw [h4.2.1 f (hb.2.2 p hp f hf)]
      exact applyChange_in net dt hxy (hb.2.1 p hp) f _

theorem directProc_out (hA : Apart net P) (hL : Blind net P view laws) {dt : K} {b : Brick} (ho : Of net b) (hb : P.Outside net b) {p : Proc}
    (hp : p ∈ b.procs) {s s' : Sys K σ} (h1 : directProc net laws dt b s p = .ok s') : Alike P view s s' := by
  have hs := callRates_out hL ho hb hp s
  have hpo : ∀ f ∈ p.outs, ¬ P.F f := fun f hf => (hb.2.2 p hp f hf).1
  unfold directProc at h1
  dsimp only at h1
  generalize hs1 : ({ ph := (callRates laws p s).2.ph, rate := _, hid := _ } : Sys K σ) = s1 at h1
  have h3 : Alike P view s s1 := by
    rw [← hs1]
    exact ⟨hs.1, fun f hf => (hs.2.1 f hf).trans (setRates_out hpo _ (fun f => some _) hf), hs.2.2⟩
  cases e1 : constrainCont net dt b s1 p.src with
  | error e => rw [e1] at h1; simp [bind, Except.bind] at h1
  | ok s2 =>
    rw [e1] at h1
    simp only [bind, Except.bind, pure, Except.pure, Except.ok.injEq] at h1
    subst h1
    have h4 := Alike.trans h3 (constrainCont_out hA hb (hb.2.1 p hp) e1)
    refine ⟨?_, fun f hf => (h4.2.1 f hf).trans (setRates_out hpo _ (fun _ => some 0) hf), h4.2.2⟩
    refine foldl_rel (fun _ y => SameIn P s.ph y) (fun ph f => applyChange net dt p.src f ((s2.rate f).getD 0) ph)
      (fun ph f => applyChange net dt p.src f ((s2.rate f).getD 0) ph) p.outs (fun f hf x y hxy => ?_) s2.ph _ h4.1
    exact SameIn.trans hxy (applyChange_out net dt y (hb.2.1 p hp) _ (hb.2.2 p hp f hf).1 (hb.2.2 p hp f hf).2)

theorem readInputs_in (hA : Apart net P) {b : Brick} (hb : P.Inside b) {ph ph' : Phys K} (h : SameIn P ph ph') :
    SameIn P (readInputs net b ph) (readInputs net b ph') :=
  foldl_rel (SameIn P) (readCont net) (readCont net) b.conts (fun c hc _ _ hxy => readCont_in hA hxy (hb.1 c hc)) _ _ h

theorem readInputs_out {b : Brick} (hb : P.Outside net b) (ph : Phys K) : SameIn P ph (readInputs net b ph) :=
  foldl_rel (fun _ y => SameIn P ph y) (readCont net) (readCont net) b.conts
    (fun c hc _ y hxy => SameIn.trans hxy (readCont_out net y (hb.1 c hc))) ph _ (SameIn.refl _)

theorem foldlM_out {α : Type} (g : Sys K σ → α → Except Err (Sys K σ)) (l : List α)
    (h : ∀ a ∈ l, ∀ x x', g x a = .ok x' → Alike P view x x') (s s' : Sys K σ) (hs : l.foldlM g s = .ok s') : Alike P view s s' :=
  foldlM_rel (fun _ y => Alike P view s y) g g l (fun a ha _ y _ y' hxy _ h2 => Alike.trans hxy (h a ha y y' h2)) s s s' s' (Alike.refl _) hs hs

theorem directBrick_in (hA : Apart net P) (hL : Local net P view laws laws') {dt : K} {b : Brick} (ho : Of net b) (hb : P.Inside b)
    {s s' t t' : Sys K σ} (h : Alike P view s t) (h1 : directBrick net laws dt s b = .ok s') (h2 : directBrick net laws' dt t b = .ok t') :
    Alike P view s' t' := by
  unfold directBrick at h1 h2
  dsimp only at h1 h2
  generalize hs1 : ({ ph := readInputs net b s.ph, rate := _, hid := _ } : Sys K σ) = s1 at h1
  generalize ht1 : ({ ph := readInputs net b t.ph, rate := _, hid := _ } : Sys K σ) = t1 at h2
  have h3 : Alike P view s1 t1 := by
    rw [← hs1, ← ht1]
    exact ⟨readInputs_in hA hb h.1, fun f hf => setRates_in b.outs (v := fun _ => some 0) (v' := fun _ => some 0) (fun _ _ => rfl) (h.2.1 f hf), h.2.2⟩
  cases e1 : b.procs.foldlM (directProc net laws dt b) s1 with
  | error e => rw [e1] at h1; simp [bind, Except.bind] at h1
  | ok s2 =>
    cases e2 : b.procs.foldlM (directProc net laws' dt b) t1 with
    | error e => rw [e2] at h2; simp [bind, Except.bind] at h2
    | ok t2 =>
      rw [e1] at h1; rw [e2] at h2
      simp only [bind, Except.bind, pure, Except.pure, Except.ok.injEq] at h1 h2
      subst h1 h2
      refine finBrick_in hL ho hb ?_
      exact foldlM_rel (Alike P view) _ _ b.procs (fun p hp _ _ _ _ hxy g1 g2 => directProc_in hA hL ho hb hp hxy g1 g2) _ _ _ _ h3 e1 e2

theorem directBrick_out (hA : Apart net P) (hL : Blind net P view laws) {dt : K} {b : Brick} (ho : Of net b) (hb : P.Outside net b)
    {s s' : Sys K σ} (h1 : directBrick net laws dt s b = .ok s') : Alike P view s s' := by
  unfold directBrick at h1
  dsimp only at h1
  generalize hs1 : ({ ph := readInputs net b s.ph, rate := _, hid := _ } : Sys K σ) = s1 at h1
  have h3 : Alike P view s s1 := by
    rw [← hs1]
    exact ⟨readInputs_out hb s.ph, fun f hf => setRates_out (outs_out hb) _ (fun _ => some 0) hf, rfl⟩
  cases e1 : b.procs.foldlM (directProc net laws dt b) s1 with
  | error e => rw [e1] at h1; simp [bind, Except.bind] at h1
  | ok s2 =>
    rw [e1] at h1
    simp only [bind, Except.bind, pure, Except.pure, Except.ok.injEq] at h1
    subst h1
    have h4 := foldlM_out (directProc net laws dt b) b.procs (fun p hp _ _ g1 => directProc_out hA hL ho hb hp g1) s1 s2 e1
    exact Alike.trans (Alike.trans h3 h4) (finBrick_out (fun b ho hb p hp h ph => (hL.1 b ho hb p hp h ph).2) ho hb s2)

theorem splitter_in (hA : Apart net P) (hL : Local net P view laws laws') {u : HUnit} (hu : u ∈ net.units) {sp : ℕ × List ℕ} (hsp : sp ∈ u.splitters)
    {s t : Sys K σ} (h : Alike P view s t) : Alike P view (runSplitter net laws s sp) (runSplitter net laws' t sp) := by
  rcases hA.split u hu sp hsp with hin | hout
  · obtain ⟨h1, h2⟩ := hL.split u hu sp hsp hin s.hid t.hid s.ph t.ph h.2.2 h.1
    refine ⟨?_, h.2.1, h2⟩
    refine foldl_rel (SameIn P) _ _ sp.2 (fun f hf x y hxy => ?_) _ _ h.1
    rw [h1 f hf]
    exact updateFlux_in net hxy f _
  · have key : ∀ (laws : Laws K σ), Blind net P view laws → ∀ s : Sys K σ, Alike P view s (runSplitter net laws s sp) := by
      intro laws hB s
      refine ⟨?_, fun _ _ => rfl, (hB.2 u hu sp hsp (fun f hf => (hout f hf).1) _ _).symm⟩
      exact foldl_rel (fun _ y => SameIn P s.ph y) (fun ph f => updateFlux net ph f ((laws.split sp.1 s.hid s.ph).1 f))
        (fun ph f => updateFlux net ph f ((laws.split sp.1 s.hid s.ph).1 f)) sp.2
        (fun f hf _ y hxy => SameIn.trans hxy (updateFlux_out net y _ (hout f hf).1 (hout f hf).2)) s.ph _ (SameIn.refl _)
    exact Alike.trans (Alike.trans (Alike.symm (key laws (blind_left hL) s)) h) (key laws' (blind_right hL) t)

/-- The direct phase. -/
theorem directPhase_in (hA : Apart net P) (hL : Local net P view laws laws') {dt : K} {s s' t t' : Sys K σ} (h : Alike P view s t)
    (h1 : directPhase net laws dt s = .ok s') (h2 : directPhase net laws' dt t = .ok t') : Alike P view s' t' := by
  refine foldlM_rel (Alike P view) (directUnit net laws dt) (directUnit net laws' dt) net.units (fun u hu x y x' y' hxy g1 g2 => ?_) s t s' t' h h1 h2
  have h3 : Alike P view (u.splitters.foldl (runSplitter net laws) x) (u.splitters.foldl (runSplitter net laws') y) :=
    foldl_rel (Alike P view) _ _ u.splitters (fun sp hsp _ _ hxy => splitter_in hA hL hu hsp hxy) _ _ hxy
  unfold directUnit at g1 g2
  refine foldlM_rel (Alike P view) (directBrick net laws dt) (directBrick net laws' dt) (u.direct.filter (!·.null)) (fun b hb x y x' y' hxy g1 g2 => ?_) _ _ _ _ h3 g1 g2
  have hbu : b ∈ u.direct := (List.mem_filter.1 hb).1
  have ho : Of net b := .inr ⟨u, hu, hbu⟩
  rcases hA.direct u hu b hbu with hin | hout
  · exact directBrick_in hA hL ho hin hxy g1 g2
  · exact Alike.trans (Alike.trans (Alike.symm (directBrick_out hA (blind_left hL) ho hout g1)) hxy) (directBrick_out hA (blind_right hL) ho hout g2)

/-! ## Sequential solvers -/

theorem applyBrick_in (hA : Apart net P) {dt : K} {b : Brick} (hb : P.Inside b) {k k' : ℕ → K} (hk : ∀ p ∈ b.procs, ∀ f ∈ p.outs, k f = k' f)
    {ph ph' : Phys K} (h : SameIn P ph ph') : SameIn P (applyBrick net dt k ph b) (applyBrick net dt k' ph' b) := by
  unfold applyBrick
  refine foldl_rel (SameIn P) _ _ b.procs (fun p hp x y hxy => ?_) _ _ (readInputs_in hA hb h)
  refine foldl_rel (SameIn P) _ _ p.outs (fun f hf x y hxy => ?_) _ _ hxy
  rw [hk p hp f hf]
  exact applyChange_in net dt hxy (hb.2.1 p hp) f _

theorem applyBrick_out {dt : K} {b : Brick} (hb : P.Outside net b) (k : ℕ → K) (ph : Phys K) : SameIn P ph (applyBrick net dt k ph b) := by
  unfold applyBrick
  refine foldl_rel (fun _ y => SameIn P ph y) (fun (ph : Phys K) (p : Proc) => p.outs.foldl (fun ph f => applyChange net dt p.src f (k f) ph) ph)
    (fun (ph : Phys K) (p : Proc) => p.outs.foldl (fun ph f => applyChange net dt p.src f (k f) ph) ph) b.procs
    (fun p hp x y hxy => ?_) ph _ (readInputs_out hb ph)
  refine foldl_rel (fun _ y => SameIn P ph y) (fun ph f => applyChange net dt p.src f (k f) ph) (fun ph f => applyChange net dt p.src f (k f) ph) p.outs
    (fun f hf x y hxy => ?_) ph _ hxy
  exact SameIn.trans hxy (applyChange_out net dt y (hb.2.1 p hp) _ (hb.2.2 p hp f hf).1 (hb.2.2 p hp f hf).2)

variable {law law' : SeqLaw K σ}

theorem seqBrick_in (hA : Apart net P) (hL : LocalSeq net P view law law') {dt : K} {b : Brick} (hbs : b ∈ net.solver) (hb : P.Inside b)
    {s s' t t' : Sys K σ} (h : Alike P view s t) (h1 : seqBrick net law dt s b = .ok s') (h2 : seqBrick net law' dt t b = .ok t') :
    Alike P view s' t' := by
  unfold seqBrick at h1 h2
  dsimp only at h1 h2
  set c := (b.conts.getLast?.map (·.1)).getD 0 with hc
  have hcC : P.C c := by
    rw [hc, List.getLast?_eq_some_getLast (hL.conts b hbs)]
    exact hb.1 _ (List.getLast_mem _)
  have e0 : sumIncoming net s.ph c = sumIncoming net t.ph c := by
    unfold sumIncoming
    congr 1
    apply List.map_congr_left
    intro f hf
    obtain ⟨h3, h4⟩ := List.mem_filter.1 hf
    unfold getAmount
    rw [h.1.2 f (hA.inputs f h3 c (by simpa using h4) hcC)]
  rw [e0, h.1.1 c hcC] at h1
  obtain ⟨l1, l2, l3⟩ := hL.rates b hbs hb dt (t.ph.cont c).withChanges (sumIncoming net t.ph c / dt) s.hid t.hid s.ph t.ph h.2.2 h.1
  generalize hs1 : ({ ph := List.foldl _ s.ph b.procs, rate := _, hid := _ } : Sys K σ) = s1 at h1
  generalize ht1 : ({ ph := List.foldl _ t.ph b.procs, rate := _, hid := _ } : Sys K σ) = t1 at h2
  have h3 : Alike P view s1 t1 := by
    rw [← hs1, ← ht1]
    refine ⟨?_, fun f hf => ?_, l3⟩
    · refine foldl_rel (SameIn P) _ _ b.procs (fun p hp x y hxy => ?_) _ _ h.1
      rw [l2 p hp]
      exact injCont_in hxy _ _
    · refine setRates_in b.outs (v := fun f => some _) (v' := fun f => some _) (fun f hf => ?_) (h.2.1 f hf)
      obtain ⟨p, hp, hfp⟩ := List.mem_flatMap.1 hf
      rw [l1 p hp f hfp]
  cases e1 : (b.conts.map (·.1)).foldlM (constrainCont net dt b) s1 with
  | error e => rw [e1] at h1; simp [bind, Except.bind] at h1
  | ok s2 =>
    cases e2 : (b.conts.map (·.1)).foldlM (constrainCont net dt b) t1 with
    | error e => rw [e2] at h2; simp [bind, Except.bind] at h2
    | ok t2 =>
      rw [e1] at h1; rw [e2] at h2
      simp only [bind, Except.bind, pure, Except.pure, Except.ok.injEq] at h1 h2
      subst h1 h2
      have h4 : Alike P view s2 t2 := by
        refine foldlM_rel (Alike P view) _ _ (b.conts.map (·.1)) (fun d hd _ _ _ _ hxy g1 g2 => ?_) _ _ _ _ h3 e1 e2
        obtain ⟨d', hd', rfl⟩ := List.mem_map.1 hd
        exact constrainCont_in hA hb (hb.1 d' hd') hxy g1 g2
      exact ⟨applyBrick_in hA hb (fun p hp f hf => by rw [h4.2.1 f (hb.2.2 p hp f hf)]) h4.1, h4.2.1, h4.2.2⟩

theorem injs_out {b : Brick} (hb : P.Outside net b) (x : ℕ → K) (ph : Phys K) :
    SameIn P ph (b.procs.foldl (fun ph p => injCont ph p.src (x p.pid)) ph) :=
  foldl_rel (fun _ y => SameIn P ph y) (fun ph (p : Proc) => injCont ph p.src (x p.pid)) (fun ph (p : Proc) => injCont ph p.src (x p.pid)) b.procs
    (fun p hp _ y hxy => SameIn.trans hxy (injCont_out y (hb.2.1 p hp) _)) ph _ (SameIn.refl _)

theorem seqBrick_out (hA : Apart net P) (hL : ∀ b ∈ net.solver, P.Outside net b → ∀ dt c i h ph, view (law b dt c i h ph).2.2 = view h) {dt : K}
    {b : Brick} (hbs : b ∈ net.solver) (hb : P.Outside net b) {s s' : Sys K σ} (h1 : seqBrick net law dt s b = .ok s') : Alike P view s s' := by
  unfold seqBrick at h1
  dsimp only at h1
  have l3 := hL b hbs hb dt (s.ph.cont ((b.conts.getLast?.map (·.1)).getD 0)).withChanges
    (sumIncoming net s.ph ((b.conts.getLast?.map (·.1)).getD 0) / dt) s.hid s.ph
  generalize hs1 : ({ ph := List.foldl _ s.ph b.procs, rate := _, hid := _ } : Sys K σ) = s1 at h1
  have h3 : Alike P view s s1 := by
    rw [← hs1]
    refine ⟨?_, fun f hf => setRates_out (outs_out hb) _ (fun f => some _) hf, l3.symm⟩
    exact injs_out hb _ s.ph
  cases e1 : (b.conts.map (·.1)).foldlM (constrainCont net dt b) s1 with
  | error e => rw [e1] at h1; simp [bind, Except.bind] at h1
  | ok s2 =>
    rw [e1] at h1
    simp only [bind, Except.bind, pure, Except.pure, Except.ok.injEq] at h1
    subst h1
    have h4 : Alike P view s1 s2 := by
      refine foldlM_out (constrainCont net dt b) (b.conts.map (·.1)) (fun d hd _ _ g1 => ?_) s1 s2 e1
      obtain ⟨d', hd', rfl⟩ := List.mem_map.1 hd
      exact constrainCont_out hA hb (hb.1 d' hd') g1
    have h5 := Alike.trans h3 h4
    exact ⟨SameIn.trans h5.1 (applyBrick_out hb _ _), h5.2.1, h5.2.2⟩

theorem finalize_in (hA : Apart net P) (hL : Local net P view laws laws') {s t : Sys K σ} (h : Alike P view s t) :
    Alike P view (finalizeTimeStep net laws s) (finalizeTimeStep net laws' t) := by
  refine foldl_rel (Alike P view) (fun s b => finBrick laws b s) (fun s b => finBrick laws' b s) net.solver (fun b hb x y hxy => ?_) _ _ h
  rcases hA.solver b hb with hin | hout
  · exact finBrick_in hL (.inl hb) hin hxy
  · exact Alike.trans (Alike.trans (Alike.symm (finBrick_out (fun b ho hb p hp h ph => ((blind_left hL).1 b ho hb p hp h ph).2) (.inl hb) hout x)) hxy)
      (finBrick_out (fun b ho hb p hp h ph => ((blind_right hL).1 b ho hb p hp h ph).2) (.inl hb) hout y)

/-- A sequential solver. -/
theorem solveSequential_in (hA : Apart net P) (hL : Local net P view laws laws') (hQ : LocalSeq net P view law law') {dt : K} {s s' t t' : Sys K σ}
    (h : Alike P view s t) (h1 : solveSequential net laws law dt s = .ok s') (h2 : solveSequential net laws' law' dt t = .ok t') :
    Alike P view s' t' := by
  unfold solveSequential at h1 h2
  cases e1 : net.solver.foldlM (seqBrick net law dt) s with
  | error e => rw [e1] at h1; simp [bind, Except.bind] at h1
  | ok s2 =>
    cases e2 : net.solver.foldlM (seqBrick net law' dt) t with
    | error e => rw [e2] at h2; simp [bind, Except.bind] at h2
    | ok t2 =>
      rw [e1] at h1; rw [e2] at h2
      simp only [bind, Except.bind, pure, Except.pure, Except.ok.injEq] at h1 h2
      subst h1 h2
      refine finalize_in hA hL ?_
      refine foldlM_rel (Alike P view) _ _ net.solver (fun b hb x y x' y' hxy g1 g2 => ?_) _ _ _ _ h e1 e2
      rcases hA.solver b hb with hin | hout
      · exact seqBrick_in hA hQ hb hin hxy g1 g2
      · exact Alike.trans (Alike.trans (Alike.symm (seqBrick_out hA (fun b hb ho dt c i h ph => (hQ.foreign b hb ho dt c i h ph).1) hb hout g1)) hxy)
          (seqBrick_out hA (fun b hb ho dt c i h ph => (hQ.foreign b hb ho dt c i h ph).2) hb hout g2)

end Apart

end HB
