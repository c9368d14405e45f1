import Verif.Spec.Apart
import Verif.Model.Overdraft

/-!
# Operations inside and outside a part of a model

Used for C72: an operation of the part gives the same result on two states alike in the part; an operation outside leaves the part alone.
-/

set_option linter.unusedSectionVars false

namespace HB

open Spec

variable {K σ τ : Type} [Field K] [LinearOrder K] [IsStrictOrderedRing K]

namespace Apart

variable {P : Part} {view : σ → τ}

theorem SameIn.refl (ph : Phys K) : SameIn P ph ph := ⟨fun _ _ => rfl, fun _ _ => rfl⟩

theorem SameIn.trans {a b c : Phys K} (h : SameIn P a b) (h' : SameIn P b c) : SameIn P a c :=
  ⟨fun c hc => (h.1 c hc).trans (h'.1 c hc), fun f hf => (h.2 f hf).trans (h'.2 f hf)⟩

theorem Alike.refl (s : Sys K σ) : Alike P view s s := ⟨SameIn.refl _, fun _ _ => rfl, rfl⟩

theorem Alike.trans {a b c : Sys K σ} (h : Alike P view a b) (h' : Alike P view b c) : Alike P view a c :=
  ⟨SameIn.trans h.1 h'.1, fun f hf => (h.2.1 f hf).trans (h'.2.1 f hf), h.2.2.trans h'.2.2⟩

theorem Alike.symm {a b : Sys K σ} (h : Alike P view a b) : Alike P view b a :=
  ⟨⟨fun c hc => (h.1.1 c hc).symm, fun f hf => (h.1.2 f hf).symm⟩, fun f hf => (h.2.1 f hf).symm, h.2.2.symm⟩

/-! ## Folds -/

theorem foldl_rel {α β γ : Type} (R : β → γ → Prop) (g : β → α → β) (g' : γ → α → γ) : ∀ (l : List α),
    (∀ a ∈ l, ∀ x y, R x y → R (g x a) (g' y a)) → ∀ x y, R x y → R (l.foldl g x) (l.foldl g' y) := by
  intro l
  induction l with
  | nil => intro _ x y h; exact h
  | cons a l ih => intro hs x y h; exact ih (fun b hb => hs b (by simp [hb])) _ _ (hs a (by simp) x y h)

theorem foldlM_rel {α β : Type} {ε : Type} (R : β → β → Prop) (g g' : β → α → Except ε β) : ∀ (l : List α),
    (∀ a ∈ l, ∀ x y x' y', R x y → g x a = .ok x' → g' y a = .ok y' → R x' y') →
    ∀ x y x' y', R x y → l.foldlM g x = .ok x' → l.foldlM g' y = .ok y' → R x' y' := by
  intro l
  induction l with
  | nil =>
    intro _ x y x' y' h h1 h2
    simp only [List.foldlM_nil, pure, Except.pure, Except.ok.injEq] at h1 h2
    subst h1 h2; exact h
  | cons a l ih =>
    intro hs x y x' y' h h1 h2
    rw [List.foldlM_cons] at h1 h2
    cases e1 : g x a with
    | error e => rw [e1] at h1; simp [bind, Except.bind] at h1
    | ok x1 =>
      cases e2 : g' y a with
      | error e => rw [e2] at h2; simp [bind, Except.bind] at h2
      | ok y1 =>
        rw [e1] at h1; rw [e2] at h2
        exact ih (fun b hb => hs b (by simp [hb])) x1 y1 x' y' (hs a (by simp) x y x1 y1 h e1 e2) h1 h2

/-! ## Elementary operations on the part -/

theorem updateFlux_in (net : Net K) {ph ph' : Phys K} (h : SameIn P ph ph') (f : ℕ) (x : K) :
    SameIn P (updateFlux net ph f x) (updateFlux net ph' f x) := by
  have h2 : ∀ g, P.F g → upd ph.amt f ((net.flux f).scale x) g = upd ph'.amt f ((net.flux f).scale x) g := by
    intro g hg
    unfold upd
    split
    · rfl
    · exact h.2 g hg
  unfold updateFlux
  dsimp only
  split
  · split
    · rename_i c hc
      refine ⟨fun d hd => ?_, h2⟩
      dsimp only
      by_cases he : d = c
      · subst he; rw [upd_same, upd_same, h.1 d hd]
      · rw [upd_ne _ _ he, upd_ne _ _ he]; exact h.1 d hd
    · exact ⟨h.1, h2⟩
  · exact ⟨h.1, h2⟩

theorem updateFlux_out (net : Net K) (ph : Phys K) {f : ℕ} (x : K) (hf : ¬ P.F f)
    (ht : ∀ c, (net.flux f).target = .cont c → (net.flux f).inst = true → ¬ P.C c) : SameIn P ph (updateFlux net ph f x) := by
  have h2 : ∀ g, P.F g → ph.amt g = upd ph.amt f ((net.flux f).scale x) g := by
    intro g hg
    rw [upd_ne]
    rintro rfl
    exact hf hg
  unfold updateFlux
  dsimp only
  split
  · rename_i hi
    split
    · rename_i c hc
      refine ⟨fun d hd => ?_, h2⟩
      dsimp only
      rw [upd_ne]
      rintro rfl
      exact ht d hc hi hd
    · exact ⟨fun _ _ => rfl, h2⟩
  · exact ⟨fun _ _ => rfl, h2⟩

theorem applyChange_in (net : Net K) (dt : K) {ph ph' : Phys K} (h : SameIn P ph ph') {src : ℕ} (hs : P.C src) (f : ℕ) (r : K) :
    SameIn P (applyChange net dt src f r ph) (applyChange net dt src f r ph') := by
  rw [applyChange_eq, applyChange_eq]
  have := updateFlux_in net h f (vol dt r)
  refine ⟨fun d hd => ?_, this.2⟩
  simp only [runEv]
  by_cases he : d = src
  · subst he; rw [upd_same, upd_same, this.1 d hd]
  · rw [upd_ne _ _ he, upd_ne _ _ he]; exact this.1 d hd

theorem applyChange_out (net : Net K) (dt : K) (ph : Phys K) {src : ℕ} (hs : ¬ P.C src) {f : ℕ} (r : K) (hf : ¬ P.F f)
    (ht : ∀ c, (net.flux f).target = .cont c → (net.flux f).inst = true → ¬ P.C c) : SameIn P ph (applyChange net dt src f r ph) := by
  rw [applyChange_eq]
  have := updateFlux_out net ph (vol dt r) hf ht
  refine ⟨fun d hd => ?_, this.2⟩
  simp only [runEv]
  rw [upd_ne]
  · exact this.1 d hd
  · rintro rfl; exact hs hd

theorem readCont_in {net : Net K} (hA : Apart net P) {ph ph' : Phys K} (h : SameIn P ph ph') {c : ℕ × Bool} (hc : P.C c.1) :
    SameIn P (readCont net ph c) (readCont net ph' c) := by
  have e : sumIncoming net ph c.1 = sumIncoming net ph' c.1 := by
    unfold sumIncoming
    congr 1
    apply List.map_congr_left
    intro f hf
    obtain ⟨h1, h2⟩ := List.mem_filter.1 hf
    unfold getAmount
    rw [h.2 f (hA.inputs f h1 c.1 (by simpa using h2) hc)]
  refine ⟨fun d hd => ?_, h.2⟩
  simp only [readCont]
  rw [e]
  by_cases he : d = c.1
  · subst he; rw [upd_same, upd_same, h.1 c.1 hd]
  · rw [upd_ne _ _ he, upd_ne _ _ he]; exact h.1 d hd

theorem readCont_out (net : Net K) (ph : Phys K) {c : ℕ × Bool} (hc : ¬ P.C c.1) : SameIn P ph (readCont net ph c) := by
  refine ⟨fun d hd => ?_, fun _ _ => rfl⟩
  simp only [readCont]
  rw [upd_ne]
  rintro rfl; exact hc hd

theorem finCont_in {ph ph' : Phys K} (h : SameIn P ph ph') (c : ℕ) : SameIn P (finCont ph c) (finCont ph' c) := by
  refine ⟨fun d hd => ?_, h.2⟩
  simp only [finCont]
  by_cases he : d = c
  · subst he; rw [upd_same, upd_same, h.1 d hd]
  · rw [upd_ne _ _ he, upd_ne _ _ he]; exact h.1 d hd

theorem finCont_out (ph : Phys K) {c : ℕ} (hc : ¬ P.C c) : SameIn P ph (finCont ph c) := by
  refine ⟨fun d hd => ?_, fun _ _ => rfl⟩
  simp only [finCont]
  rw [upd_ne]
  rintro rfl; exact hc hd

theorem injCont_in {ph ph' : Phys K} (h : SameIn P ph ph') (c : ℕ) (x : K) : SameIn P (injCont ph c x) (injCont ph' c x) := by
  refine ⟨fun d hd => ?_, h.2⟩
  simp only [injCont]
  by_cases he : d = c
  · subst he; rw [upd_same, upd_same, h.1 d hd]
  · rw [upd_ne _ _ he, upd_ne _ _ he]; exact h.1 d hd

theorem injCont_out (ph : Phys K) {c : ℕ} (hc : ¬ P.C c) (x : K) : SameIn P ph (injCont ph c x) := by
  refine ⟨fun d hd => ?_, fun _ _ => rfl⟩
  simp only [injCont]
  rw [upd_ne]
  rintro rfl; exact hc hd

/-! ## Slots -/

theorem writeRates_congr : ∀ (l : List ℕ) (vs : List (Option K)) (r r' : ℕ → Option K) (x : ℕ), r x = r' x →
    writeRates r l vs x = writeRates r' l vs x := by
  intro l
  induction l with
  | nil => intro vs r r' x h; simpa [writeRates] using h
  | cons a l ih =>
    intro vs r r' x h
    cases vs with
    | nil => simpa [writeRates] using h
    | cons v vs =>
      refine ih vs _ _ x ?_
      unfold upd
      split
      · rfl
      · exact h

theorem writeIns_congr : ∀ (l : List ℕ) (vs : List (Inflow K)) (r r' : ℕ → Option K) (x : ℕ), r x = r' x →
    writeIns r l vs x = writeIns r' l vs x := by
  intro l
  induction l with
  | nil => intro vs r r' x h; simpa [writeIns] using h
  | cons a l ih =>
    intro vs r r' x h
    rcases vs with _ | ⟨v | v | v, vs⟩
    · simpa [writeIns] using h
    · exact ih vs r r' x h
    · exact ih vs r r' x h
    · refine ih vs _ _ x ?_
      unfold upd
      split
      · rfl
      · exact h

theorem writeRates_other : ∀ (l : List ℕ) (vs : List (Option K)) (r : ℕ → Option K) (x : ℕ), x ∉ l → writeRates r l vs x = r x := by
  intro l
  induction l with
  | nil => intro vs r x _; simp [writeRates]
  | cons a l ih =>
    intro vs r x h
    cases vs with
    | nil => simp [writeRates]
    | cons v vs =>
      refine (ih vs _ x fun h' => h (by simp [h'])).trans (upd_ne _ _ ?_)
      rintro rfl; exact h (by simp)

/-- The incoming fluxes keep their kind. -/
theorem constraints_kinds {c : Cont K} {dt : K} {outs : List (Option K)} {ovf : Option ℕ} {ins : List (Inflow K)} {o i}
    (h : applyConstraints c dt outs ovf ins = .ok (o, i)) :
    ∃ k : K → K, i = ins.map fun x => match x with | .rate (some r) => .rate (some (k r)) | x => x := by
  have h1 : ∀ l : List (Inflow K), l = l.map fun x => match x with | .rate (some r) => .rate (some (id r)) | x => x := by
    intro l
    refine ((List.map_congr_left fun x _ => ?_).trans (List.map_id _)).symm
    rcases x with x | x | (_ | x) <;> rfl
  have h2 : ins.map Inflow.clip = ins.map fun x => match x with | .rate (some r) => .rate (some (clip r)) | x => x := by
    apply List.map_congr_left
    intro x _
    rcases x with x | x | (_ | x) <;> rfl
  have h3 : ∀ d e : K, (ins.map Inflow.clip).map (Inflow.limit d e) =
      ins.map fun x => match x with | .rate (some r) => .rate (some (limitIn d e (clip r))) | x => x := by
    intro d e
    rw [List.map_map]
    apply List.map_congr_left
    intro x _
    rcases x with x | x | (_ | x) <;> rfl
  by_cases hinf : c.infinite = true
  · unfold applyConstraints at h
    rw [if_pos hinf] at h
    cases h
    exact ⟨id, h1 _⟩
  · rw [Bool.not_eq_true] at hinf
    rw [applyConstraints_eq c dt outs ovf ins hinf] at h
    split at h
    · cases h
    · dsimp only at h
      split at h
      · cases h; exact ⟨_, h2⟩
      · split at h
        · split at h
          · split at h
            · cases h; exact ⟨_, h2⟩
            · cases h
          · split at h
            · cases h
            · cases h; exact ⟨_, h3 _ _⟩
        · cases h; exact ⟨_, h2⟩

theorem constrainCont_in {net : Net K} {dt : K} {b : Brick} (hA : Apart net P) (hb : P.Inside b) {c : ℕ} (hc : P.C c) {s s' t t' : Sys K σ}
    (h : Alike P view s t) (h1 : constrainCont net dt b s c = .ok s') (h2 : constrainCont net dt b t c = .ok t') : Alike P view s' t' := by
  have e1 : (b.outsOf c).map s.rate = (b.outsOf c).map t.rate := by
    apply List.map_congr_left
    intro f hf
    obtain ⟨p, hp, hfp⟩ := List.mem_flatMap.1 hf
    exact h.2.1 f (hb.2.2 p (List.mem_filter.1 hp).1 f hfp)
  have e2 : (net.inputs c).map (inflowOf net s) = (net.inputs c).map (inflowOf net t) := by
    apply List.map_congr_left
    intro f hf
    obtain ⟨h3, h4⟩ := List.mem_filter.1 hf
    have hF := hA.inputs f h3 c (by simpa using h4) hc
    unfold inflowOf
    rw [h.1.2 f hF, h.2.1 f hF]
  unfold constrainCont at h1 h2
  dsimp only at h1 h2
  rw [e1, e2, h.1.1 c hc] at h1
  cases ha : applyConstraints (t.ph.cont c) dt ((b.outsOf c).map t.rate)
      ((net.ovf c).bind (fun f => (b.outsOf c).findIdx? (· = f))) ((net.inputs c).map (inflowOf net t)) with
  | error e => rw [ha] at h1; simp [bind, Except.bind] at h1
  | ok oi =>
    rw [ha] at h1 h2
    simp only [bind, Except.bind, pure, Except.pure, Except.ok.injEq] at h1 h2
    subst h1 h2
    exact ⟨h.1, fun f hf => writeIns_congr _ _ _ _ f (writeRates_congr _ _ _ _ f (h.2.1 f hf)), h.2.2⟩

theorem constrainCont_out {net : Net K} {dt : K} {b : Brick} (hA : Apart net P) (hb : P.Outside net b) {c : ℕ} (hc : ¬ P.C c) {s s' : Sys K σ}
    (h1 : constrainCont net dt b s c = .ok s') : Alike P view s s' := by
  unfold constrainCont at h1
  dsimp only at h1
  cases ha : applyConstraints (s.ph.cont c) dt ((b.outsOf c).map s.rate)
      ((net.ovf c).bind (fun f => (b.outsOf c).findIdx? (· = f))) ((net.inputs c).map (inflowOf net s)) with
  | error e => rw [ha] at h1; simp [bind, Except.bind] at h1
  | ok oi =>
    obtain ⟨o, i⟩ := oi
    rw [ha] at h1
    simp only [bind, Except.bind, pure, Except.pure, Except.ok.injEq] at h1
    subst h1
    refine ⟨SameIn.refl _, fun f hf => ?_, rfl⟩
    obtain ⟨k, hk⟩ := constraints_kinds ha
    dsimp only
    rw [hk]
    refine ((writeIns_map net s k _ _ f).trans ?_).symm
    rw [if_neg, writeRates_other]
    · intro hfo
      obtain ⟨p, hp, hfp⟩ := List.mem_flatMap.1 hfo
      exact (hb.2.2 p (List.mem_filter.1 hp).1 f hfp).1 hf
    · rintro ⟨h3, h4, h5⟩
      obtain ⟨h6, h7⟩ := List.mem_filter.1 h3
      rcases hA.fed f h6 c (by simpa using h7) hc hf with h8 | h8
      · rw [h8] at h4; cases h4
      · rw [h8] at h5; cases h5

/-- Linking or resetting slots. -/
theorem setRates_in (l : List ℕ) {r r' : ℕ → Option K} {v v' : ℕ → Option K} (hv : ∀ f ∈ l, v f = v' f) {x : ℕ} (h : r x = r' x) :
    l.foldl (fun q f => upd q f (v f)) r x = l.foldl (fun q f => upd q f (v' f)) r' x := by
  rw [foldl_upd, foldl_upd]
  split
  · exact hv x ‹_›
  · exact h

theorem setRates_out {l : List ℕ} (hl : ∀ f ∈ l, ¬ P.F f) (r v : ℕ → Option K) {x : ℕ} (hx : P.F x) :
    r x = l.foldl (fun q f => upd q f (v f)) r x := by
  rw [foldl_upd, if_neg]
  exact fun h => hl x h hx

end Apart

end HB
