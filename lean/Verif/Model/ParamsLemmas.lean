import Verif.Spec.Params
import Mathlib.Data.List.Nodup
import Mathlib.Data.List.Forall2

/-! # Lemmas on parameter pointers -/

set_option linter.unusedSectionVars false

namespace HB.Par
open HB.Names

section
variable {V : Type}

theorem hasParam_iff (nm : String) (ps : List (String × V)) : hasParam nm ps = decide (nm ∈ ps.map Prod.fst) := by
  rw [Bool.eq_iff_iff]
  simp [hasParam, List.any_eq_true]

theorem hasParam_erase {ps ps' : List (String × V)} (h : erasePs ps = erasePs ps') (nm : String) :
    hasParam nm ps = hasParam nm ps' := by
  rw [hasParam_iff, hasParam_iff]; unfold erasePs at h; rw [h]

theorem bindOne_again {ps ps' : List (String × V)} (h : erasePs ps = erasePs ps') (a a' : Home) (n : Need) {t : Tgt}
    (ht : bindOne a ps n .null = some t) : ∃ t', bindOne a' ps' n .null = some t' ∧ bindOne a' ps' n t = some t' := by
  unfold bindOne at ht ⊢
  have e : (fun nm => hasParam nm ps) = fun nm => hasParam nm ps' := funext fun nm => hasParam_erase h nm
  rw [e] at ht
  cases hf : n.names.find? fun nm => hasParam nm ps' with
  | some nm => exact ⟨_, rfl, rfl⟩
  | none =>
    rw [hf] at ht
    cases ho : n.other with
    | throw => simp [ho] at ht
    | keep =>
      simp only [ho, Option.some.injEq] at ht
      subst ht
      exact ⟨_, rfl, rfl⟩
    | one => exact ⟨_, rfl, rfl⟩

theorem bindAll_again {ps ps' : List (String × V)} (h : erasePs ps = erasePs ps') (a a' : Home) :
    ∀ (ns : List Need) (ts : List Tgt), bindAll a ps ns [] = some ts →
      ∃ ts', bindAll a' ps' ns [] = some ts' ∧ bindAll a' ps' ns ts = some ts' := by
  intro ns
  induction ns with
  | nil => intro ts _; exact ⟨[], rfl, rfl⟩
  | cons n ns ih =>
    intro ts hts
    simp only [bindAll, List.headD_nil, List.tail_nil, Option.bind_eq_some_iff, Option.map_eq_some_iff] at hts
    obtain ⟨t, ht, r, hr, rfl⟩ := hts
    obtain ⟨t', e1, e2⟩ := bindOne_again h a a' n ht
    obtain ⟨r', e3, e4⟩ := ih r hr
    exact ⟨t' :: r', by simp [bindAll, e1, e3], by simp [bindAll, e2, e4]⟩

theorem createProcs_again (aspect : String) (a a' : Home) (c : Category) : ∀ (ss ss' : List (ProcSet V)),
    (ss.map fun p => (p.name, p.type, erasePs p.params)) = (ss'.map fun p => (p.name, p.type, erasePs p.params)) →
    ∀ (j : ℕ) (ps : List BProc), createProcs aspect a c j ss = some ps →
      ∃ ps', createProcs aspect a' c j ss' = some ps' ∧ updProcs aspect a' j ss' ps = some ps' := by
  intro ss
  induction ss with
  | nil =>
    intro ss' h j ps hp
    have : ss' = [] := by simpa using h.symm
    subst this
    simp only [createProcs, Option.some.injEq] at hp
    subst hp
    exact ⟨[], rfl, rfl⟩
  | cons s ss ih =>
    intro ss' h j ps hp
    cases ss' with
    | nil => simp at h
    | cons s' ss' =>
      simp only [List.map_cons, List.cons.injEq, Prod.mk.injEq] at h
      obtain ⟨⟨_, ht, hps⟩, hrest⟩ := h
      unfold createProcs at hp ⊢
      rw [← ht]
      cases hf : processFactory s.type c with
      | error => simp [hf] at hp
      | nullDeref => simp [hf] at hp
      | ok pc =>
        obtain ⟨pc, st⟩ := pc
        simp only [hf, Option.bind_eq_some_iff, Option.map_eq_some_iff, BProc.setParams] at hp
        obtain ⟨q, ⟨ts, hts, rfl⟩, r, hr, rfl⟩ := hp
        obtain ⟨ts', e1, e2⟩ := bindAll_again hps _ ⟨a'.obj, a'.variant, procPlace a'.place j⟩ _ _ hts
        obtain ⟨r', e3, e4⟩ := ih ss' hrest (j + 1) r hr
        refine ⟨⟨pc, ts'⟩ :: r', ?_, ?_⟩
        · simp [BProc.setParams, e1, e3]
        · simp [updProcs, BProc.setParams, e2, e4]

/-- A brick as created from settings, with the given infinite-storage flag. -/
def BrickFrom (aspect : String) (h : Home) (inf : Bool) (s : BrickSet V) (b : BBrick) : Prop :=
  ∃ b0, createBrick (fun _ => true) aspect h s = some b0 ∧ b = { b0 with infinite := inf }

/-- The brick is a glacier whose settings ask for infinite storage. -/
def asksInfinite (zero : V → Bool) (s : BrickSet V) : Bool :=
  decide (brickMap.lookup s.type = some .glacier) && saysInfinite zero s.params

theorem buildBrick_ok {t : String} {c : BrickClass} : buildBrick t = .ok c ↔ brickMap.lookup t = some c := by
  unfold buildBrick
  cases brickMap.lookup t <;> simp

theorem buildSplitter_ok {t : String} {c : SplitClass} : buildSplitter t = .ok c ↔ splitterMap.lookup t = some c := by
  unfold buildSplitter
  cases splitterMap.lookup t <;> simp

theorem saysInfinite_true (ps : List (String × V)) : saysInfinite (fun _ => true) ps = false := by
  unfold saysInfinite; split <;> rfl

/-- Creation, unfolded. -/
theorem createBrick_iff (zero : V → Bool) (aspect : String) (h : Home) (s : BrickSet V) (b : BBrick) :
    createBrick zero aspect h s = some b ↔
      b.name = s.name ∧ brickMap.lookup s.type = some b.cls ∧ bindAll h s.params (brickNeeds b.cls) [] = some b.ptrs ∧
      b.infinite = asksInfinite zero s ∧ createProcs aspect h (categoryOf b.cls) 0 s.procs = some b.procs := by
  unfold createBrick asksInfinite
  obtain ⟨bn, bc, bp, bi, bps⟩ := b
  cases hb : buildBrick s.type with
  | ok c =>
    have hl := buildBrick_ok.1 hb
    simp only [BBrick.setParams, Option.bind_eq_some_iff, Option.map_eq_some_iff, hl, Option.some.injEq]
    constructor
    · rintro ⟨x, ⟨ts, hts, rfl⟩, ps, hps, e⟩
      simp only [BBrick.mk.injEq] at e
      obtain ⟨rfl, rfl, rfl, rfl, rfl⟩ := e
      refine ⟨rfl, rfl, hts, ?_, hps⟩
      simp
    · rintro ⟨e1, e2, e3, e4, e5⟩
      subst e1 e2 e4
      exact ⟨_, ⟨_, e3, rfl⟩, _, e5, by simp⟩
  | error =>
    have hl : ∀ c, brickMap.lookup s.type ≠ some c := fun c hc => by rw [buildBrick_ok.2 hc] at hb; cases hb
    simp [hl]
  | nullDeref =>
    have hl : ∀ c, brickMap.lookup s.type ≠ some c := fun c hc => by rw [buildBrick_ok.2 hc] at hb; cases hb
    simp [hl]

theorem asksInfinite_true (s : BrickSet V) : asksInfinite (fun _ => true) s = false := by
  simp [asksInfinite, saysInfinite_true]

theorem brickFrom_iff (aspect : String) (h : Home) (inf : Bool) (s : BrickSet V) (b : BBrick) :
    BrickFrom aspect h inf s b ↔
      b.name = s.name ∧ brickMap.lookup s.type = some b.cls ∧ bindAll h s.params (brickNeeds b.cls) [] = some b.ptrs ∧
      b.infinite = inf ∧ createProcs aspect h (categoryOf b.cls) 0 s.procs = some b.procs := by
  unfold BrickFrom
  constructor
  · rintro ⟨b0, h0, rfl⟩
    obtain ⟨e1, e2, e3, _, e5⟩ := (createBrick_iff _ _ _ _ _).1 h0
    exact ⟨e1, e2, e3, rfl, e5⟩
  · rintro ⟨e1, e2, e3, e4, e5⟩
    refine ⟨{ b with infinite := false }, (createBrick_iff _ _ _ _ _).2 ⟨e1, e2, e3, ?_, e5⟩, ?_⟩
    · simp [asksInfinite_true]
    · rw [← e4]

theorem createBrick_from {zero : V → Bool} {aspect : String} {h : Home} {s : BrickSet V} {b : BBrick} :
    createBrick zero aspect h s = some b ↔ BrickFrom aspect h (asksInfinite zero s) s b := by
  rw [brickFrom_iff, createBrick_iff]

/-- Updating a brick gives what creating it from the new settings gives, except that infinite storage stays. -/
theorem updBrick_from {zero : V → Bool} {aspect : String} {h : Home} (h' : Home) {inf : Bool} {s s' : BrickSet V} {b : BBrick}
    (hs : eraseBrick s = eraseBrick s') (hb : BrickFrom aspect h inf s b) :
    ∃ b', updBrick zero aspect h' s' b = some b' ∧ BrickFrom aspect h' (inf || asksInfinite zero s') s' b' := by
  obtain ⟨e1, e2, e3, e4, e5⟩ := (brickFrom_iff _ _ _ _ _).1 hb
  simp only [eraseBrick, Prod.mk.injEq] at hs
  obtain ⟨hn, ht, hp, hq⟩ := hs
  obtain ⟨ts', f1, f2⟩ := bindAll_again hp h h' _ _ e3
  obtain ⟨ps', f3, f4⟩ := createProcs_again aspect h h' _ _ _ hq 0 _ e5
  have hcls : decide (b.cls = .glacier) = decide (brickMap.lookup s'.type = some .glacier) := by
    rw [← ht, e2]; simp
  refine ⟨{ b with ptrs := ts', infinite := inf || asksInfinite zero s', procs := ps' }, ?_, ?_⟩
  · simp only [updBrick, BBrick.setParams, f2, f4, Option.map_some, Option.bind_some, asksInfinite, ← hcls, e4]
  · rw [brickFrom_iff]
    exact ⟨by rw [← hn]; exact e1, by rw [← ht]; exact e2, f1, rfl, f3⟩

/-- The same for a splitter. -/
theorem updSplit_from {h : Home} (h' : Home) {s s' : SplitSet V} {b : BSplit} (hs : eraseSplit s = eraseSplit s')
    (hb : createSplit h s = some b) :
    ∃ b', BSplit.setParams h' s' b = some b' ∧ createSplit h' s' = some b' := by
  simp only [eraseSplit, Prod.mk.injEq] at hs
  obtain ⟨hn, ht, hp⟩ := hs
  unfold createSplit at hb ⊢
  rw [← ht]
  cases hf : buildSplitter s.type with
  | error => simp [hf] at hb
  | nullDeref => simp [hf] at hb
  | ok c =>
    simp only [hf, BSplit.setParams, Option.map_eq_some_iff] at hb
    obtain ⟨ts, hts, rfl⟩ := hb
    obtain ⟨ts', f1, f2⟩ := bindAll_again hp h h' _ _ hts
    exact ⟨⟨c, ts'⟩, by simp [BSplit.setParams, f2], by simp [BSplit.setParams, f1]⟩

/-! ## Reading -/

theorem find_name (nm : String) {ps ps' : List (String × V)} (h : erasePs ps = erasePs ps') :
    ps'[ps.findIdx fun e => e.1 == nm]? = ps'.find? fun e => e.1 == nm := by
  induction ps generalizing ps' with
  | nil =>
    have : ps' = [] := by simpa [erasePs] using h.symm
    simp [this]
  | cons e ps ih =>
    cases ps' with
    | nil => simp [erasePs] at h
    | cons e' ps' =>
      simp only [erasePs, List.map_cons, List.cons.injEq] at h
      obtain ⟨h1, h2⟩ := h
      rw [List.findIdx_cons, List.find?_cons, ← h1]
      cases e.1 == nm
      · simpa using ih (ps' := ps') h2
      · simp

/-- A pointer bound by one `SetParameters` reads the value meant, whatever the settings object holds now. -/
theorem read_bindOne (one : V) (mem : ℕ → Settings V) {h : Home} {ps ps' : List (String × V)} {n : Need} {t : Tgt}
    (ht : bindOne h ps n .null = some t) (he : erasePs ps = erasePs ps')
    (hm : (((mem h.obj).variants[h.variant]?).bind fun s => paramsAt s h.place) = some ps') :
    read one mem t = meant one ps' n := by
  unfold bindOne at ht
  unfold meant
  have e : (fun nm => decide (nm ∈ ps'.map Prod.fst)) = fun nm => hasParam nm ps :=
    funext fun nm => by rw [hasParam_erase he, hasParam_iff]
  rw [e]
  cases hf : n.names.find? fun nm => hasParam nm ps with
  | some nm =>
    simp only [hf, Option.some.injEq] at ht
    subst ht
    simp only [read, hm, Option.bind_some, find_name nm he]
  | none =>
    simp only [hf] at ht
    cases ho : n.other <;> simp only [ho] at ht <;> cases ht <;> simp [read]

theorem read_bindAll (one : V) (mem : ℕ → Settings V) {h : Home} {ps ps' : List (String × V)} (he : erasePs ps = erasePs ps')
    (hm : (((mem h.obj).variants[h.variant]?).bind fun s => paramsAt s h.place) = some ps') :
    ∀ (ns : List Need) (ts : List Tgt), bindAll h ps ns [] = some ts → ts.map (read one mem) = ns.map (meant one ps') := by
  intro ns
  induction ns with
  | nil => intro ts h0; simp only [bindAll, Option.some.injEq] at h0; subst h0; rfl
  | cons n ns ih =>
    intro ts hts
    simp only [bindAll, List.headD_nil, List.tail_nil, Option.bind_eq_some_iff, Option.map_eq_some_iff] at hts
    obtain ⟨t, ht, r, hr, rfl⟩ := hts
    simp only [List.map_cons, read_bindOne one mem ht he hm, ih r hr]

theorem read_procs (one : V) (mem : ℕ → Settings V) (aspect : String) (h : Home) (c : Category) : ∀ (ss ss' : List (ProcSet V)),
    (ss.map fun p => (p.name, p.type, erasePs p.params)) = (ss'.map fun p => (p.name, p.type, erasePs p.params)) →
    ∀ (j : ℕ) (ps : List BProc), createProcs aspect h c j ss = some ps →
    (∀ k p', ss'[k]? = some p' →
      (((mem h.obj).variants[h.variant]?).bind fun s => paramsAt s (procPlace h.place (j + k))) = some p'.params) →
    List.Forall₂ (ProcReads one mem aspect) ps ss' := by
  intro ss
  induction ss with
  | nil =>
    intro ss' h1 j ps hp _
    have : ss' = [] := by simpa using h1.symm
    subst this
    simp only [createProcs, Option.some.injEq] at hp
    subst hp
    exact .nil
  | cons s ss ih =>
    intro ss' h1 j ps hp hm
    cases ss' with
    | nil => simp at h1
    | cons s' ss' =>
      simp only [List.map_cons, List.cons.injEq, Prod.mk.injEq] at h1
      obtain ⟨⟨_, ht, hps⟩, hrest⟩ := h1
      unfold createProcs at hp
      cases hf : processFactory s.type c with
      | error => simp [hf] at hp
      | nullDeref => simp [hf] at hp
      | ok pc =>
        obtain ⟨pc, st⟩ := pc
        simp only [hf, Option.bind_eq_some_iff, Option.map_eq_some_iff, BProc.setParams] at hp
        obtain ⟨q, ⟨ts, hts, rfl⟩, r, hr, rfl⟩ := hp
        refine .cons ⟨?_, ?_⟩ (ih ss' hrest (j + 1) r hr ?_)
        · rw [← ht]
          unfold processFactory at hf
          cases hl : registry.lookup (resolveAlias s.type) with
          | none => simp [hl] at hf
          | some e =>
            simp only [hl] at hf
            cases hc : createOn e.2 c with
            | none => simp [hc] at hf
            | some st' =>
              simp only [hc, Res.ok.injEq, Prod.mk.injEq] at hf
              simp [hf.1]
        · exact read_bindAll one mem (h := ⟨h.obj, h.variant, procPlace h.place j⟩) hps (by simpa using hm 0 s' (by simp)) _ _ hts
        · intro k p' hk
          have := hm (k + 1) p' (by simpa using hk)
          rwa [show j + (k + 1) = j + 1 + k by omega] at this

/-- A brick made from settings of the same shape reads what its settings object holds now at the same place. -/
theorem BrickFrom.reads {one : V} {mem : ℕ → Settings V} {aspect : String} {h : Home} {inf : Bool} {s s' : BrickSet V} {b : BBrick}
    (hb : BrickFrom aspect h inf s b) (hs : eraseBrick s = eraseBrick s')
    (h0 : (((mem h.obj).variants[h.variant]?).bind fun x => paramsAt x h.place) = some s'.params)
    (h1 : ∀ k p', s'.procs[k]? = some p' →
      (((mem h.obj).variants[h.variant]?).bind fun x => paramsAt x (procPlace h.place k)) = some p'.params) :
    BrickReads one mem aspect b s' := by
  obtain ⟨e1, e2, e3, e4, e5⟩ := (brickFrom_iff _ _ _ _ _).1 hb
  simp only [eraseBrick, Prod.mk.injEq] at hs
  obtain ⟨hn, ht, hp, hq⟩ := hs
  exact ⟨e1.trans hn, by rw [← ht]; exact e2, read_bindAll one mem hp h0 _ _ e3,
    read_procs one mem aspect h _ _ _ hq 0 _ e5 (by simpa using h1)⟩

theorem split_reads {one : V} {mem : ℕ → Settings V} {h : Home} {s s' : SplitSet V} {b : BSplit}
    (hb : createSplit h s = some b) (hs : eraseSplit s = eraseSplit s')
    (h0 : (((mem h.obj).variants[h.variant]?).bind fun x => paramsAt x h.place) = some s'.params) :
    SplitReads one mem b s' := by
  simp only [eraseSplit, Prod.mk.injEq] at hs
  obtain ⟨hn, ht, hp⟩ := hs
  unfold createSplit at hb
  cases hf : buildSplitter s.type with
  | error => simp [hf] at hb
  | nullDeref => simp [hf] at hb
  | ok c =>
    simp only [hf, BSplit.setParams, Option.map_eq_some_iff] at hb
    obtain ⟨ts, hts, rfl⟩ := hb
    exact ⟨by rw [← ht]; exact buildSplitter_ok.1 hf, read_bindAll one mem hp h0 _ _ hts⟩

/-! ## Lists by position -/

theorem mapIdxM_length {α β : Type} {f : ℕ → α → Option β} : ∀ {l : List α} {k : ℕ} {r : List β},
    mapIdxM f k l = some r → r.length = l.length := by
  intro l
  induction l with
  | nil => intro k r h; simp only [mapIdxM, Option.some.injEq] at h; subst h; rfl
  | cons a l ih =>
    intro k r h
    simp only [mapIdxM, Option.bind_eq_some_iff, Option.map_eq_some_iff] at h
    obtain ⟨b, _, r', hr, rfl⟩ := h
    simp [ih hr]

theorem mapIdxM_get {α β : Type} {f : ℕ → α → Option β} : ∀ {l : List α} {k : ℕ} {r : List β},
    mapIdxM f k l = some r → ∀ i a, l[i]? = some a → ∃ b, r[i]? = some b ∧ f (k + i) a = some b := by
  intro l
  induction l with
  | nil => intro k r h i a hi; simp at hi
  | cons x l ih =>
    intro k r h i a hi
    simp only [mapIdxM, Option.bind_eq_some_iff, Option.map_eq_some_iff] at h
    obtain ⟨b, hb, r', hr, rfl⟩ := h
    cases i with
    | zero => simp only [List.getElem?_cons_zero, Option.some.injEq] at hi; subst hi; exact ⟨b, by simp, by simpa using hb⟩
    | succ i =>
      obtain ⟨c, h1, h2⟩ := ih hr i a (by simpa using hi)
      exact ⟨c, by simpa using h1, by rwa [show k + (i + 1) = k + 1 + i by omega]⟩

/-- A list whose entries are related, position by position, to a list of settings. -/
def AtPos {α β : Type} (P : ℕ → α → β → Prop) (l : List α) (r : List β) : Prop :=
  r.length = l.length ∧ ∀ i a, l[i]? = some a → ∃ b, r[i]? = some b ∧ P i a b

theorem AtPos.forall₂ {α β : Type} {P : ℕ → α → β → Prop} {Q : β → α → Prop} {l : List α} {r : List β}
    (h : AtPos P l r) (hpq : ∀ i a b, l[i]? = some a → P i a b → Q b a) : List.Forall₂ Q r l := by
  rw [List.forall₂_iff_get]
  refine ⟨h.1, ?_⟩
  intro i h1 h2
  obtain ⟨b, hb, hp⟩ := h.2 i l[i] (List.getElem?_eq_getElem _)
  rw [List.getElem?_eq_getElem h1, Option.some.injEq] at hb
  subst hb
  exact hpq i _ _ (List.getElem?_eq_getElem _) hp

theorem AtPos.get' {α β : Type} {P : ℕ → α → β → Prop} {l : List α} {r : List β} (h : AtPos P l r) {i : ℕ} {b : β}
    (hb : r[i]? = some b) : ∃ a, l[i]? = some a ∧ P i a b := by
  have hi : i < l.length := by
    rw [← h.1]
    exact (List.getElem?_eq_some_iff.1 hb).1
  obtain ⟨b', hb', hp⟩ := h.2 i l[i] (List.getElem?_eq_getElem hi)
  rw [hb] at hb'
  cases hb'
  exact ⟨_, List.getElem?_eq_getElem hi, hp⟩

/-- A loop by position over new settings, starting from components related to the old ones. -/
theorem updIdx_atPos {α β : Type} {P P' : ℕ → α → β → Prop} {f : ℕ → α → β → Option β} : ∀ (l l' : List α) (r : List β) (k : ℕ),
    l.length = l'.length → AtPos (fun i => P (k + i)) l r →
    (∀ i a a' b, l[i]? = some a → l'[i]? = some a' → P (k + i) a b → ∃ b', f (k + i) a' b = some b' ∧ P' (k + i) a' b') →
    ∃ r', updIdx f k l' r = some r' ∧ AtPos (fun i => P' (k + i)) l' r' := by
  intro l
  induction l with
  | nil =>
    intro l' r k hl h _
    have : l' = [] := by simpa using hl.symm
    subst this
    have : r = [] := by simpa using h.1
    subst this
    exact ⟨[], rfl, by constructor <;> simp⟩
  | cons a l ih =>
    intro l' r k hl h hf
    cases l' with
    | nil => simp at hl
    | cons a' l' =>
      cases r with
      | nil => simp [AtPos] at h
      | cons b r =>
        obtain ⟨b1, hb1, hp⟩ := h.2 0 a (by simp)
        simp only [List.getElem?_cons_zero, Option.some.injEq] at hb1
        subst hb1
        obtain ⟨b', e1, e2⟩ := hf 0 a a' b (by simp) (by simp) hp
        obtain ⟨r', e3, e4⟩ := ih l' r (k + 1) (by simpa using hl)
          ⟨by simpa using h.1, fun i x hx => by
            obtain ⟨y, hy, hpy⟩ := h.2 (i + 1) x (by simpa using hx)
            exact ⟨y, by simpa using hy, by rwa [show k + (i + 1) = k + 1 + i by omega] at hpy⟩⟩
          (fun i x x' y hx hx' hy => by
            have := hf (i + 1) x x' y (by simpa using hx) (by simpa using hx')
            rw [show k + (i + 1) = k + 1 + i by omega] at this
            exact this hy)
        refine ⟨b' :: r', by simp only [updIdx]; rw [show k = k + 0 by rfl, e1]; simp [e3], ?_⟩
        refine ⟨by simpa using e4.1, ?_⟩
        intro i x hx
        cases i with
        | zero => simp only [List.getElem?_cons_zero, Option.some.injEq] at hx; subst hx; exact ⟨b', by simp, e2⟩
        | succ i =>
          obtain ⟨y, hy, hpy⟩ := e4.2 i x (by simpa using hx)
          exact ⟨y, by simpa using hy, by show P' (k + (i + 1)) x y; rwa [show k + (i + 1) = k + 1 + i by omega]⟩

/-! ## Bricks of a unit, by name -/

theorem updFirst_map {α : Type} (p : α → Bool) (f : α → α) {g : ℕ → α} : ∀ (l : List ℕ) (i : ℕ), l.Nodup → i ∈ l →
    (∀ j ∈ l, p (g j) = true ↔ j = i) →
    updFirst p f (l.map g) = l.map fun j => if j = i then f (g i) else g j := by
  intro l i
  induction l with
  | nil => intro _ h; simp at h
  | cons a l ih =>
    intro hn hi hp
    rw [List.nodup_cons] at hn
    simp only [List.map_cons, updFirst]
    by_cases ha : a = i
    · subst ha
      rw [if_pos ((hp a (by simp)).2 rfl)]
      simp only [if_true, List.cons.injEq, true_and]
      apply List.map_congr_left
      intro j hj
      have : j ≠ a := fun e => hn.1 (e ▸ hj)
      simp [this]
    · have hpa : ¬ p (g a) = true := fun h => ha ((hp a (by simp)).1 h)
      rw [if_neg hpa, if_neg ha, ih hn.2 (by simpa [Ne.symm ha] using hi) fun j hj => hp j (by simp [hj])]

theorem find_map {α : Type} (p : α → Bool) {g : ℕ → α} : ∀ (l : List ℕ) (i : ℕ), i ∈ l →
    (∀ j ∈ l, p (g j) = true ↔ j = i) → (l.map g).find? p = some (g i) := by
  intro l i
  induction l with
  | nil => intro h; simp at h
  | cons a l ih =>
    intro hi hp
    rw [List.map_cons, List.find?_cons]
    by_cases ha : a = i
    · subst ha
      rw [(hp a (by simp)).2 rfl]
    · have : p (g a) = false := by simpa using fun h => ha ((hp a (by simp)).1 h)
      rw [this]
      exact ih (by simpa [Ne.symm ha] using hi) fun j hj => hp j (by simp [hj])

theorem updNamed_map {f : BBrick → Option BBrick} {g : ℕ → BBrick} {l : List ℕ} {i : ℕ} {x : BBrick} (hn : l.Nodup) (hi : i ∈ l)
    (hinj : ∀ j ∈ l, (g j).name = (g i).name → j = i) (hx : f (g i) = some x) :
    updNamed (g i).name f (l.map g) = some (l.map fun j => if j = i then x else g j) := by
  have hp : ∀ j ∈ l.reverse, (fun b : BBrick => b.name == (g i).name) (g j) = true ↔ j = i := by
    intro j hj
    simp only [beq_iff_eq]
    exact ⟨fun h => hinj j (by simpa using hj) h, fun h => by rw [h]⟩
  unfold updNamed
  rw [← List.map_reverse, find_map _ l.reverse i (by simpa using hi) hp, Option.bind_some, hx]
  simp only
  rw [updFirst_map _ _ l.reverse i (List.nodup_reverse.2 hn) (by simpa using hi) hp, ← List.map_reverse, List.reverse_reverse]

theorem updBrick_name {zero : V → Bool} {aspect : String} {h : Home} {s : BrickSet V} {b x : BBrick}
    (hx : updBrick zero aspect h s b = some x) : x.name = b.name := by
  simp only [updBrick, BBrick.setParams, Option.bind_eq_some_iff, Option.map_eq_some_iff] at hx
  obtain ⟨b', ⟨ts, _, rfl⟩, ps, _, rfl⟩ := hx
  rfl

/-- The loop over the bricks of a unit reaches each brick once. -/
theorem updBricks_map {zero : V → Bool} {aspect : String} {obj v : ℕ} {l : List ℕ} (hn : l.Nodup) :
    ∀ (ss : List (BrickSet V)) (k : ℕ) (g : ℕ → BBrick),
    (∀ i ∈ l, ∀ j ∈ l, (g j).name = (g i).name → j = i) →
    (∀ j a, ss[j]? = some a → (k + j) ∈ l ∧ (g (k + j)).name = a.name ∧
      ∃ x, updBrick zero aspect ⟨obj, v, .unitBrick (k + j)⟩ a (g (k + j)) = some x) →
    ∃ g', updBricks zero aspect obj v k ss (l.map g) = some (l.map g') ∧
      (∀ j a, ss[j]? = some a → updBrick zero aspect ⟨obj, v, .unitBrick (k + j)⟩ a (g (k + j)) = some (g' (k + j))) ∧
      ∀ i, i < k → g' i = g i := by
  intro ss
  induction ss with
  | nil => intro k g _ _; exact ⟨g, rfl, by simp, fun _ _ => rfl⟩
  | cons a ss ih =>
    intro k g hinj h
    obtain ⟨hk, hname, x, hx⟩ := h 0 a (by simp)
    rw [Nat.add_zero] at hk hname hx
    have hxn := updBrick_name hx
    have hg1 : ∀ i, ((fun j => if j = k then x else g j) i).name = (g i).name := by
      intro i
      by_cases hi : i = k
      · subst hi; simp [hxn]
      · simp [hi]
    obtain ⟨g', e1, e2, e3⟩ := ih (k + 1) (fun j => if j = k then x else g j)
      (fun i hi j hj => by rw [hg1, hg1]; exact hinj i hi j hj)
      (fun j b hb => by
        have := h (j + 1) b (by simpa using hb)
        rw [show k + (j + 1) = k + 1 + j by omega] at this
        obtain ⟨h1, h2, h3⟩ := this
        refine ⟨h1, by rw [hg1]; exact h2, ?_⟩
        simpa [show k + 1 + j ≠ k by omega] using h3)
    refine ⟨g', ?_, ?_, ?_⟩
    · rw [updBricks, ← hname, updNamed_map hn hk (fun j hj => hinj k hk j hj) hx, Option.bind_some]
      exact e1
    · intro j b hb
      cases j with
      | zero =>
        simp only [List.getElem?_cons_zero, Option.some.injEq] at hb
        subst hb
        rw [Nat.add_zero, hx, e3 k (by omega)]
        simp
      | succ j =>
        have := e2 j b (by simpa using hb)
        simp only [show k + 1 + j ≠ k by omega, if_false] at this
        rwa [show k + (j + 1) = k + 1 + j by omega]
    · intro i hi
      rw [e3 i (by omega)]
      simp [show i ≠ k by omega]

theorem order_mem {surf : List ℕ} {s : Variant V} (h : ∀ i ∈ surf ++ s.coverIdx, i < s.unitBricks.length) (i : ℕ) :
    i ∈ order surf s ↔ i < s.unitBricks.length := by
  unfold order
  simp only [List.mem_append, List.mem_filter, List.mem_range, Bool.and_eq_true, Bool.not_eq_true', List.contains_eq_mem,
    decide_eq_false_iff_not] at h ⊢
  constructor
  · rintro ((h1 | h1) | h1)
    · exact h i (.inl h1)
    · exact h i (.inr h1)
    · exact h1.1
  · intro h1
    by_cases h2 : i ∈ surf
    · exact .inl (.inl h2)
    · by_cases h3 : i ∈ s.coverIdx
      · exact .inl (.inr h3)
      · exact .inr ⟨h1, h2, h3⟩

theorem order_nodup {surf : List ℕ} {s : Variant V} (h : (surf ++ s.coverIdx).Nodup) : (order surf s).Nodup := by
  unfold order
  refine List.Nodup.append h (List.nodup_range.filter _) ?_
  intro i h1 h2
  simp only [List.mem_append, List.mem_filter, List.mem_range, Bool.and_eq_true, Bool.not_eq_true', List.contains_eq_mem,
    decide_eq_false_iff_not] at h1 h2
  rcases h1 with h1 | h1
  · exact h2.2.1 h1
  · exact h2.2.2 h1

end

end HB.Par
