import Verif.Model.Overdraft
import Verif.Spec.Overdraft

/-!
# A brick computed directly

Used for C71.
-/

set_option linter.unusedSectionVars false

namespace HB

open Spec

variable {K σ : Type} [Field K] [LinearOrder K] [IsStrictOrderedRing K]

/-- The containers keep their flags. -/
def SameFlags (ph ph' : Phys K) : Prop :=
  ∀ d, (ph'.cont d).infinite = (ph.cont d).infinite ∧ (ph'.cont d).allowNeg = (ph.cont d).allowNeg

theorem SameFlags.refl (ph : Phys K) : SameFlags ph ph := fun _ => ⟨rfl, rfl⟩

theorem SameFlags.trans {a b c : Phys K} (h : SameFlags a b) (h' : SameFlags b c) : SameFlags a c :=
  fun d => ⟨(h' d).1.trans (h d).1, (h' d).2.trans (h d).2⟩

theorem SameFlags.limited {a b : Phys K} (h : SameFlags a b) (d : ℕ) : Limited b d ↔ Limited a d := by
  unfold Limited; rw [(h d).1, (h d).2]

/-! ## Booking the inputs -/

theorem readCont_facts (net : Net K) (ph : Phys K) (hamt : ∀ f, 0 ≤ ph.amt f) (c : ℕ × Bool) :
    (readCont net ph c).amt = ph.amt ∧ (readCont net ph c).logs = ph.logs ∧ SameFlags ph (readCont net ph c) ∧
    ∀ d, ((readCont net ph c).cont d).content = (ph.cont d).content ∧ (ph.cont d).dyn ≤ ((readCont net ph c).cont d).dyn ∧
      (ph.cont d).stat ≤ ((readCont net ph c).cont d).stat ∧
      ((ph.cont d).infinite = false → c = (d, true) → ((readCont net ph c).cont d).stat = (ph.cont d).stat + sumIncoming net ph d) := by
  have hs : ∀ d, 0 ≤ sumIncoming net ph d := by
    intro d
    apply sum_map_nonneg
    intro f _
    unfold getAmount
    split
    · exact _root_.le_refl _
    · exact hamt f
  obtain ⟨c, st⟩ := c
  refine ⟨rfl, rfl, fun d => ?_, fun d => ?_⟩
  · simp only [readCont, upd]
    by_cases h : d = c
    · subst h
      rw [if_pos rfl]
      cases st <;> cases hi : (ph.cont d).infinite <;> simp [Cont.addStat, Cont.addDyn, hi]
    · rw [if_neg h]; exact ⟨rfl, rfl⟩
  · simp only [readCont, upd]
    by_cases h : d = c
    · subst h
      rw [if_pos rfl]
      have := hs d
      cases st <;> cases hi : (ph.cont d).infinite <;> simp [Cont.addStat, Cont.addDyn, hi, this]
    · rw [if_neg h]
      exact ⟨rfl, _root_.le_refl _, _root_.le_refl _, fun _ h2 => absurd (congrArg Prod.fst h2).symm h⟩

theorem readInputs_facts (net : Net K) : ∀ (l : List (ℕ × Bool)) (ph : Phys K), (∀ f, 0 ≤ ph.amt f) →
    (l.foldl (readCont net) ph).amt = ph.amt ∧ (l.foldl (readCont net) ph).logs = ph.logs ∧ SameFlags ph (l.foldl (readCont net) ph) ∧
    ∀ d, ((l.foldl (readCont net) ph).cont d).content = (ph.cont d).content ∧ (ph.cont d).dyn ≤ ((l.foldl (readCont net) ph).cont d).dyn ∧
      (ph.cont d).stat ≤ ((l.foldl (readCont net) ph).cont d).stat ∧
      ((ph.cont d).infinite = false → (d, true) ∈ l → (ph.cont d).stat + sumIncoming net ph d ≤ ((l.foldl (readCont net) ph).cont d).stat) := by
  intro l
  induction l with
  | nil =>
    intro ph _
    exact ⟨rfl, rfl, SameFlags.refl _, fun d => ⟨rfl, _root_.le_refl _, _root_.le_refl _, fun _ h => by cases h⟩⟩
  | cons a l ih =>
    intro ph hamt
    obtain ⟨h1, h2, h3, h4⟩ := readCont_facts net ph hamt a
    obtain ⟨i1, i2, i3, i4⟩ := ih (readCont net ph a) (by rw [h1]; exact hamt)
    rw [List.foldl_cons]
    refine ⟨i1.trans h1, i2.trans h2, h3.trans i3, fun d => ?_⟩
    obtain ⟨j1, j2, j3, j4⟩ := h4 d
    obtain ⟨k1, k2, k3, k4⟩ := i4 d
    refine ⟨k1.trans j1, j2.trans k2, j3.trans k3, fun hinf hm => ?_⟩
    rcases List.mem_cons.1 hm with h | h
    · rw [← j4 hinf h.symm]; exact k3
    · have e : sumIncoming net (readCont net ph a) d = sumIncoming net ph d := by
        unfold sumIncoming getAmount; rw [h1]
      have := k4 ((h3 d).1.trans hinf) h
      rw [e] at this
      linarith

/-! ## The processes -/

theorem sum_eq_le (w : ℕ → K) (hw : ∀ f, 0 ≤ w f) (a : ℕ) : ∀ I : List ℕ, I.Nodup → (I.map fun f => if f = a then w f else 0).sum ≤ w a := by
  intro I
  induction I with
  | nil => intro _; simpa using hw a
  | cons b I ih =>
    intro h
    obtain ⟨h1, h2⟩ := List.nodup_cons.1 h
    rw [List.map_cons, List.sum_cons]
    by_cases hb : b = a
    · subst hb
      have : (I.map fun f => if f = b then w f else 0).sum = 0 := by
        apply List.sum_eq_zero
        intro y hy
        obtain ⟨f, hf, rfl⟩ := List.mem_map.1 hy
        rw [if_neg]
        rintro rfl
        exact h1 hf
      rw [this, if_pos rfl, add_zero]
    · rw [if_neg hb, zero_add]; exact ih h2

theorem sum_mem_le (w : ℕ → K) (hw : ∀ f, 0 ≤ w f) (I : List ℕ) (hI : I.Nodup) : ∀ l : List ℕ,
    (I.map fun f => if f ∈ l then w f else 0).sum ≤ (l.map w).sum := by
  intro l
  induction l with
  | nil => simp
  | cons a l ih =>
    rw [List.map_cons, List.sum_cons]
    have h1 := sum_eq_le w hw a I hI
    have h2 : (I.map fun f => if f ∈ a :: l then w f else 0).sum ≤
        (I.map fun f => (if f = a then w f else 0) + if f ∈ l then w f else 0).sum := by
      apply sum_map_le
      intro f _
      have := hw f
      by_cases h3 : f = a
      · by_cases h4 : f ∈ l <;> simp [h3, h4] <;> (try subst h3) <;> (try simp [h4]) <;> linarith
      · by_cases h4 : f ∈ l <;> simp [h3, h4]
    rw [List.sum_map_add] at h2
    linarith

/-- What is known when the processes of a brick run: the amounts are not negative, no rate is attached to the fluxes of the direct phase. -/
structure Running (net : Net K) (ph0 : Phys K) (s : Sys K σ) : Prop where
  amt : ∀ f, 0 ≤ s.ph.amt f
  idle : ∀ f, f ∉ net.solverOuts → Idle s f
  flags : SameFlags ph0 s.ph
  logs : s.ph.logs = ph0.logs

/-- One process of a brick of the direct phase, summarized. -/
theorem proc_step {net : Net K} {laws : Laws K σ} {dt : K} (hdt : 0 < dt) {b : Brick} {ph0 : Phys K} (hS : Accountable net laws dt ph0)
    (hb : b ∈ directBricks net) {p : Proc} (hp : p ∈ b.procs) {s s' : Sys K σ} (hR : Running net ph0 s)
    (h : directProc net laws dt b s p = .ok s') :
    Running net ph0 s' ∧ ∃ x : ℕ → K, s'.ph = moveAll net p.src x p.outs s.ph ∧ (∀ f, 0 ≤ x f) ∧
      (∀ f ∈ p.outs, x f ≤ clip ((laws.rates p.pid s.hid s.ph).1 f) * dt) ∧
      (Limited s.ph p.src → (p.outs.map x).sum ≤ max 0 ((s.ph.cont p.src).content + (s.ph.cont p.src).dyn + counted net s.ph p.src)) := by
  obtain ⟨c, hc, hce⟩ := List.mem_map.1 (hS.src b hb p hp)
  have hin : ∀ f ∈ net.inputs p.src, f ∉ net.solverOuts := by
    intro f hf
    obtain ⟨h1, h2⟩ := List.mem_filter.1 hf
    exact hS.fed b hb c hc f h1 (by rw [hce]; simpa using h2)
  obtain ⟨x, h1, h2, h3, h4, h5⟩ := directProc_moves hdt h hp (hS.exchange b hb p hp _ _) (by rw [← hce]; exact hS.ovf b hb c hc)
    (hS.self b hb p hp) (fun f hf => hR.idle f (hin f hf))
  have hm : s'.ph = moveAll net p.src x p.outs s.ph := h1
  refine ⟨⟨fun f => ?_, fun f hf => h5 f (hR.idle f hf), ?_, ?_⟩, x, hm, h2, h3, fun hl => h4 hl.1 hl.2⟩
  · rw [hm, moveAll_amt]
    split
    · exact scale_nonneg (hS.frac f) (h2 f)
    · exact hR.amt f
  · refine hR.flags.trans fun d => ?_
    rw [hm]
    exact ⟨(moveAll_cont net p.src x d p.outs s.ph).2.1, (moveAll_cont net p.src x d p.outs s.ph).2.2.1⟩
  · rw [hm, moveAll_logs]; exact hR.logs

/-- A predicate kept by each process is kept by all. -/
theorem procs_keep {net : Net K} {laws : Laws K σ} {dt : K} (hdt : 0 < dt) {b : Brick} {ph0 : Phys K} (hS : Accountable net laws dt ph0)
    (hb : b ∈ directBricks net) (P : List Proc → Sys K σ → Prop) :
    ∀ (l done : List Proc), (∀ p ∈ l, p ∈ b.procs) →
      (∀ (p : Proc) (done : List Proc) (s s' : Sys K σ), p ∈ l → Running net ph0 s → P done s → directProc net laws dt b s p = .ok s' → P (done ++ [p]) s') →
      ∀ s s' : Sys K σ, Running net ph0 s → P done s → l.foldlM (directProc net laws dt b) s = .ok s' →
        Running net ph0 s' ∧ P (done ++ l) s' := by
  intro l
  induction l with
  | nil =>
    intro done _ _ s s' hR hP h
    simp only [List.foldlM_nil, pure, Except.pure, Except.ok.injEq] at h
    subst h
    rw [List.append_nil]
    exact ⟨hR, hP⟩
  | cons a l ih =>
    intro done hl hstep s s' hR hP h
    rw [List.foldlM_cons] at h
    cases hg : directProc net laws dt b s a with
    | error e => rw [hg] at h; simp [bind, Except.bind] at h
    | ok s1 =>
      rw [hg] at h
      have h1 := (proc_step hdt hS hb (hl a (by simp)) hR hg).1
      have := ih (done ++ [a]) (fun p hp => hl p (by simp [hp])) (fun p d s s' hp => hstep p d s s' (by simp [hp])) s1 s' h1
        (hstep a done s s1 (by simp) hR hP hg) h
      simpa using this

/-- The deposits are not negative. -/
theorem deposits_nonneg {net : Net K} {laws : Laws K σ} {dt : K} {ph0 : Phys K} (hS : Accountable net laws dt ph0) (d : ℕ) {x : ℕ → K} (hx : ∀ f, 0 ≤ x f)
    (l : List ℕ) : 0 ≤ (l.map fun f => if instInto net d f then (net.flux f).scale (x f) else 0).sum := by
  apply sum_map_nonneg
  intro f _
  split
  · exact scale_nonneg (hS.frac f) (hx f)
  · exact _root_.le_refl _

/-- The container of another brick is not drawn from. -/
theorem other_keep {net : Net K} {laws : Laws K σ} {dt : K} (hdt : 0 < dt) {b : Brick} {ph0 : Phys K} (hS : Accountable net laws dt ph0)
    (hb : b ∈ directBricks net) {p : Proc} (hp : p ∈ b.procs) {s s' : Sys K σ} (hR : Running net ph0 s)
    (h : directProc net laws dt b s p = .ok s') (d : ℕ) (hd : p.src ≠ d) :
    (s'.ph.cont d).content = (s.ph.cont d).content ∧ ((s.ph.cont d).infinite = false → (s'.ph.cont d).dyn = (s.ph.cont d).dyn ∧
      (s.ph.cont d).stat ≤ (s'.ph.cont d).stat) := by
  obtain ⟨_, x, hm, hx, _, _⟩ := proc_step hdt hS hb hp hR h
  obtain ⟨h1, _, _, h4, h5⟩ := moveAll_cont net p.src x d p.outs s.ph
  rw [hm]
  refine ⟨h1, fun hinf => ⟨?_, ?_⟩⟩
  · rw [h4 hinf, if_neg hd, sub_zero]
  · rw [h5 hinf]
    have := deposits_nonneg hS d hx p.outs
    linarith

/-- A modestly used container is not overdrawn. -/
theorem modest_keep {net : Net K} {laws : Laws K σ} {dt : K} (hdt : 0 < dt) {b : Brick} {ph0 : Phys K} (hS : Accountable net laws dt ph0)
    (hb : b ∈ directBricks net) {p : Proc} (hp : p ∈ b.procs) {s s' : Sys K σ} (hR : Running net ph0 s)
    (h : directProc net laws dt b s p = .ok s') (d : ℕ) (hM : Modest laws dt b d) (hlim : Limited ph0 d) (h0 : 0 ≤ holds s.ph d) :
    0 ≤ holds s'.ph d := by
  have hl : Limited s.ph d := (hR.flags.limited d).2 hlim
  obtain ⟨_, x, hm, hx, hxc, _⟩ := proc_step hdt hS hb hp hR h
  obtain ⟨h1, _, _, h4, h5⟩ := moveAll_cont net p.src x d p.outs s.ph
  unfold holds at h0 ⊢
  rw [hm, h1, h4 hl.1, h5 hl.1]
  have hd := deposits_nonneg hS d hx p.outs
  split
  · rename_i hsrc
    have h6 := hM p hp hsrc s.hid s.ph hl h0
    have h7 : (p.outs.map x).sum ≤ (p.outs.map fun f => max 0 ((laws.rates p.pid s.hid s.ph).1 f) * dt).sum := by
      apply sum_map_le
      intro f hf
      have := hxc f hf
      rwa [clip_eq_max, max_comm] at this
    unfold holds at h6
    linarith
  · linarith

/-- Before anything is drawn: the instantaneous inflows of the processes done are in the static change. -/
def Deposited (net : Net K) (d : ℕ) (base : K) (done : List Proc) (ph : Phys K) : Prop :=
  base + ((net.inputs d).map fun f => if f ∈ done.flatMap (·.outs) then (if (net.flux f).inst = true then ph.amt f else 0) else 0).sum ≤ (ph.cont d).stat

theorem inputs_nodup {net : Net K} (h : net.fluxes.Nodup) (d : ℕ) : (net.inputs d).Nodup := h.filter _

theorem deposited_step {net : Net K} {laws : Laws K σ} {dt : K} (hdt : 0 < dt) {b : Brick} {ph0 : Phys K} (hS : Accountable net laws dt ph0)
    (hb : b ∈ directBricks net) {p : Proc} (hp : p ∈ b.procs) {s s' : Sys K σ} (hR : Running net ph0 s)
    (h : directProc net laws dt b s p = .ok s') (d : ℕ) (hinf : (s.ph.cont d).infinite = false) {base : K} {done : List Proc}
    (hD : Deposited net d base done s.ph) : Deposited net d base (done ++ [p]) s'.ph := by
  obtain ⟨_, x, hm, hx, _, _⟩ := proc_step hdt hS hb hp hR h
  obtain ⟨_, _, _, _, h5⟩ := moveAll_cont net p.src x d p.outs s.ph
  unfold Deposited at hD ⊢
  rw [hm, h5 hinf]
  set w : ℕ → K := fun f => if instInto net d f = true then (net.flux f).scale (x f) else 0 with hw
  have hw0 : ∀ f, 0 ≤ w f := by
    intro f
    rw [hw]
    dsimp only
    split
    · exact scale_nonneg (hS.frac f) (hx f)
    · exact _root_.le_refl _
  have h1 := sum_mem_le w hw0 (net.inputs d) (inputs_nodup hS.nodup d) p.outs
  have h2 : ((net.inputs d).map fun f => if f ∈ (done ++ [p]).flatMap (·.outs) then
        (if (net.flux f).inst = true then (moveAll net p.src x p.outs s.ph).amt f else 0) else 0).sum ≤
      ((net.inputs d).map fun f => (if f ∈ done.flatMap (·.outs) then (if (net.flux f).inst = true then s.ph.amt f else 0) else 0) +
        if f ∈ p.outs then w f else 0).sum := by
    apply sum_map_le
    intro f hf
    have ht : (net.flux f).target = .cont d := by simpa using (List.mem_filter.1 hf).2
    have hm2 : f ∈ (done ++ [p]).flatMap (·.outs) ↔ f ∈ done.flatMap (·.outs) ∨ f ∈ p.outs := by simp
    have ha := hR.amt f
    have hwf := hw0 f
    rw [moveAll_amt]
    by_cases hpf : f ∈ p.outs
    · rw [if_pos (hm2.2 (.inr hpf)), if_pos hpf, if_pos hpf]
      have hge : (0 : K) ≤ (if f ∈ done.flatMap (·.outs) then (if (net.flux f).inst = true then s.ph.amt f else 0) else 0) := by
        split
        · split
          · exact ha
          · exact _root_.le_refl _
        · exact _root_.le_refl _
      by_cases hi : (net.flux f).inst = true
      · have : w f = (net.flux f).scale (x f) := by rw [hw]; simp [instInto, hi, ht]
        rw [if_pos hi, this]; linarith
      · rw [if_neg hi]; linarith
    · rw [if_neg hpf, if_neg hpf, add_zero]
      by_cases hdn : f ∈ done.flatMap (·.outs)
      · rw [if_pos (hm2.2 (.inl hdn)), if_pos hdn]
      · rw [if_neg (by rw [hm2]; tauto), if_neg hdn]
  rw [List.sum_map_add] at h2
  linarith

theorem counted_nonneg {net : Net K} {ph : Phys K} (h : ∀ f, 0 ≤ ph.amt f) (d : ℕ) : 0 ≤ counted net ph d := by
  apply sum_map_nonneg
  intro f _
  split
  · exact h f
  · exact _root_.le_refl _

/-- The incoming amounts known before the brick is computed. -/
def knownBefore (net : Net K) (ph : Phys K) (d : ℕ) : K :=
  ((net.inputs d).map fun f => if (net.flux f).inst = false ∧ (net.flux f).static = true then ph.amt f else 0).sum

/-- A container of which every inflow is counted once is not overdrawn. -/
theorem counted_keep {net : Net K} {laws : Laws K σ} {dt : K} (hdt : 0 < dt) {b : Brick} {ph0 : Phys K} (hS : Accountable net laws dt ph0)
    (hb : b ∈ directBricks net) {s s' : Sys K σ} (hR : Running net ph0 s)
    (h : b.procs.foldlM (directProc net laws dt b) s = .ok s') (d : ℕ) (hC : CountedOnce net b d) (hlim : Limited ph0 d)
    (h1 : 0 ≤ (s.ph.cont d).content) (h2 : 0 ≤ (s.ph.cont d).dyn) (h3 : knownBefore net s.ph d ≤ (s.ph.cont d).stat) :
    0 ≤ holds s'.ph d := by
  obtain ⟨pre, post, hpp, hpre, hpost, hinst, hall, _⟩ := hC
  have hprem : ∀ p ∈ pre, p ∈ b.procs := fun p hp => by rw [hpp]; simp [hp]
  have hpostm : ∀ p ∈ post, p ∈ b.procs := fun p hp => by rw [hpp]; simp [hp]
  rw [hpp, List.foldlM_append] at h
  cases hm : pre.foldlM (directProc net laws dt b) s with
  | error e => rw [hm] at h; simp [bind, Except.bind] at h
  | ok s2 =>
    rw [hm] at h
    -- feeding
    have hA := procs_keep hdt hS hb (fun done t => (t.ph.cont d).content = (s.ph.cont d).content ∧ (t.ph.cont d).dyn = (s.ph.cont d).dyn ∧
        Deposited net d (knownBefore net s.ph d) done t.ph ∧ ∀ f ∈ net.inputs d, (net.flux f).inst = false → t.ph.amt f = s.ph.amt f)
      pre [] hprem (by
        rintro p done t t' hp hRt ⟨i1, i2, i3, i4⟩ hst
        have hl : Limited t.ph d := (hRt.flags.limited d).2 hlim
        obtain ⟨j1, j2⟩ := other_keep hdt hS hb (hprem p hp) hRt hst d (hpre p hp)
        refine ⟨j1.trans i1, (j2 hl.1).1.trans i2, deposited_step hdt hS hb (hprem p hp) hRt hst d hl.1 i3, fun f hf hi => ?_⟩
        obtain ⟨_, x, hmv, _⟩ := proc_step hdt hS hb (hprem p hp) hRt hst
        rw [hmv, moveAll_amt, if_neg, i4 f hf hi]
        intro hfo
        rw [hinst p hp f hfo (by simpa using (List.mem_filter.1 hf).2)] at hi
        cases hi) s s2 hR
      ⟨rfl, rfl, by simpa [Deposited] using h3, fun f _ _ => rfl⟩ hm
    rw [List.nil_append] at hA
    obtain ⟨hR2, k1, k2, k3, k4⟩ := hA
    -- everything counted is there
    have hcs : counted net s2.ph d ≤ (s2.ph.cont d).stat := by
      refine le_trans ?_ k3
      unfold counted knownBefore
      rw [← List.sum_map_add]
      apply sum_map_le
      intro f hf
      have hf2 := List.mem_filter.1 hf
      have ht : (net.flux f).target = .cont d := by simpa using hf2.2
      by_cases hi : (net.flux f).inst = true
      · have hmem : f ∈ pre.flatMap (·.outs) := by
          obtain ⟨p, hp, hfp⟩ := hall f hf2.1 ht hi
          exact List.mem_flatMap.2 ⟨p, hp, hfp⟩
        rw [if_pos hmem]
        simp [hi]
      · rw [Bool.not_eq_true] at hi
        have := k4 f hf hi
        cases hst : (net.flux f).static <;> simp [hi, this]
    have hC0 := counted_nonneg (net := net) hR2.amt d
    -- drawing
    have hB := procs_keep hdt hS hb (fun _ t => 0 ≤ (t.ph.cont d).content + (t.ph.cont d).dyn + counted net t.ph d ∧
        counted net t.ph d ≤ (t.ph.cont d).stat)
      post [] hpostm (by
        rintro p done t t' hp hRt ⟨i1, i2⟩ hst
        have hl : Limited t.ph d := (hRt.flags.limited d).2 hlim
        obtain ⟨_, x, hmv, hx, _, hsum⟩ := proc_step hdt hS hb (hpostm p hp) hRt hst
        obtain ⟨m1, _, _, m4, m5⟩ := moveAll_cont net p.src x d p.outs t.ph
        have hcc : counted net t'.ph d = counted net t.ph d := by
          unfold counted
          congr 1
          apply List.map_congr_left
          intro f hf
          have hfo : f ∉ p.outs := fun hfo => hpost p hp f hfo (by simpa using (List.mem_filter.1 hf).2)
          have : t'.ph.amt f = t.ph.amt f := by rw [hmv, moveAll_amt, if_neg hfo]
          rw [this]
        have hdep := deposits_nonneg hS d hx p.outs
        rw [hcc, hmv, m1, m4 hl.1, m5 hl.1]
        refine ⟨?_, by linarith⟩
        by_cases hsrc : p.src = d
        · rw [if_pos hsrc]
          have := hsum (by rw [hsrc]; exact hl)
          rw [hsrc, max_eq_right i1] at this
          linarith
        · rw [if_neg hsrc]; linarith) s2 s' hR2 ⟨by rw [k1, k2]; linarith, hcs⟩ h
    obtain ⟨_, l1, l2⟩ := hB
    unfold holds
    linarith

/-! ## The end of the step of a brick -/

theorem finalize_facts (k : Cont K) (h : k.infinite = false → k.allowNeg = false → 0 ≤ k.content + k.dyn + k.stat) :
    k.logsNegative = false ∧ k.finalize.infinite = k.infinite ∧ k.finalize.allowNeg = k.allowNeg ∧
    (k.infinite = false → k.allowNeg = false → 0 ≤ k.finalize.content ∧ k.finalize.dyn = 0 ∧ k.finalize.stat = 0) := by
  have hlog : k.logsNegative = false := by
    unfold Cont.logsNegative
    dsimp only
    cases hi : k.infinite
    · cases hn : k.allowNeg
      · have := h hi hn
        have h3 : lessThan (k.content + (k.dyn + k.stat)) 0 prec = false := by
          unfold lessThan
          rw [decide_eq_false_iff_not]
          have := prec_nonneg (K := K)
          linarith
        simp [h3]
      · simp
    · simp
  refine ⟨hlog, ?_⟩
  unfold Cont.finalize
  dsimp only
  cases hi : k.infinite
  · cases hn : k.allowNeg
    · have h0 := h hi hn
      simp only [Bool.false_eq_true, if_false]
      split
      · simp [hi, hn]
      · split
        · simp [hi, hn]
        · refine ⟨rfl, rfl, fun _ _ => ⟨by linarith, rfl, rfl⟩⟩
    · simp [hi, hn]
  · simp [hi]

theorem finConts_facts : ∀ (l : List (ℕ × Bool)) (ph : Phys K),
    (∀ c ∈ l, Limited ph c.1 → 0 ≤ holds ph c.1) →
    (l.foldl (fun ph c => finCont ph c.1) ph).logs = ph.logs ∧ (l.foldl (fun ph c => finCont ph c.1) ph).amt = ph.amt ∧
    SameFlags ph (l.foldl (fun ph c => finCont ph c.1) ph) ∧
    (∀ d, d ∉ l.map (·.1) → (l.foldl (fun ph c => finCont ph c.1) ph).cont d = ph.cont d) ∧
    (∀ d, Limited ph d → (d ∈ l.map (·.1) ∨ 0 ≤ (ph.cont d).content ∧ 0 ≤ (ph.cont d).dyn ∧ 0 ≤ (ph.cont d).stat) →
      0 ≤ ((l.foldl (fun ph c => finCont ph c.1) ph).cont d).content ∧
      0 ≤ ((l.foldl (fun ph c => finCont ph c.1) ph).cont d).dyn ∧ 0 ≤ ((l.foldl (fun ph c => finCont ph c.1) ph).cont d).stat) := by
  intro l
  induction l with
  | nil =>
    intro ph _
    refine ⟨rfl, rfl, SameFlags.refl _, fun _ _ => rfl, fun d _ hd => ?_⟩
    rcases hd with hd | hd
    · cases hd
    · exact hd
  | cons a l ih =>
    intro ph h
    rw [List.foldl_cons]
    obtain ⟨f1, f2, f3, f4⟩ := finalize_facts (ph.cont a.1) (fun hi hn => h a (by simp) ⟨hi, hn⟩)
    have hcont : ∀ d, (finCont ph a.1).cont d = if d = a.1 then (ph.cont a.1).finalize else ph.cont d := fun d => rfl
    have hflags : SameFlags ph (finCont ph a.1) := by
      intro d
      rw [hcont]
      by_cases hd : d = a.1
      · subst hd; rw [if_pos rfl]; exact ⟨f2, f3⟩
      · rw [if_neg hd]; exact ⟨rfl, rfl⟩
    have hlogs : (finCont ph a.1).logs = ph.logs := by
      show (if (ph.cont a.1).logsNegative = true then ph.logs + 1 else ph.logs) = _
      rw [f1]; rfl
    obtain ⟨i1, i2, i3, i4, i5⟩ := ih (finCont ph a.1) (by
      intro c hc hl
      have hl0 := (hflags.limited c.1).1 hl
      unfold holds
      rw [hcont]
      by_cases hd : c.1 = a.1
      · rw [if_pos hd]
        rw [hd] at hl0
        obtain ⟨g1, g2, g3⟩ := f4 hl0.1 hl0.2
        rw [g2, g3]; linarith
      · rw [if_neg hd]; exact h c (by simp [hc]) hl0)
    refine ⟨i1.trans hlogs, i2.trans rfl, hflags.trans i3, fun d hd => ?_, fun d hl hd => ?_⟩
    · rw [List.map_cons, List.mem_cons, not_or] at hd
      rw [i4 d hd.2, hcont, if_neg hd.1]
    · refine i5 d ((hflags.limited d).2 hl) ?_
      by_cases hda : d = a.1
      · right
        rw [hcont, if_pos hda]
        rw [hda] at hl
        obtain ⟨g1, g2, g3⟩ := f4 hl.1 hl.2
        exact ⟨g1, g2.ge, g3.ge⟩
      · rcases hd with hd | hd
        · left
          rw [List.map_cons, List.mem_cons] at hd
          exact hd.resolve_left hda
        · right
          rw [hcont, if_neg hda]; exact hd

/-- **A brick computed directly** reports no negative content. -/
theorem brick_clean {net : Net K} {laws : Laws K σ} {dt : K} (hdt : 0 < dt) {b : Brick} {ph0 : Phys K} (hS : Accountable net laws dt ph0)
    (hb : b ∈ directBricks net) {s s' : Sys K σ} (hC : Clean net s) (hF : SameFlags ph0 s.ph) (h : directBrick net laws dt s b = .ok s') :
    Clean net s' ∧ SameFlags ph0 s'.ph ∧ s'.ph.logs = s.ph.logs := by
  unfold directBrick at h
  dsimp only at h
  generalize hs1 : ({ ph := readInputs net b s.ph, rate := _, hid := _ } : Sys K σ) = s1 at h
  cases hc : b.procs.foldlM (directProc net laws dt b) s1 with
  | error e => rw [hc] at h; simp [bind, Except.bind] at h
  | ok s2 =>
    rw [hc] at h
    simp only [bind, Except.bind, pure, Except.pure, Except.ok.injEq] at h
    have hph1 : s1.ph = b.conts.foldl (readCont net) s.ph := by rw [← hs1]; rfl
    obtain ⟨r1, r2, r3, r4⟩ := readInputs_facts net b.conts s.ph hC.amt
    rw [← hph1] at r1 r2 r3 r4
    -- everything relative to the state after booking
    have hS1 : Accountable net laws dt s1.ph :=
      { hS with safe := fun b hb c hc hl => hS.safe b hb c hc (((hF.trans r3).limited c.1).1 hl) }
    have hR1 : Running net s1.ph s1 := by
      refine ⟨by rw [r1]; exact hC.amt, fun f hf => ?_, SameFlags.refl _, rfl⟩
      unfold Idle
      rw [← hs1]
      dsimp only
      rw [foldl_upd b.outs (fun _ => some 0)]
      split
      · rfl
      · exact hC.idle f hf
    have hheld1 : ∀ b' ∈ directBricks net, ∀ c ∈ b'.conts, Limited s1.ph c.1 →
        0 ≤ (s1.ph.cont c.1).content ∧ 0 ≤ (s1.ph.cont c.1).dyn ∧ 0 ≤ (s1.ph.cont c.1).stat := by
      intro b' hb' c hc' hl
      obtain ⟨h1, h2, h3⟩ := hC.held b' hb' c hc' ((r3.limited c.1).1 hl)
      obtain ⟨q1, q2, q3, _⟩ := r4 c.1
      exact ⟨by rw [q1]; exact h1, h2.trans q2, h3.trans q3⟩
    -- own containers
    have hown : Running net s1.ph s2 ∧ ∀ c ∈ b.conts, Limited s2.ph c.1 → 0 ≤ holds s2.ph c.1 := by
      have hrun := (procs_keep hdt hS1 hb (fun _ _ => True) b.procs [] (fun _ h => h) (fun _ _ _ _ _ _ _ _ => trivial) s1 s2 hR1 trivial hc).1
      refine ⟨hrun, fun c hcb hl2 => ?_⟩
      have hl1 := (hrun.flags.limited c.1).1 hl2
      obtain ⟨h1, h2, h3⟩ := hheld1 b hb c hcb hl1
      rcases hS1.safe b hb c hcb hl1 with hco | hmo
      · refine counted_keep hdt hS1 hb hR1 hc c.1 hco hl1 h1 h2 ?_
        obtain ⟨pre, post, _, _, _, _, _, hlast⟩ := hco
        rcases hlast with hlast | hlast
        · obtain ⟨_, _, _, q4⟩ := r4 c.1
          have hs0 := (hC.held b hb c hcb ((r3.limited c.1).1 hl1)).2.2
          have hq := q4 ((r3 c.1).1.symm.trans hl1.1) hlast
          refine le_trans ?_ hq
          have : knownBefore net s1.ph c.1 ≤ sumIncoming net s.ph c.1 := by
            unfold knownBefore sumIncoming
            apply sum_map_le
            intro f _
            unfold getAmount
            rw [r1]
            have := hC.amt f
            cases hi : (net.flux f).inst <;> cases hst : (net.flux f).static <;> simp [this]
          linarith
        · have : knownBefore net s1.ph c.1 = 0 := by
            unfold knownBefore
            apply List.sum_eq_zero
            intro y hy
            obtain ⟨f, hf, rfl⟩ := List.mem_map.1 hy
            have hf2 := List.mem_filter.1 hf
            rw [if_neg]
            rintro ⟨ha, hb'⟩
            rw [hlast f hf2.1 (by simpa using hf2.2) ha] at hb'
            cases hb'
          rw [this]; exact h3
      · refine (procs_keep hdt hS1 hb (fun _ t => 0 ≤ holds t.ph c.1) b.procs [] (fun _ h => h)
          (fun p done t t' hp hRt hPt hst => modest_keep hdt hS1 hb hp hRt hst c.1 hmo hl1 hPt) s1 s2 hR1 ?_ hc).2
        unfold holds; linarith
    obtain ⟨hR2, hown⟩ := hown
    -- other containers
    have hoth : ∀ b' ∈ directBricks net, ∀ c ∈ b'.conts, Limited s1.ph c.1 → c.1 ∉ b.conts.map (·.1) →
        0 ≤ (s2.ph.cont c.1).content ∧ 0 ≤ (s2.ph.cont c.1).dyn ∧ 0 ≤ (s2.ph.cont c.1).stat := by
      intro b' hb' c hc' hl hn
      refine (procs_keep hdt hS1 hb (fun _ t => 0 ≤ (t.ph.cont c.1).content ∧ 0 ≤ (t.ph.cont c.1).dyn ∧ 0 ≤ (t.ph.cont c.1).stat)
        b.procs [] (fun _ h => h) (fun p done t t' hp hRt hPt hst => ?_) s1 s2 hR1 (hheld1 b' hb' c hc' hl) hc).2
      have hsrc : p.src ≠ c.1 := fun e => hn (e ▸ hS.src b hb p hp)
      obtain ⟨j1, j2⟩ := other_keep hdt hS1 hb hp hRt hst c.1 hsrc
      obtain ⟨j3, j4⟩ := j2 ((hRt.flags.limited c.1).2 hl).1
      rw [j1, j3]
      exact ⟨hPt.1, hPt.2.1, hPt.2.2.trans j4⟩
    obtain ⟨f1, f2, f3, f4, f5⟩ := finConts_facts b.conts s2.ph hown
    have hph : s'.ph = b.conts.foldl (fun ph c => finCont ph c.1) s2.ph := by rw [← h]; rfl
    rw [← hph] at f1 f2 f3 f4 f5
    refine ⟨⟨fun f => ?_, fun b' hb' c hc' hl => ?_, fun f hf => ?_⟩, ?_, ?_⟩
    · rw [f2]; exact hR2.amt f
    · have hl2 := (f3.limited c.1).1 hl
      refine f5 c.1 hl2 ?_
      by_cases hm : c.1 ∈ b.conts.map (·.1)
      · exact .inl hm
      · exact .inr (hoth b' hb' c hc' ((hR2.flags.limited c.1).1 hl2) hm)
    · have : s'.rate = s2.rate := by rw [← h]; rfl
      rw [this]; exact hR2.idle f hf
    · exact ((hF.trans r3).trans hR2.flags).trans f3
    · rw [f1, hR2.logs, r2]

/-! ## The units -/

theorem updateFlux_facts (net : Net K) (ph : Phys K) (f : ℕ) (x : K) (hf : 0 ≤ (net.flux f).frac) (hx : 0 ≤ x) (hamt : ∀ f, 0 ≤ ph.amt f) :
    (∀ g, 0 ≤ (updateFlux net ph f x).amt g) ∧ (updateFlux net ph f x).logs = ph.logs ∧ SameFlags ph (updateFlux net ph f x) ∧
    ∀ d, ((updateFlux net ph f x).cont d).content = (ph.cont d).content ∧ ((updateFlux net ph f x).cont d).dyn = (ph.cont d).dyn ∧
      (ph.cont d).stat ≤ ((updateFlux net ph f x).cont d).stat := by
  have ha := scale_nonneg hf hx
  have hamt' : ∀ g, 0 ≤ upd ph.amt f ((net.flux f).scale x) g := by
    intro g
    unfold upd
    split
    · exact ha
    · exact hamt g
  unfold updateFlux
  dsimp only
  by_cases hi : (net.flux f).inst = true
  · rw [if_pos hi]
    cases ht : (net.flux f).target with
    | outside => exact ⟨hamt', rfl, SameFlags.refl _, fun d => ⟨rfl, rfl, _root_.le_refl _⟩⟩
    | cont c =>
      refine ⟨hamt', rfl, fun d => ?_, fun d => ?_⟩
      · by_cases hd : d = c
        · subst hd; dsimp only; rw [upd_same]; unfold Cont.addStat; split <;> exact ⟨rfl, rfl⟩
        · dsimp only; rw [upd_ne _ _ hd]; exact ⟨rfl, rfl⟩
      · by_cases hd : d = c
        · subst hd
          dsimp only
          rw [upd_same]
          unfold Cont.addStat
          split
          · exact ⟨rfl, rfl, _root_.le_refl _⟩
          · exact ⟨rfl, rfl, by simpa using ha⟩
        · dsimp only; rw [upd_ne _ _ hd]; exact ⟨rfl, rfl, _root_.le_refl _⟩
  · rw [if_neg hi]; exact ⟨hamt', rfl, SameFlags.refl _, fun d => ⟨rfl, rfl, _root_.le_refl _⟩⟩

theorem updateFluxes_clean {net : Net K} (hfrac : ∀ f, 0 ≤ (net.flux f).frac) (x : ℕ → K) : ∀ (l : List ℕ) (s : Sys K σ),
    (∀ f ∈ l, 0 ≤ x f) → Clean net s →
    Clean net { s with ph := l.foldl (fun ph f => updateFlux net ph f (x f)) s.ph } ∧
    SameFlags s.ph (l.foldl (fun ph f => updateFlux net ph f (x f)) s.ph) ∧ (l.foldl (fun ph f => updateFlux net ph f (x f)) s.ph).logs = s.ph.logs := by
  intro l
  induction l with
  | nil => intro s _ h; exact ⟨h, SameFlags.refl _, rfl⟩
  | cons a l ih =>
    intro s hx hC
    obtain ⟨h1, h2, h3, h4⟩ := updateFlux_facts net s.ph a (x a) (hfrac a) (hx a (by simp)) hC.amt
    have hC1 : Clean net ({ s with ph := updateFlux net s.ph a (x a) } : Sys K σ) := by
      refine ⟨h1, fun b hb c hc hl => ?_, hC.idle⟩
      obtain ⟨i1, i2, i3⟩ := hC.held b hb c hc ((h3.limited c.1).1 hl)
      obtain ⟨j1, j2, j3⟩ := h4 c.1
      exact ⟨by rw [j1]; exact i1, by rw [j2]; exact i2, i3.trans j3⟩
    obtain ⟨k1, k2, k3⟩ := ih { s with ph := updateFlux net s.ph a (x a) } (fun f hf => hx f (by simp [hf])) hC1
    exact ⟨k1, h3.trans k2, k3.trans h2⟩

theorem splitters_clean {net : Net K} {laws : Laws K σ} {dt : K} {ph0 : Phys K} (hS : Accountable net laws dt ph0) : ∀ (l : List (ℕ × List ℕ)) (s : Sys K σ),
    (∀ sp ∈ l, ∀ h ph, ∀ f ∈ sp.2, 0 ≤ (laws.split sp.1 h ph).1 f) → Clean net s →
    Clean net (l.foldl (runSplitter net laws) s) ∧ SameFlags s.ph (l.foldl (runSplitter net laws) s).ph ∧
    (l.foldl (runSplitter net laws) s).ph.logs = s.ph.logs := by
  intro l
  induction l with
  | nil => intro s _ h; exact ⟨h, SameFlags.refl _, rfl⟩
  | cons a l ih =>
    intro s hx hC
    obtain ⟨h1, h2, h3⟩ := updateFluxes_clean hS.frac (laws.split a.1 s.hid s.ph).1 a.2 s (hx a (by simp) _ _) hC
    have hC1 : Clean net (runSplitter net laws s a) := ⟨h1.amt, h1.held, h1.idle⟩
    obtain ⟨k1, k2, k3⟩ := ih (runSplitter net laws s a) (fun sp hsp => hx sp (by simp [hsp])) hC1
    exact ⟨k1, h2.trans k2, k3.trans h3⟩

theorem bricks_clean {net : Net K} {laws : Laws K σ} {dt : K} (hdt : 0 < dt) {ph0 : Phys K} (hS : Accountable net laws dt ph0) :
    ∀ (l : List Brick) (s s' : Sys K σ), (∀ b ∈ l, b ∈ directBricks net) → Clean net s → SameFlags ph0 s.ph →
      l.foldlM (directBrick net laws dt) s = .ok s' → Clean net s' ∧ SameFlags ph0 s'.ph ∧ s'.ph.logs = s.ph.logs := by
  intro l
  induction l with
  | nil =>
    intro s s' _ hC hF h
    simp only [List.foldlM_nil, pure, Except.pure, Except.ok.injEq] at h
    subst h
    exact ⟨hC, hF, rfl⟩
  | cons a l ih =>
    intro s s' hl hC hF h
    rw [List.foldlM_cons] at h
    cases hg : directBrick net laws dt s a with
    | error e => rw [hg] at h; simp [bind, Except.bind] at h
    | ok s1 =>
      rw [hg] at h
      obtain ⟨h1, h2, h3⟩ := brick_clean hdt hS (hl a (by simp)) hC hF hg
      obtain ⟨i1, i2, i3⟩ := ih s1 s' (fun b hb => hl b (by simp [hb])) h1 h2 h
      exact ⟨i1, i2, i3.trans h3⟩

/-- The direct phase reports no negative content. -/
theorem directPhase_clean {net : Net K} {laws : Laws K σ} {dt : K} (hdt : 0 < dt) {ph0 : Phys K} (hS : Accountable net laws dt ph0) {s s' : Sys K σ}
    (hC : Clean net s) (hF : SameFlags ph0 s.ph) (h : directPhase net laws dt s = .ok s') :
    Clean net s' ∧ SameFlags ph0 s'.ph ∧ s'.ph.logs = s.ph.logs := by
  have key : ∀ (l : List HUnit), (∀ u ∈ l, u ∈ net.units) → ∀ s s' : Sys K σ, Clean net s → SameFlags ph0 s.ph →
      l.foldlM (directUnit net laws dt) s = .ok s' → Clean net s' ∧ SameFlags ph0 s'.ph ∧ s'.ph.logs = s.ph.logs := by
    intro l
    induction l with
    | nil =>
      intro _ s s' hC hF h
      simp only [List.foldlM_nil, pure, Except.pure, Except.ok.injEq] at h
      subst h
      exact ⟨hC, hF, rfl⟩
    | cons u l ih =>
      intro hl s s' hC hF h
      rw [List.foldlM_cons] at h
      cases hg : directUnit net laws dt s u with
      | error e => rw [hg] at h; simp [bind, Except.bind] at h
      | ok s1 =>
        rw [hg] at h
        obtain ⟨h1, h2, h3⟩ := splitters_clean hS u.splitters s (fun sp hsp => hS.split u (hl u (by simp)) sp hsp) hC
        obtain ⟨i1, i2, i3⟩ := bricks_clean hdt hS _ _ s1 (fun b hb => List.mem_flatMap.2 ⟨u, hl u (by simp), hb⟩) h1 (hF.trans h2) hg
        obtain ⟨j1, j2, j3⟩ := ih (fun v hv => hl v (by simp [hv])) s1 s' i1 i2 h
        exact ⟨j1, j2, j3.trans (i3.trans h3)⟩
  exact key net.units (fun _ h => h) s s' hC hF h

end HB
