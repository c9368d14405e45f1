import Verif.Model.ContainerLemmas
import Verif.Model.NetworkTrace
import Verif.Model.DirectStep

/-!
# What a process computed directly takes from its container

Used for C71: the volume `directProc` moves is at most what `ApplyConstraints` counts as available.
-/

set_option linter.unusedSectionVars false

namespace HB

variable {K σ : Type} [Field K] [LinearOrder K] [IsStrictOrderedRing K]

theorem vol_nonneg {dt : K} (hdt : 0 < dt) (r : K) : 0 ≤ vol dt r := by
  unfold vol
  dsimp only
  change 0 ≤ if greaterThan (clip r) 0 prec = true then clip r * dt else 0
  split
  · exact mul_nonneg (clip_nonneg r) hdt.le
  · exact _root_.le_refl _

theorem vol_le_clip {dt : K} (hdt : 0 < dt) (r : K) : vol dt r ≤ clip r * dt := by
  unfold vol
  dsimp only
  change (if greaterThan (clip r) 0 prec = true then clip r * dt else 0) ≤ _
  split
  · exact _root_.le_refl _
  · exact mul_nonneg (clip_nonneg r) hdt.le

theorem vol_small {dt : K} {r : K} (h : r ≤ prec) : vol dt r = 0 := by
  unfold vol
  dsimp only
  change (if greaterThan (clip r) 0 prec = true then clip r * dt else 0) = _
  rw [if_neg]
  unfold greaterThan
  rw [decide_eq_true_eq, zero_add, not_lt, clip_eq_max]
  exact max_le h prec_nonneg

theorem vol_zero (dt : K) : vol dt 0 = 0 := vol_small prec_nonneg

theorem sum_map_le {α : Type} (f g : α → K) : ∀ l : List α, (∀ a ∈ l, f a ≤ g a) → (l.map f).sum ≤ (l.map g).sum := by
  intro l
  induction l with
  | nil => intro _; simp
  | cons a l ih =>
    intro h
    simp only [List.map_cons, List.sum_cons]
    exact add_le_add (h a (by simp)) (ih fun b hb => h b (by simp [hb]))

theorem sum_map_mul (l : List K) (k : K) : (l.map (· * k)).sum = l.sum * k := by
  induction l with
  | nil => simp
  | cons a l ih => simp [ih, add_mul]

theorem sum_clip_mul (l : List K) (k : K) : (l.map fun r => clip r * k).sum = (l.map clip).sum * k := by
  rw [← sum_map_mul, List.map_map]; rfl

theorem sum_map_nonneg {α : Type} (f : α → K) (l : List α) (h : ∀ a ∈ l, 0 ≤ f a) : 0 ≤ (l.map f).sum := by
  apply List.sum_nonneg
  intro x hx
  obtain ⟨a, ha, rfl⟩ := List.mem_map.1 hx
  exact h a ha

/-- The rates after `ApplyConstraints`, without a linked overflow: each slot is mapped by a function that keeps zero, does not increase the
rate and together moves no more than what is counted as available. -/
theorem constraints_release {c : Cont K} {dt : K} (hdt : 0 < dt) {outs : List (Option K)} {ins : List (Inflow K)} {o i}
    (h : applyConstraints c dt outs none ins = .ok (o, i)) :
    ∃ g : K → K, o = outs.map (Option.map g) ∧ g 0 = 0 ∧ (∀ r, g r ≤ clip r) ∧
      (c.infinite = false → c.allowNeg = false →
        (o.map fun x => vol dt (x.getD 0)).sum ≤ max 0 (c.content + c.dyn + (ins.map Inflow.staticOf).sum) +
          ((ins.map Inflow.rateOf).map clip).sum * dt) ∧
      ∃ k : K → K, k 0 = 0 ∧ i.map Inflow.rateOf = ins.map (fun x => k x.rateOf) ∧
        i = ins.map (fun x => match x with | .rate (some r) => .rate (some (k r)) | x => x) := by
  by_cases hinf : c.infinite = true
  · unfold applyConstraints at h
    rw [if_pos hinf] at h
    cases h
    refine ⟨id, by simp, rfl, fun r => ?_, fun h => (by rw [hinf] at h; cases h), id, rfl, by simp, ?_⟩
    · rw [clip_eq_max]; exact le_max_left _ _
    · symm
      refine (List.map_congr_left fun x _ => ?_).trans (List.map_id _)
      rcases x with x | x | (_ | x) <;> rfl
  · rw [Bool.not_eq_true] at hinf
    rw [applyConstraints_eq c dt outs none ins hinf] at h
    set x := ctx c outs ins with hx
    -- the outgoing slots
    have hO : ∃ g : K → K, outs1 c dt outs ins = outs.map (Option.map g) ∧ g 0 = 0 ∧ (∀ r, g r ≤ clip r) ∧
        (c.allowNeg = false → ((outs1 c dt outs ins).map fun x => vol dt (x.getD 0)).sum ≤ max 0 (x.S + x.inStat) + x.inputs * dt) := by
      have hin : 0 ≤ x.inputs := ctx_inputs_nonneg c outs ins
      have hou : 0 ≤ x.outputs := ctx_outputs_nonneg c outs ins
      have key : ∀ g : K → K, g 0 = 0 → ((outs.map (Option.map g)).map fun x => vol dt (x.getD 0)) =
          (outs.map (·.getD 0)).map (fun r => vol dt (g r)) := by
        intro g hg
        rw [List.map_map, List.map_map]
        apply List.map_congr_left
        intro a _
        cases a <;> simp [hg]
      unfold outs1
      dsimp only
      rw [← hx]
      by_cases hd : drains c dt x
      · rw [if_pos hd, List.map_map]
        set d := (x.S + x.inStat + (x.inputs - x.outputs) * dt) / dt with hdd
        obtain ⟨hn, h1, h2⟩ := hd
        have hdneg : d < 0 := div_neg_of_neg_of_pos h2 hdt
        have hop : 0 < x.outputs := by linarith
        have hle : ∀ r : K, 0 ≤ r → limitOut d (x.inputs - x.outputs) x.outputs r ≤ r := by
          intro r hr
          unfold limitOut
          split
          · exact _root_.le_refl _
          · split
            · exact hr
            · have : d * |r / x.outputs| ≤ 0 := mul_nonpos_of_nonpos_of_nonneg hdneg.le (abs_nonneg _)
              linarith
        refine ⟨fun r => limitOut d (x.inputs - x.outputs) x.outputs (clip r), ?_, ?_, ?_, ?_⟩
        · apply List.map_congr_left; intro a _; cases a <;> rfl
        · simp
        · exact fun r => hle _ (clip_nonneg r)
        · intro _
          have e : (Option.map (limitOut d (x.inputs - x.outputs) x.outputs) ∘ Option.map clip : Option K → Option K) =
              Option.map fun r => limitOut d (x.inputs - x.outputs) x.outputs (clip r) := by
            funext a; cases a <;> rfl
          rw [e, key _ (by simp)]
          have hb : ∀ r : K, vol dt (limitOut d (x.inputs - x.outputs) x.outputs (clip r)) ≤
              max 0 (1 + d / x.outputs) * (clip r * dt) := by
            intro r
            have hr := clip_nonneg r
            unfold limitOut
            by_cases hz : nearlyZero (clip r) epsD = true
            · rw [if_pos hz, vol_small]
              · exact mul_nonneg (le_max_left _ _) (mul_nonneg hr hdt.le)
              · have : |clip r| ≤ epsD := of_decide_eq_true hz
                rw [abs_of_nonneg hr] at this
                exact this.trans epsD_lt_prec.le
            · rw [if_neg hz]
              by_cases hq : nearlyEqual d (x.inputs - x.outputs) prec = true
              · rw [if_pos hq, vol_zero]
                exact mul_nonneg (le_max_left _ _) (mul_nonneg hr hdt.le)
              · rw [if_neg hq]
                refine (vol_le_clip hdt _).trans ?_
                rw [abs_of_nonneg (div_nonneg hr hop.le), ← mul_assoc]
                refine mul_le_mul_of_nonneg_right ?_ hdt.le
                rw [clip_eq_max, max_mul_of_nonneg _ _ hr, zero_mul, max_comm]
                refine max_le_max (_root_.le_refl _) (le_of_eq ?_)
                field_simp
          refine (sum_map_le _ (fun r => clip r * (max 0 (1 + d / x.outputs) * dt)) _ fun r _ => (hb r).trans (le_of_eq (by ring))).trans ?_
          have e2 : ((outs.map (·.getD 0)).map fun r => clip r * (max 0 (1 + d / x.outputs) * dt)).sum =
              x.outputs * (max 0 (1 + d / x.outputs) * dt) := sum_clip_mul _ _
          rw [e2]
          have e3 : x.outputs * (max 0 (1 + d / x.outputs) * dt) = max 0 (x.S + x.inStat + x.inputs * dt) := by
            have : x.outputs * (max 0 (1 + d / x.outputs) * dt) = max 0 (1 + d / x.outputs) * (x.outputs * dt) := by ring
            rw [this, max_mul_of_nonneg _ _ (mul_nonneg hop.le hdt.le), zero_mul]
            congr 1
            rw [hdd]
            field_simp
            ring
          rw [e3]
          refine max_le ?_ ?_
          · exact add_nonneg (le_max_left _ _) (mul_nonneg hin hdt.le)
          · have := le_max_right 0 (x.S + x.inStat)
            linarith
      · rw [if_neg hd]
        refine ⟨clip, rfl, clip_zero, fun r => _root_.le_refl _, fun hn => ?_⟩
        rw [key _ clip_zero]
        have h1 : ((outs.map (·.getD 0)).map fun r => vol dt (clip r)).sum ≤ x.outputs * dt := by
          refine le_trans ?_ (le_of_eq (sum_clip_mul (outs.map (·.getD 0)) dt))
          apply sum_map_le
          intro r _
          refine (vol_le_clip hdt _).trans (le_of_eq ?_)
          rw [clip_of_nonneg (clip_nonneg r)]
        refine h1.trans ?_
        by_cases h2 : x.inputs - x.outputs < 0
        · have h3 : ¬ x.S + x.inStat + (x.inputs - x.outputs) * dt < 0 := fun h => hd ⟨hn, h2, h⟩
          have := le_max_right 0 (x.S + x.inStat)
          linarith
        · have : x.outputs * dt ≤ x.inputs * dt := mul_le_mul_of_nonneg_right (by linarith) hdt.le
          have := le_max_left 0 (x.S + x.inStat)
          linarith
    obtain ⟨g, hg, hg0, hgc, hgs⟩ := hO
    have hfin : ∀ i', (i' = ins.map Inflow.clip ∨ ∃ d e : K, i' = (ins.map Inflow.clip).map (Inflow.limit d e)) →
        ∃ k : K → K, k 0 = 0 ∧ i'.map Inflow.rateOf = ins.map (fun x => k x.rateOf) ∧
          i' = ins.map (fun x => match x with | .rate (some r) => .rate (some (k r)) | x => x) := by
      rintro i' (rfl | ⟨d, e, rfl⟩)
      · refine ⟨clip, clip_zero, by rw [List.map_map]; exact List.map_congr_left fun x _ => rateOf_clip x, ?_⟩
        apply List.map_congr_left
        intro x _
        rcases x with x | x | (_ | x) <;> rfl
      · refine ⟨fun r => limitIn d e (clip r), by simp, ?_, ?_⟩
        · rw [List.map_map, List.map_map]
          apply List.map_congr_left
          intro x _
          simp
        · rw [List.map_map]
          apply List.map_congr_left
          intro x _
          rcases x with x | x | (_ | x) <;> rfl
    have hres : o = outs1 c dt outs ins ∧ (i = ins.map Inflow.clip ∨ ∃ d e : K, i = (ins.map Inflow.clip).map (Inflow.limit d e)) := by
      by_cases ht : tooHigh outs = true
      · rw [if_pos ht] at h; cases h
      · rw [if_neg ht] at h
        dsimp only at h
        cases hc : c.cap with
        | none => rw [hc] at h; cases h; exact ⟨rfl, .inl rfl⟩
        | some cap =>
          rw [hc] at h
          dsimp only at h
          split at h
          · split at h
            · cases h
            · cases h; exact ⟨rfl, .inr ⟨_, _, rfl⟩⟩
          · cases h; exact ⟨rfl, .inl rfl⟩
    obtain ⟨rfl, hi⟩ := hres
    exact ⟨g, hg, hg0, hgc, fun _ hn => hgs hn, hfin i hi⟩

/-! ## One process -/

/-- The slot of a flux carries no rate. -/
def Idle (s : Sys K σ) (f : ℕ) : Prop := (s.rate f).getD 0 = 0

/-- What the incoming fluxes of a container are counted for in `ApplyConstraints` besides rates (WaterContainer.cpp:98-106). -/
def counted (net : Net K) (ph : Phys K) (c : ℕ) : K :=
  ((net.inputs c).map fun f => if (net.flux f).inst || (net.flux f).static then ph.amt f else 0).sum

theorem inflowOf_static (net : Net K) (s : Sys K σ) (f : ℕ) :
    (inflowOf net s f).staticOf = if (net.flux f).inst || (net.flux f).static then s.ph.amt f else 0 := by
  unfold inflowOf
  cases (net.flux f).inst <;> cases (net.flux f).static <;> rfl

theorem inflowOf_rate {net : Net K} {s : Sys K σ} {f : ℕ} (h : Idle s f) : (inflowOf net s f).rateOf = 0 := by
  unfold inflowOf
  cases (net.flux f).inst <;> cases (net.flux f).static <;> try rfl
  unfold Idle at h
  cases hr : s.rate f with
  | none => rfl
  | some r => rw [hr] at h; exact h

/-- The slots after the incoming fluxes have been written back. -/
theorem writeIns_map (net : Net K) (s : Sys K σ) (k : K → K) : ∀ (l : List ℕ) (rate : ℕ → Option K) (x : ℕ),
    writeIns rate l ((l.map (inflowOf net s)).map fun i => match i with | .rate (some r) => .rate (some (k r)) | i => i) x =
      if x ∈ l ∧ (net.flux x).inst = false ∧ (net.flux x).static = false then (s.rate x).map k else rate x := by
  intro l
  induction l with
  | nil => intro rate x; simp [writeIns]
  | cons a l ih =>
    intro rate x
    rw [List.map_cons, List.map_cons]
    by_cases ha : (net.flux a).inst = false ∧ (net.flux a).static = false
    · have e : (match inflowOf net s a with | .rate (some r) => Inflow.rate (some (k r)) | i => i) = .rate ((s.rate a).map k) := by
        unfold inflowOf
        rw [ha.1, ha.2]
        cases s.rate a <;> rfl
      rw [e, writeIns, ih]
      by_cases hx : x ∈ l ∧ (net.flux x).inst = false ∧ (net.flux x).static = false
      · rw [if_pos hx, if_pos ⟨by simp [hx.1], hx.2⟩]
      · rw [if_neg hx]
        by_cases h2 : x = a
        · subst h2
          rw [upd_same', if_pos ⟨by simp, ha⟩]
        · rw [upd_ne' _ _ h2, if_neg]
          rintro ⟨h3, h4⟩
          rcases List.mem_cons.1 h3 with h5 | h5
          · exact h2 h5
          · exact hx ⟨h5, h4⟩
    · have e : ∃ y, (match inflowOf net s a with | .rate (some r) => Inflow.rate (some (k r)) | i => i) = .inst y ∨
          (match inflowOf net s a with | .rate (some r) => Inflow.rate (some (k r)) | i => i) = .amount y := by
        unfold inflowOf
        cases h1 : (net.flux a).inst
        · cases h2 : (net.flux a).static
          · exact absurd ⟨h1, h2⟩ ha
          · exact ⟨_, .inr rfl⟩
        · exact ⟨_, .inl rfl⟩
      have e2 : writeIns rate (a :: l) ((match inflowOf net s a with | .rate (some r) => Inflow.rate (some (k r)) | i => i) ::
          (l.map (inflowOf net s)).map fun i => match i with | .rate (some r) => .rate (some (k r)) | i => i) =
          writeIns rate l ((l.map (inflowOf net s)).map fun i => match i with | .rate (some r) => .rate (some (k r)) | i => i) := by
        obtain ⟨y, hy | hy⟩ := e <;> rw [hy, writeIns] <;> simp
      rw [e2, ih]
      congr 1
      apply propext
      constructor
      · rintro ⟨h1, h2⟩; exact ⟨by simp [h1], h2⟩
      · rintro ⟨h1, h2⟩
        rcases List.mem_cons.1 h1 with rfl | h3
        · exact absurd h2 ha
        · exact ⟨h3, h2⟩

theorem foldl_upd (l : List ℕ) (v : ℕ → Option K) (q : ℕ → Option K) (x : ℕ) :
    l.foldl (fun q f => upd q f (v f)) q x = if x ∈ l then v x else q x := by
  induction l generalizing q with
  | nil => simp
  | cons a l ih =>
    rw [List.foldl_cons, ih]
    by_cases h1 : x ∈ l
    · simp [h1]
    · by_cases h2 : x = a
      · subst h2; simp [h1, upd]
      · simp [h1, h2, upd]

theorem sublist_outsOf {b : Brick} {p : Proc} (hp : p ∈ b.procs) : p.outs.Sublist (b.outsOf p.src) := by
  unfold Brick.outsOf
  have h : p ∈ b.procs.filter (·.src = p.src) := by simp [hp]
  obtain ⟨l1, l2, e⟩ := List.append_of_mem h
  rw [e, List.flatMap_append, List.flatMap_cons]
  exact (List.sublist_append_left _ _).trans (List.sublist_append_right _ _)

theorem sum_sublist {l l' : List K} (h : l.Sublist l') (h0 : ∀ x ∈ l', 0 ≤ x) : l.sum ≤ l'.sum := by
  induction h with
  | slnil => exact _root_.le_refl _
  | cons a _ ih =>
    have := ih fun x hx => h0 x (by simp [hx])
    have := h0 a (by simp)
    rw [List.sum_cons]; linarith
  | cons_cons a _ ih =>
    have := ih fun x hx => h0 x (by simp [hx])
    rw [List.sum_cons, List.sum_cons]; linarith

/-- **One process computed directly.**  It moves some volume through each of its outgoing fluxes: not negative, at most what the process asked
for and, from a container that must not go negative, in total at most what is counted as available. -/
theorem directProc_moves {net : Net K} {laws : Laws K σ} {dt : K} (hdt : 0 < dt) {b : Brick} {p : Proc} {s s' : Sys K σ}
    (h : directProc net laws dt b s p = .ok s') (hp : p ∈ b.procs) (hinj : (laws.rates p.pid s.hid s.ph).2.1 = 0)
    (hovf : net.ovf p.src = none) (hself : ∀ f ∈ p.outs, (net.flux f).target ≠ .cont p.src)
    (hidle : ∀ f ∈ net.inputs p.src, Idle s f) :
    ∃ x : ℕ → K, s'.ph = p.outs.foldl (fun ph f => runEv net ph (.out p.src f, x f)) s.ph ∧ (∀ f, 0 ≤ x f) ∧
      (∀ f ∈ p.outs, x f ≤ clip ((laws.rates p.pid s.hid s.ph).1 f) * dt) ∧
      ((s.ph.cont p.src).infinite = false → (s.ph.cont p.src).allowNeg = false →
        (p.outs.map x).sum ≤ max 0 ((s.ph.cont p.src).content + (s.ph.cont p.src).dyn + counted net s.ph p.src)) ∧
      (∀ f, Idle s f → Idle s' f) := by
  unfold directProc callRates at h
  dsimp only at h
  set r := (laws.rates p.pid s.hid s.ph).1 with hr
  rw [hinj, injCont_zero] at h
  generalize hs1 : ({ ph := s.ph, rate := _, hid := _ } : Sys K σ) = s1 at h
  have h1 : s1.ph = s.ph := by rw [← hs1]
  have hrate1 : ∀ f, s1.rate f = if f ∈ p.outs then some (r f) else s.rate f := by
    intro f
    rw [← hs1]
    exact foldl_upd p.outs (fun f => some (r f)) s.rate f
  have hidle1 : ∀ f ∈ net.inputs p.src, Idle s1 f := by
    intro f hf
    unfold Idle
    rw [hrate1, if_neg]
    · exact hidle f hf
    · intro h2
      exact hself f h2 (by simpa [Net.inputs] using (List.mem_filter.1 hf).2)
  cases hc : constrainCont net dt b s1 p.src with
  | error e => rw [hc] at h; simp [bind, Except.bind] at h
  | ok s2 =>
    rw [hc] at h
    simp only [bind, Except.bind, pure, Except.pure, Except.ok.injEq] at h
    have hph := (constrainCont_ph hc).1
    unfold constrainCont at hc
    dsimp only at hc
    rw [hovf] at hc
    cases ha : applyConstraints (s1.ph.cont p.src) dt ((b.outsOf p.src).map s1.rate) none ((net.inputs p.src).map (inflowOf net s1)) with
    | error e => simp [ha, bind, Except.bind] at hc
    | ok oi =>
      obtain ⟨o, i⟩ := oi
      simp only [Option.bind_none, ha, bind, Except.bind, pure, Except.pure, Except.ok.injEq] at hc
      obtain ⟨g, ho, hg0, hgc, hsum, k, hk0, -, hi⟩ := constraints_release hdt ha
      have hrate2 : ∀ f, s2.rate f = if f ∈ net.inputs p.src ∧ (net.flux f).inst = false ∧ (net.flux f).static = false then (s1.rate f).map k
          else if f ∈ b.outsOf p.src then (s1.rate f).map g else s1.rate f := by
        intro f
        rw [← hc]
        dsimp only
        rw [hi, writeIns_map, ho, List.map_map, writeRates_map']
        rfl
      have hout : ∀ f ∈ p.outs, s2.rate f = some (g (r f)) := by
        intro f hf
        rw [hrate2, if_neg, if_pos ((sublist_outsOf hp).subset hf), hrate1, if_pos hf, Option.map_some]
        rintro ⟨h2, -⟩
        exact hself f hf (by simpa [Net.inputs] using (List.mem_filter.1 h2).2)
      refine ⟨fun f => vol dt ((s2.rate f).getD 0), ?_, fun f => vol_nonneg hdt _, ?_, ?_, ?_⟩
      · rw [← h]
        dsimp only
        rw [hph, h1]
        congr 1
        funext ph f
        rw [applyChange_eq]
      · intro f hf
        dsimp only
        rw [hout f hf, Option.getD_some]
        refine (vol_le_clip hdt _).trans (mul_le_mul_of_nonneg_right ?_ hdt.le)
        rw [clip_eq_max]
        exact max_le (hgc _) (clip_nonneg _)
      · intro hinf hneg
        rw [h1] at hsum
        have := hsum hinf hneg
        have e1 : ((net.inputs p.src).map (inflowOf net s1)).map Inflow.staticOf =
            (net.inputs p.src).map fun f => if (net.flux f).inst || (net.flux f).static then s.ph.amt f else 0 := by
          rw [List.map_map]
          apply List.map_congr_left
          intro f _
          rw [Function.comp, inflowOf_static, h1]
        have e2 : ((((net.inputs p.src).map (inflowOf net s1)).map Inflow.rateOf).map clip).sum = 0 := by
          apply List.sum_eq_zero
          intro y hy
          obtain ⟨y2, hy2, rfl⟩ := List.mem_map.1 hy
          obtain ⟨y3, hy3, rfl⟩ := List.mem_map.1 hy2
          obtain ⟨f, hf, rfl⟩ := List.mem_map.1 hy3
          rw [inflowOf_rate (hidle1 f hf), clip_zero]
        rw [e1, e2, zero_mul, add_zero] at this
        refine le_trans ?_ this
        rw [ho, List.map_map, List.map_map]
        have hsl := (sublist_outsOf hp).map (((fun x : Option K => vol dt (x.getD 0)) ∘ Option.map g) ∘ s1.rate)
        refine le_trans (le_of_eq ?_) (sum_sublist hsl ?_)
        · congr 1
          apply List.map_congr_left
          intro f hf
          simp only [Function.comp]
          rw [hout f hf, hrate1, if_pos hf, Option.map_some]
        · intro y hy
          obtain ⟨f, _, rfl⟩ := List.mem_map.1 hy
          exact vol_nonneg hdt _
      · intro f hf
        unfold Idle at hf ⊢
        rw [← h]
        dsimp only
        rw [foldl_upd p.outs (fun _ => some 0)]
        by_cases h2 : f ∈ p.outs
        · rw [if_pos h2]; rfl
        · rw [if_neg h2, hrate2, hrate1, if_neg h2]
          have key : ∀ k : K → K, k 0 = 0 → ((s.rate f).map k).getD 0 = 0 := by
            intro k hk
            cases hq : s.rate f with
            | none => rfl
            | some q => rw [hq] at hf; simp at hf; simp [hf, hk]
          split
          · exact key k hk0
          · split
            · exact key g hg0
            · exact hf

/-! ## The volumes moved and the containers -/

/-- Does the flux put water in the container at once? -/
def instInto (net : Net K) (d f : ℕ) : Bool := (net.flux f).inst && decide ((net.flux f).target = .cont d)

theorem runEv_out_cont (net : Net K) (ph : Phys K) (src f : ℕ) (x : K) (d : ℕ) :
    ((runEv net ph (.out src f, x)).cont d).content = (ph.cont d).content ∧
    ((runEv net ph (.out src f, x)).cont d).infinite = (ph.cont d).infinite ∧
    ((runEv net ph (.out src f, x)).cont d).allowNeg = (ph.cont d).allowNeg ∧
    ((ph.cont d).infinite = false → ((runEv net ph (.out src f, x)).cont d).dyn = (ph.cont d).dyn - if src = d then x else 0) ∧
    ((ph.cont d).infinite = false →
      ((runEv net ph (.out src f, x)).cont d).stat = (ph.cont d).stat + if instInto net d f then (net.flux f).scale x else 0) := by
  have e1 : (updateFlux net ph f x).cont d = if instInto net d f = true then (ph.cont d).addStat ((net.flux f).scale x) else ph.cont d := by
    unfold updateFlux instInto
    dsimp only
    by_cases hi : (net.flux f).inst = true
    · rw [if_pos hi]
      cases ht : (net.flux f).target with
      | outside => simp
      | cont e =>
        by_cases he : e = d
        · subst he; simp [hi, upd]
        · simp [he, upd, Ne.symm he]
    · rw [if_neg hi]; simp [hi]
  have e2 : (runEv net ph (.out src f, x)).cont d =
      if src = d then ((updateFlux net ph f x).cont d).subDyn x else (updateFlux net ph f x).cont d := by
    simp only [runEv]
    by_cases h : src = d
    · subst h; simp [upd]
    · simp [upd, h, Ne.symm h]
  rw [e2, e1]
  cases hinf : (ph.cont d).infinite <;> by_cases h : src = d <;> by_cases h2 : instInto net d f = true <;>
    simp [h, h2, hinf, Cont.subDyn, Cont.addStat]

theorem runEv_out_amt (net : Net K) (ph : Phys K) (src f : ℕ) (x : K) (g : ℕ) :
    (runEv net ph (.out src f, x)).amt g = if g = f then (net.flux f).scale x else ph.amt g := by
  simp only [runEv, updateFlux]
  split
  · split <;> simp [upd]
  · simp [upd]

theorem runEv_out_logs (net : Net K) (ph : Phys K) (src f : ℕ) (x : K) : (runEv net ph (.out src f, x)).logs = ph.logs := by
  simp only [runEv, updateFlux]
  split
  · split <;> rfl
  · rfl

/-- The volumes moved through a list of fluxes. -/
def moveAll (net : Net K) (src : ℕ) (x : ℕ → K) (l : List ℕ) (ph : Phys K) : Phys K :=
  l.foldl (fun ph f => runEv net ph (.out src f, x f)) ph

theorem moveAll_cont (net : Net K) (src : ℕ) (x : ℕ → K) (d : ℕ) : ∀ (l : List ℕ) (ph : Phys K),
    ((moveAll net src x l ph).cont d).content = (ph.cont d).content ∧
    ((moveAll net src x l ph).cont d).infinite = (ph.cont d).infinite ∧
    ((moveAll net src x l ph).cont d).allowNeg = (ph.cont d).allowNeg ∧
    ((ph.cont d).infinite = false → ((moveAll net src x l ph).cont d).dyn = (ph.cont d).dyn - if src = d then (l.map x).sum else 0) ∧
    ((ph.cont d).infinite = false →
      ((moveAll net src x l ph).cont d).stat = (ph.cont d).stat + (l.map fun f => if instInto net d f then (net.flux f).scale (x f) else 0).sum) := by
  intro l
  induction l with
  | nil => intro ph; simp [moveAll]
  | cons a l ih =>
    intro ph
    obtain ⟨h1, h2, h3, h4, h5⟩ := runEv_out_cont net ph src a (x a) d
    obtain ⟨i1, i2, i3, i4, i5⟩ := ih (runEv net ph (.out src a, x a))
    refine ⟨i1.trans h1, i2.trans h2, i3.trans h3, fun h => ?_, fun h => ?_⟩
    · refine (i4 (h2.trans h)).trans ?_
      rw [h4 h, List.map_cons, List.sum_cons]
      split <;> ring
    · refine (i5 (h2.trans h)).trans ?_
      rw [h5 h, List.map_cons, List.sum_cons]
      ring

theorem moveAll_amt (net : Net K) (src : ℕ) (x : ℕ → K) (g : ℕ) : ∀ (l : List ℕ) (ph : Phys K),
    (moveAll net src x l ph).amt g = if g ∈ l then (net.flux g).scale (x g) else ph.amt g := by
  intro l
  induction l with
  | nil => intro ph; simp [moveAll]
  | cons a l ih =>
    intro ph
    refine (ih _).trans ?_
    rw [runEv_out_amt]
    by_cases h1 : g ∈ l
    · simp [h1]
    · by_cases h2 : g = a
      · subst h2; simp
      · simp [h1, h2]

theorem moveAll_logs (net : Net K) (src : ℕ) (x : ℕ → K) : ∀ (l : List ℕ) (ph : Phys K), (moveAll net src x l ph).logs = ph.logs := by
  intro l
  induction l with
  | nil => intro ph; rfl
  | cons a l ih => intro ph; exact (ih _).trans (runEv_out_logs _ _ _ _ _)

theorem scale_nonneg {fs : FluxSpec K} (h : 0 ≤ fs.frac) {x : K} (hx : 0 ≤ x) : 0 ≤ fs.scale x := by
  unfold FluxSpec.scale
  split <;> split <;> first | exact mul_nonneg hx h | exact hx

end HB
