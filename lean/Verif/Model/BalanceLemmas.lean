import Verif.Model.NetworkTrace
import Verif.Spec.Balance

/-!
# Balance of a trace

Per-operation lemmas and the induction over traces.
-/

namespace HB

set_option linter.unusedSectionVars false

open Spec

variable {K σ : Type} [Field K] [LinearOrder K] [IsStrictOrderedRing K]

/-! ## Schedules: which fluxes are fresh -/

/-- The flux an operation writes, with its source container. -/
def Sh.write? : Sh → Option (Option Nat × Nat)
  | .ext f => some (none, f)
  | .out src f => some (some src, f)
  | _ => none

def writesOf (sched : List Sh) : List (Option Nat × Nat) := sched.filterMap Sh.write?

/-- Does the flux deliver with delay to a container of the system? -/
def tracked (net : Net K) (C : Finset Nat) (f : Nat) : Bool := !(net.flux f).inst && into net C f

/-- Fluxes in transit after an operation. -/
def nextF (net : Net K) (C : Finset Nat) (F : Finset Nat) : Sh → Finset Nat
  | .ext f | .out _ f => if tracked net C f then insert f F else F
  | .read c _ => F.filter (fun f => (net.flux f).target ≠ .cont c)
  | _ => F

/-- Conditions under which an operation neither overwrites water in transit nor books it twice: `S`
are fluxes that are never written (outputs of null bricks). -/
def okEv (net : Net K) (C S F : Finset Nat) : Sh → Prop
  | .ext f | .out _ f => f ∈ net.fluxes ∧ f ∉ F ∧ f ∉ S
  | .read c _ => c ∈ C → ∀ f ∈ net.inputs c, (net.flux f).inst = false → f ∈ F ∨ f ∈ S
  | _ => True

instance (net : Net K) (C S F : Finset Nat) (sh : Sh) : Decidable (okEv net C S F sh) := by
  cases sh <;> unfold okEv <;> infer_instance

/-- Fluxes in transit after a schedule. -/
def runF (net : Net K) (C : Finset Nat) (F : Finset Nat) (sched : List Sh) : Finset Nat :=
  sched.foldl (nextF net C) F

/-- Every operation of the schedule is sound. -/
def Sound (net : Net K) (C S : Finset Nat) : Finset Nat → List Sh → Prop
  | _, [] => True
  | F, sh :: l => okEv net C S F sh ∧ Sound net C S (nextF net C F sh) l

instance Sound.dec (net : Net K) (C S : Finset Nat) : (F : Finset Nat) → (l : List Sh) →
    Decidable (Sound net C S F l)
  | _, [] => inferInstanceAs (Decidable True)
  | F, sh :: l =>
    have := Sound.dec net C S (nextF net C F sh) l
    inferInstanceAs (Decidable (_ ∧ _))

theorem Sound.append {net : Net K} {C S F : Finset Nat} {l1 l2 : List Sh} :
    Sound net C S F (l1 ++ l2) ↔ Sound net C S F l1 ∧ Sound net C S (runF net C F l1) l2 := by
  induction l1 generalizing F with
  | nil => simp [Sound, runF]
  | cons a l ih => simp only [List.cons_append, Sound, ih, runF, List.foldl_cons, and_assoc]

/-- What is known of the set in transit. -/
def FreshOK (net : Net K) (C S F : Finset Nat) : Prop :=
  ∀ f ∈ F, f ∈ net.fluxes ∧ tracked net C f = true ∧ f ∉ S

theorem FreshOK.next {net : Net K} {C S F : Finset Nat} {sh : Sh} (h : FreshOK net C S F)
    (ho : okEv net C S F sh) : FreshOK net C S (nextF net C F sh) := by
  cases sh with
  | ext f | out src f =>
    simp only [nextF]; simp only [okEv] at ho
    split
    · rename_i ht
      intro f' hf'
      rcases Finset.mem_insert.1 hf' with e | e
      · subst e; exact ⟨ho.1, ht, ho.2.2⟩
      · exact h f' e
    · exact h
  | read c st => intro f hf; exact h f (Finset.mem_filter.1 hf).1
  | inj c => exact h
  | fin c => exact h

/-! ## Sums -/

/-- Committed volume of a container, ghosts removed. -/
def val (ph : Phys K) (c : Nat) : K :=
  ((ph.cont c).content + (ph.cont c).dyn + (ph.cont c).stat) - ph.snap c - ph.exch c

def St (g : Geo K) (ph : Phys K) : K := ∑ c ∈ g.C, g.A c * val ph c

theorem St_eq (g : Geo K) (ph : Phys K) :
    St g ph = stored g ph - snapped g ph - exchanged g ph := by
  simp only [St, stored, snapped, exchanged, val, ← Finset.sum_sub_distrib, mul_sub]

theorem St_change (g : Geo K) (ph ph' : Phys K) (c : Nat) (d : K)
    (h1 : ∀ c', c' ≠ c → val ph' c' = val ph c') (h2 : val ph' c = val ph c + d) :
    St g ph' = St g ph + (if c ∈ g.C then g.A c * d else 0) := by
  unfold St
  by_cases hc : c ∈ g.C
  · rw [← Finset.add_sum_erase _ _ hc, ← Finset.add_sum_erase _ _ hc, if_pos hc, h2]
    rw [Finset.sum_congr rfl (fun x hx => by rw [h1 x (Finset.mem_erase.1 hx).1])]
    ring
  · rw [if_neg hc, add_zero]
    refine Finset.sum_congr rfl (fun x hx => ?_)
    rw [h1 x (fun e => hc (e ▸ hx))]

theorem St_same (g : Geo K) (ph ph' : Phys K) (h : ∀ c, val ph' c = val ph c) :
    St g ph' = St g ph := by
  unfold St; exact Finset.sum_congr rfl (fun x _ => by rw [h x])

/-- The containers of the system are finite storages. -/
def Finite' (g : Geo K) (ph : Phys K) : Prop := ∀ c ∈ g.C, (ph.cont c).infinite = false

theorem Cont.infinite_addStat (c : Cont K) (x : K) : (c.addStat x).infinite = c.infinite := by
  unfold Cont.addStat; split <;> rfl
theorem Cont.infinite_addDyn (c : Cont K) (x : K) : (c.addDyn x).infinite = c.infinite := by
  unfold Cont.addDyn; split <;> rfl
theorem Cont.infinite_subDyn (c : Cont K) (x : K) : (c.subDyn x).infinite = c.infinite := by
  unfold Cont.subDyn; split <;> rfl
theorem Cont.infinite_finalize (c : Cont K) : c.finalize.infinite = c.infinite := by
  unfold Cont.finalize; dsimp only; repeat' split
  all_goals rfl

theorem runEv_infinite (net : Net K) (ph : Phys K) (ev : Sh × K) (c : Nat) :
    ((runEv net ph ev).cont c).infinite = (ph.cont c).infinite := by
  obtain ⟨sh, x⟩ := ev
  have hu : ∀ f, ((updateFlux net ph f x).cont c).infinite = (ph.cont c).infinite := by
    intro f
    unfold updateFlux
    dsimp only
    split
    · split
      · rename_i c' _
        simp only [upd]; split
        · rename_i e; subst e; exact Cont.infinite_addStat _ _
        · rfl
      · rfl
    · rfl
  cases sh with
  | ext f => exact hu f
  | out src f =>
    simp only [runEv, upd]
    split
    · rename_i e; subst e; rw [Cont.infinite_subDyn]; exact hu f
    · exact hu f
  | read c' st =>
    simp only [runEv, readCont, upd]
    split
    · rename_i e; subst e; split
      · exact Cont.infinite_addStat _ _
      · exact Cont.infinite_addDyn _ _
    · rfl
  | inj c' =>
    simp only [runEv, injCont, upd]
    split
    · rename_i e; subst e; exact Cont.infinite_addStat _ _
    · rfl
  | fin c' =>
    simp only [runEv, finCont, upd]
    split
    · rename_i e; subst e; exact Cont.infinite_finalize _
    · rfl

theorem updateFlux_amt (net : Net K) (ph : Phys K) (f : Nat) (x : K) :
    (updateFlux net ph f x).amt = upd ph.amt f ((net.flux f).scale x) := by
  unfold updateFlux; dsimp only
  split
  · split <;> rfl
  · rfl

theorem runEv_amt (net : Net K) (ph : Phys K) (sh : Sh) (x : K) :
    (runEv net ph (sh, x)).amt = match sh.write? with
      | some q => upd ph.amt q.2 ((net.flux q.2).scale x)
      | none => ph.amt := by
  cases sh with
  | ext f => exact updateFlux_amt _ _ _ _
  | out src f => exact updateFlux_amt _ _ _ _
  | read c st => rfl
  | inj c => rfl
  | fin c => rfl

theorem runTr_amt_unwritten (net : Net K) (tr : List (Sh × K)) (ph : Phys K) (f : Nat)
    (hf : f ∉ (writesOf (tr.map Prod.fst)).map Prod.snd) : (runTr net ph tr).amt f = ph.amt f := by
  induction tr generalizing ph with
  | nil => rfl
  | cons ev tr ih =>
    obtain ⟨sh, x⟩ := ev
    simp only [runTr, List.foldl_cons] at *
    simp only [writesOf, List.map_cons, List.filterMap_cons] at hf
    cases hw : sh.write? with
    | none =>
      rw [hw] at hf
      rw [ih _ hf, runEv_amt, hw]
    | some q =>
      rw [hw] at hf
      simp only [List.map_cons, List.mem_cons, not_or] at hf
      rw [ih _ hf.2, runEv_amt, hw]
      exact upd_ne _ _ hf.1

/-! ## Per-operation balance -/

theorem St_updateFlux (net : Net K) (g : Geo K) (ph : Phys K) (hf : Finite' g ph) (f : Nat) (x : K)
    (ht : ∀ c, (net.flux f).target = .cont c → c ∈ g.C → g.tA f = g.A c) :
    St g (updateFlux net ph f x) = St g ph +
      (if (net.flux f).inst && into net g.C f then g.tA f * (net.flux f).scale x else 0) := by
  cases hi : (net.flux f).inst with
  | false =>
    simp only [Bool.false_and, Bool.false_eq_true, if_false, add_zero]
    apply St_same
    intro c; simp [updateFlux, hi, val]
  | true =>
    cases hc : (net.flux f).target with
    | outside =>
      simp only [into, hc, Bool.and_false, Bool.false_eq_true, if_false, add_zero]
      apply St_same
      intro c; simp [updateFlux, hi, hc, val]
    | cont c =>
      simp only [into, hc, Bool.true_and, decide_eq_true_eq]
      by_cases hm : c ∈ g.C
      · have e := hf c hm
        rw [St_change g ph _ c ((net.flux f).scale x)]
        · simp [hm, ht c hc hm]
        · intro c' hc'; simp [updateFlux, hi, hc, val, upd_ne _ _ hc']
        · simp only [updateFlux, hi, hc, val, if_true, upd_same, Cont.addStat, e, Bool.false_eq_true,
            if_false]; ring
      · simp only [hm, if_false, add_zero]
        unfold St
        refine Finset.sum_congr rfl (fun y hy => ?_)
        have : y ≠ c := fun e => hm (e ▸ hy)
        simp [updateFlux, hi, hc, val, upd_ne _ _ this]

theorem St_subDyn (g : Geo K) (ph : Phys K) (hf : Finite' g ph) (src : Nat) (x : K) :
    St g { ph with cont := upd ph.cont src ((ph.cont src).subDyn x) } = St g ph -
      (if src ∈ g.C then g.A src * x else 0) := by
  by_cases hm : src ∈ g.C
  · have e := hf src hm
    rw [St_change g ph _ src (-x)]
    · simp only [hm, if_true]; ring
    · intro c' hc'; simp [val, upd_ne _ _ hc']
    · simp only [val, upd_same, Cont.subDyn, e, Bool.false_eq_true, if_false]; ring
  · simp only [hm, if_false, sub_zero]
    unfold St
    refine Finset.sum_congr rfl (fun y hy => ?_)
    have : y ≠ src := fun e => hm (e ▸ hy)
    simp [val, upd_ne _ _ this]

theorem St_read (net : Net K) (g : Geo K) (ph : Phys K) (hf : Finite' g ph) (c : Nat) (st : Bool) :
    St g (readCont net ph (c, st)) = St g ph +
      (if c ∈ g.C then g.A c * sumIncoming net ph c else 0) := by
  by_cases hm : c ∈ g.C
  · have e := hf c hm
    rw [St_change g ph _ c (sumIncoming net ph c)]
    · intro c' hc'; simp [readCont, val, upd_ne _ _ hc']
    · cases st <;> simp only [readCont, val, upd_same, Cont.addDyn, Cont.addStat, e,
        Bool.false_eq_true, if_false, if_true] <;> ring
  · simp only [hm, if_false, add_zero]
    unfold St
    refine Finset.sum_congr rfl (fun y hy => ?_)
    have : y ≠ c := fun e => hm (e ▸ hy)
    simp [readCont, val, upd_ne _ _ this]

theorem St_fin (g : Geo K) (ph : Phys K) (c : Nat) : St g (finCont ph c) = St g ph := by
  apply St_same
  intro c'
  by_cases h : c' = c
  · subst h; simp only [finCont, val, upd_same]; ring
  · simp [finCont, val, upd_ne _ _ h]

theorem St_inj (g : Geo K) (ph : Phys K) (c : Nat) (x : K) : St g (injCont ph c x) = St g ph := by
  apply St_same
  intro c'
  by_cases h : c' = c
  · subst h; simp only [injCont, val, upd_same]; ring
  · simp [injCont, val, upd_ne _ _ h]

theorem transit_write (g : Geo K) (F : Finset Nat) (ph ph' : Phys K) (f : Nat) (a : K)
    (h : ph'.amt = upd ph.amt f a) (hf : f ∉ F) : transit g F ph' = transit g F ph := by
  unfold transit
  refine Finset.sum_congr rfl (fun y hy => ?_)
  have : y ≠ f := fun e => hf (e ▸ hy)
  rw [h, upd_ne _ _ this]

theorem transit_read (net : Net K) (g : Geo K) (S F : Finset Nat) (ph : Phys K) (c : Nat)
    (hc : c ∈ g.C) (hnd : net.fluxes.Nodup) (hfresh : FreshOK net g.C S F)
    (ht : ∀ f, (net.flux f).target = .cont c → g.tA f = g.A c)
    (hok : ∀ f ∈ net.inputs c, (net.flux f).inst = false → f ∈ F ∨ f ∈ S)
    (hS : ∀ f ∈ S, ph.amt f = 0) :
    transit g F ph = transit g (F.filter (fun f => (net.flux f).target ≠ .cont c)) ph
      + g.A c * sumIncoming net ph c := by
  have e1 : transit g F ph = transit g (F.filter (fun f => (net.flux f).target ≠ .cont c)) ph
      + ∑ f ∈ F.filter (fun f => ¬ (net.flux f).target ≠ .cont c), g.tA f * ph.amt f :=
    (Finset.sum_filter_add_sum_filter_not F _ _).symm
  rw [e1]
  congr 1
  have hin : (net.inputs c).Nodup := hnd.filter _
  have e2 : sumIncoming net ph c = ∑ f ∈ (net.inputs c).toFinset, getAmount net ph f := by
    unfold sumIncoming
    exact (List.sum_toFinset _ hin).symm
  rw [e2, Finset.mul_sum]
  rw [Finset.sum_congr rfl (g := fun f => g.A c * ph.amt f) (fun f hf => by
    rw [ht f (not_not.1 (Finset.mem_filter.1 hf).2)])]
  have hsub : F.filter (fun f => ¬ (net.flux f).target ≠ .cont c) ⊆ (net.inputs c).toFinset := by
    intro f hf
    rw [Finset.mem_filter] at hf
    rw [List.mem_toFinset, Net.inputs, List.mem_filter]
    exact ⟨(hfresh f hf.1).1, by simpa using hf.2⟩
  rw [← Finset.sum_subset hsub]
  · refine Finset.sum_congr rfl (fun f hf => ?_)
    have ht := (hfresh f (Finset.mem_filter.1 hf).1).2.1
    simp only [tracked, Bool.and_eq_true, Bool.not_eq_true'] at ht
    simp [getAmount, ht.1]
  · intro f hf hnf
    rw [List.mem_toFinset] at hf
    cases hi : (net.flux f).inst with
    | true => simp [getAmount, hi]
    | false =>
      have htc : (net.flux f).target = .cont c := by
        have := (List.mem_filter.1 hf).2; simpa using this
      rcases hok f hf hi with h | h
      · exact absurd (Finset.mem_filter.2 ⟨h, by simp [htc]⟩) hnf
      · simp [getAmount, hi, hS f h]

/-- Gain of the system in one operation, as a function of the recorded amounts. -/
def gain (net : Net K) (g : Geo K) (amt : Nat → K) (q : Option Nat × Nat) : K :=
  (if into net g.C q.2 && !from' g.C q.1 then g.tA q.2 * amt q.2 else 0) -
  (if from' g.C q.1 && !into net g.C q.2 then g.tA q.2 * amt q.2 else 0)

theorem gain_sum (net : Net K) (g : Geo K) (amt : Nat → K) (w : List (Option Nat × Nat)) :
    (w.map (gain net g amt)).sum = entering net g w amt - leaving net g w amt := by
  induction w with
  | nil => simp [entering, leaving]
  | cons q w ih =>
    simp only [List.map_cons, List.sum_cons, ih, entering, leaving, gain]; ring

theorem ev_balance (net : Net K) (g : Geo K) (S F : Finset Nat) (ph : Phys K) (sh : Sh) (x : K)
    (hnd : net.fluxes.Nodup) (hfin : Finite' g ph) (hfresh : FreshOK net g.C S F)
    (hok : okEv net g.C S F sh) (hS : ∀ f ∈ S, ph.amt f = 0)
    (hg : GeoOK net g sh.write?.toList) :
    St g (runEv net ph (sh, x)) + transit g (nextF net g.C F sh) (runEv net ph (sh, x)) =
      St g ph + transit g F ph +
      (sh.write?.toList.map (gain net g (runEv net ph (sh, x)).amt)).sum := by
  cases sh with
  | inj c =>
    simp only [runEv, nextF, Sh.write?, Option.toList, List.map_nil, List.sum_nil, add_zero, St_inj]
    rfl
  | fin c =>
    simp only [runEv, nextF, Sh.write?, Option.toList, List.map_nil, List.sum_nil, add_zero, St_fin]
    rfl
  | read c st =>
    simp only [runEv, nextF, Sh.write?, Option.toList, List.map_nil, List.sum_nil, add_zero]
    rw [St_read net g ph hfin]
    have e : transit g (F.filter (fun f => (net.flux f).target ≠ .cont c)) (readCont net ph (c, st))
        = transit g (F.filter (fun f => (net.flux f).target ≠ .cont c)) ph := rfl
    rw [e]
    by_cases hc : c ∈ g.C
    · rw [transit_read net g S F ph c hc hnd hfresh (fun f h => hg.target f c h hc) (hok hc) hS]
      simp only [hc, if_true]; ring
    · have : F.filter (fun f => (net.flux f).target ≠ .cont c) = F := by
        apply Finset.filter_true_of_mem
        intro f hf e
        have := (hfresh f hf).2.1
        simp [tracked, into, e, hc] at this
      rw [this]; simp [hc]
  | ext f =>
    simp only [okEv] at hok
    have hamt := updateFlux_amt net ph f x
    have hst := St_updateFlux net g ph hfin f x (fun c h hc => hg.target f c h hc)
    simp only [runEv, Sh.write?, Option.toList, List.map_cons, List.map_nil, List.sum_cons,
      List.sum_nil, add_zero, gain, from', Bool.not_false, Bool.and_true, Bool.false_and, Bool.false_eq_true, if_false,
      sub_zero]
    rw [hst]
    have htr := transit_write g F ph _ f _ hamt hok.2.1
    have ha : (updateFlux net ph f x).amt f = (net.flux f).scale x := by rw [hamt, upd_same]
    simp only [nextF, tracked]
    rcases Bool.dichotomy (net.flux f).inst with hi | hi <;>
      rcases Bool.dichotomy (into net g.C f) with hin | hin <;>
      simp only [hi, hin, Bool.not_false, Bool.not_true, Bool.and_true, Bool.and_false, Bool.true_and, Bool.false_and, Bool.false_eq_true,
        if_true, if_false, htr, add_zero] <;> try rw [ha]
    · unfold transit at htr ⊢
      rw [Finset.sum_insert hok.2.1, htr, ha]; ring
    · ring
  | out src f =>
    simp only [okEv] at hok
    have hamt := updateFlux_amt net ph f x
    have hst := St_updateFlux net g ph hfin f x (fun c h hc => hg.target f c h hc)
    have hfin' : Finite' g (updateFlux net ph f x) := fun c hc => by
      have := runEv_infinite net ph (.ext f, x) c
      simp only [runEv] at this
      rw [this]; exact hfin c hc
    have hsub := St_subDyn g (updateFlux net ph f x) hfin' src x
    have ha : (updateFlux net ph f x).amt f = (net.flux f).scale x := by rw [hamt, upd_same]
    have htr := transit_write g F ph _ f _ hamt hok.2.1
    have hcons : src ∈ g.C → g.tA f * (net.flux f).scale x = g.A src * x := fun hs =>
      hg.conserve src f (by simp [Sh.write?]) hs x
    simp only [runEv, Sh.write?, Option.toList, List.map_cons, List.map_nil, List.sum_cons,
      List.sum_nil, add_zero, gain, from']
    rw [hsub, hst]
    have hT : ∀ F', transit g F' { updateFlux net ph f x with
        cont := upd (updateFlux net ph f x).cont src (((updateFlux net ph f x).cont src).subDyn x) }
        = transit g F' (updateFlux net ph f x) := fun _ => rfl
    rw [hT]
    simp only [nextF, tracked]
    by_cases hs : src ∈ g.C
    · have hc := hcons hs
      rcases Bool.dichotomy (net.flux f).inst with hi | hi <;>
      rcases Bool.dichotomy (into net g.C f) with hin | hin <;>
        simp only [hi, hin, hs, decide_true, Bool.not_false, Bool.not_true, Bool.and_true, Bool.and_false, Bool.true_and, Bool.false_and,
          Bool.false_eq_true, if_true, if_false, htr, add_zero, sub_zero, zero_sub] <;> try rw [ha]
      · rw [hc]; ring
      · unfold transit at htr ⊢
        rw [Finset.sum_insert hok.2.1, htr, ha, hc]; ring
      · rw [hc]; ring
      · rw [hc]; ring
    · rcases Bool.dichotomy (net.flux f).inst with hi | hi <;>
      rcases Bool.dichotomy (into net g.C f) with hin | hin <;>
        simp only [hi, hin, hs, decide_false, Bool.not_false, Bool.not_true, Bool.and_true, Bool.and_false, Bool.true_and, Bool.false_and,
          Bool.false_eq_true, if_true, if_false, htr, add_zero, sub_zero] <;> try rw [ha]
      · unfold transit at htr ⊢
        rw [Finset.sum_insert hok.2.1, htr, ha]; ring
      · ring

/-- Balance of a trace. -/
theorem trace_balance (net : Net K) (g : Geo K) (S : Finset Nat) (hnd : net.fluxes.Nodup)
    (tr : List (Sh × K)) : ∀ (F : Finset Nat) (ph : Phys K), Finite' g ph → FreshOK net g.C S F →
    Sound net g.C S F (tr.map Prod.fst) → (∀ f ∈ S, ph.amt f = 0) →
    GeoOK net g (writesOf (tr.map Prod.fst)) →
    ((writesOf (tr.map Prod.fst)).map Prod.snd).Nodup →
    St g (runTr net ph tr) + transit g (runF net g.C F (tr.map Prod.fst)) (runTr net ph tr) =
      St g ph + transit g F ph + entering net g (writesOf (tr.map Prod.fst)) (runTr net ph tr).amt
        - leaving net g (writesOf (tr.map Prod.fst)) (runTr net ph tr).amt := by
  induction tr with
  | nil => intro F ph _ _ _ _ _ _; simp [runTr, runF, writesOf, entering, leaving]
  | cons ev tr ih =>
    intro F ph hfin hfresh hs hS hg hw
    obtain ⟨sh, x⟩ := ev
    have hcons : writesOf (((sh, x) :: tr).map Prod.fst) =
        sh.write?.toList ++ writesOf (tr.map Prod.fst) := by
      simp only [writesOf, List.map_cons, List.filterMap_cons]
      cases sh.write? <;> rfl
    rw [hcons] at hg hw ⊢
    rw [List.map_append] at hw
    simp only [List.map_cons, Sound] at hs
    set ph1 := runEv net ph (sh, x) with hph1
    have hfin1 : Finite' g ph1 := fun c hc => by rw [hph1, runEv_infinite]; exact hfin c hc
    have hg1 : GeoOK net g sh.write?.toList :=
      ⟨hg.target, fun s f h => hg.conserve s f (by simp at h ⊢; exact Or.inl h)⟩
    have hg2 : GeoOK net g (writesOf (tr.map Prod.fst)) :=
      ⟨hg.target, fun s f h => hg.conserve s f (List.mem_append.2 (Or.inr h))⟩
    have hS1 : ∀ f ∈ S, ph1.amt f = 0 := by
      intro f hf
      rw [hph1, runEv_amt]
      cases hsh : sh.write? with
      | none => exact hS f hf
      | some q =>
        have : q.2 ∉ S := by
          have ho := hs.1
          cases sh <;> simp only [Sh.write?, Option.some.injEq, reduceCtorEq] at hsh <;>
            (subst hsh; exact ho.2.2)
        simp only
        have hne : f ≠ q.2 := fun e => this (e ▸ hf)
        rw [upd_ne _ _ hne]; exact hS f hf
    have hI := ih (nextF net g.C F sh) ph1 hfin1 (hfresh.next hs.1) hs.2 hS1 hg2
      (List.nodup_append.1 hw).2.1
    have hE := ev_balance net g S F ph sh x hnd hfin hfresh hs.1 hS hg1
    rw [← hph1] at hE
    have hrun : runTr net ph ((sh, x) :: tr) = runTr net ph1 tr := rfl
    have hrunF : runF net g.C F (((sh, x) :: tr).map Prod.fst) =
        runF net g.C (nextF net g.C F sh) (tr.map Prod.fst) := rfl
    rw [hrun, hrunF, hI, hE]
    have hkeep : ∀ q ∈ sh.write?.toList, (runTr net ph1 tr).amt q.2 = ph1.amt q.2 := by
      intro q hq
      apply runTr_amt_unwritten
      intro hq'
      have := (List.nodup_append.1 hw).2.2
      exact this q.2 (List.mem_map_of_mem hq) q.2 hq' rfl
    have hgain : (sh.write?.toList.map (gain net g ph1.amt)).sum =
        entering net g sh.write?.toList (runTr net ph1 tr).amt
        - leaving net g sh.write?.toList (runTr net ph1 tr).amt := by
      rw [← gain_sum]
      congr 1
      apply List.map_congr_left
      intro q hq
      simp only [gain, hkeep q hq]
    rw [hgain]
    simp only [entering, leaving, List.map_append, List.sum_append]
    ring

end HB
