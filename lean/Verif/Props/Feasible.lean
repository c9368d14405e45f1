import Verif.Model.StepLemmas
import Verif.Props.Storage

/-!
# C10: constraint sweeps, C11: topology
-/

namespace HB

set_option linter.unusedSectionVars false

variable {K σ : Type} [Field K] [LinearOrder K] [IsStrictOrderedRing K]

/-! ## Specification -/

/-- `n` consecutive sweeps lead from `s` to `s'`. -/
inductive Spec.Swept (net : Net K) (dt : K) : Nat → Sys K σ → Sys K σ → Prop
  | zero (s) : Swept net dt 0 s s
  | succ {n s s1 s2} : Swept net dt n s s1 → sweep net dt s1 = .ok s2 → Swept net dt (n + 1) s s2

/-- Solved storages with the brick owning them, in processing order. -/
def Spec.cells (net : Net K) : List (Brick × Nat) :=
  net.solver.flatMap (fun b => b.conts.map (fun c => (b, c.1)))

/-- End-of-step content of a solved storage if the current change rates are applied. -/
def Spec.finalContent (net : Net K) (dt : K) (s : Sys K σ) (q : Brick × Nat) : K :=
  Spec.endContent (s.ph.cont q.2) dt ((q.1.outsOf q.2).map s.rate) ((net.inputs q.2).map (inflowOf net s))

/-- A storage stays within its bounds if the current rates are applied (the lower bound is up to the
requests below machine epsilon, which the code leaves alone). -/
def Spec.Feasible (net : Net K) (dt : K) (s : Sys K σ) (q : Brick × Nat) : Prop :=
  -(((q.1.outsOf q.2).length : K) * epsD) * dt ≤ Spec.finalContent net dt s q ∧
  ∀ k, (s.ph.cont q.2).cap = some k → Spec.finalContent net dt s q ≤ k

/-- Does the flux enter the constraints through its change rate? -/
def Spec.byRate (net : Net K) (f : Nat) : Bool := !(net.flux f).inst && !(net.flux f).static

/-- Structural conditions: fluxes are not shared, a storage only feeds (through rates) storages
processed later, and a storage with a capacity has a linked overflow. -/
structure Spec.Chained (net : Net K) (s : Sys K σ) : Prop where
  nodup : ((Spec.cells net).flatMap (fun q => q.1.outsOf q.2)).Nodup
  order : (Spec.cells net).Pairwise (fun q q' => ∀ f ∈ q'.1.outsOf q'.2, Spec.byRate net f = true →
    (net.flux f).target ≠ .cont q.2)
  self : ∀ q ∈ Spec.cells net, ∀ f ∈ q.1.outsOf q.2, Spec.byRate net f = true →
    (net.flux f).target ≠ .cont q.2
  overflow : ∀ q ∈ Spec.cells net, (s.ph.cont q.2).cap.isSome →
    ∃ f ∈ q.1.outsOf q.2, net.ovf q.2 = some f

/-- Conditions on the state: finite storages with a non-negative start content; the ones with a
capacity are not (nearly) empty; slots of fluxes that are not solved are not negative. -/
structure Spec.Startable (net : Net K) (dt : K) (s : Sys K σ) : Prop where
  finite : ∀ q ∈ Spec.cells net, (s.ph.cont q.2).infinite = false ∧ (s.ph.cont q.2).allowNeg = false
  start : ∀ q ∈ Spec.cells net, 0 ≤ (s.ph.cont q.2).content + (s.ph.cont q.2).dyn +
    Spec.inAmount ((net.inputs q.2).map (inflowOf net s))
  room : ∀ q ∈ Spec.cells net, ∀ k, (s.ph.cont q.2).cap = some k → 0 ≤ k ∧
    prec * dt < (s.ph.cont q.2).content + (s.ph.cont q.2).dyn +
      Spec.inAmount ((net.inputs q.2).map (inflowOf net s))
  others : ∀ f, f ∉ (Spec.cells net).flatMap (fun q => q.1.outsOf q.2) → 0 ≤ (s.rate f).getD 0

open Spec

/-! ## Termination -/

theorem enforce_swept {net : Net K} {dt : K} (n : Nat) (s s' : Sys K σ)
    (h : enforce net dt n s = .ok s') :
    ∃ m ≤ n, (0 < n → 0 < m) ∧ Swept net dt m s s' ∧
      (m < n → ∃ s0, Swept net dt (m - 1) s s0 ∧ sweep net dt s0 = .ok s' ∧
        ∀ f ∈ net.solverOuts, |(s'.rate f).getD 0 - (s0.rate f).getD 0| ≤ prec) := by
  have front : ∀ (m : Nat) (a b c : Sys K σ), sweep net dt a = .ok b → Swept net dt m b c →
      Swept net dt (m + 1) a c := by
    intro m a b c hab hbc
    induction hbc with
    | zero => exact .succ (.zero _) hab
    | succ _ h2 ih => exact .succ (ih hab) h2
  induction n generalizing s with
  | zero =>
    simp only [enforce, Except.ok.injEq] at h; subst h
    exact ⟨0, le_refl _, fun h => h, .zero _, fun h => absurd h (lt_irrefl _)⟩
  | succ n ih =>
    unfold enforce at h
    cases hw : sweep net dt s with
    | error e => rw [hw] at h; simp [bind, Except.bind] at h
    | ok s1 =>
      rw [hw] at h
      simp only [bind, Except.bind] at h
      split at h
      · rename_i hst
        simp only [pure, Except.pure, Except.ok.injEq] at h; subst h
        refine ⟨1, by omega, fun _ => one_pos, .succ (.zero _) hw, fun _ => ⟨s, .zero _, hw, ?_⟩⟩
        intro f hf
        have := List.all_eq_true.1 hst f hf
        simpa using this
      · obtain ⟨m, hm, hpos, hsw, hlast⟩ := ih s1 h
        refine ⟨m + 1, by omega, fun _ => by omega, front _ _ _ _ hw hsw, fun hlt => ?_⟩
        obtain ⟨s0, h1, h2, h3⟩ := hlast (by omega)
        refine ⟨s0, ?_, h2, h3⟩
        have hm' : 0 < m := hpos (by omega)
        have : m + 1 - 1 = (m - 1) + 1 := by omega
        rw [this]; exact front _ _ _ _ hw h1

/-- **C10 (termination).** Enforcing the constraints performs between one and ten sweeps; if it stops
before the tenth, the last sweep moved no rate by more than 1e-8. -/
theorem c10_at_most_ten {net : Net K} {dt : K} {s s' : Sys K σ} (h : enforce net dt 10 s = .ok s') :
    ∃ m, 1 ≤ m ∧ m ≤ 10 ∧ Swept net dt m s s' ∧
      (m < 10 → ∃ s0, Swept net dt (m - 1) s s0 ∧ sweep net dt s0 = .ok s' ∧
        ∀ f ∈ net.solverOuts, |(s'.rate f).getD 0 - (s0.rate f).getD 0| ≤ prec) := by
  obtain ⟨m, h1, h2, h3, h4⟩ := enforce_swept 10 s s' h
  exact ⟨m, h2 (by norm_num), h1, h3, h4⟩

/-! ## One storage -/

theorem writeRates_other (ids : List Nat) (vs : List (Option K)) (rate : Nat → Option K) (f : Nat)
    (h : f ∉ ids) : writeRates rate ids vs f = rate f := by
  induction ids generalizing rate vs with
  | nil => cases vs <;> rfl
  | cons a l ih =>
    simp only [List.mem_cons, not_or] at h
    cases vs with
    | nil => rfl
    | cons v vs =>
      rw [writeRates, ih _ _ h.2]; simp [upd, h.1]

theorem writeRates_map (ids : List Nat) (vs : List (Option K)) (rate : Nat → Option K)
    (hnd : ids.Nodup) (hl : vs.length = ids.length) : ids.map (writeRates rate ids vs) = vs := by
  induction ids generalizing rate vs with
  | nil => cases vs with
    | nil => rfl
    | cons v vs => simp at hl
  | cons a l ih =>
    cases vs with
    | nil => simp at hl
    | cons v vs =>
      rw [List.nodup_cons] at hnd
      simp only [List.map_cons, writeRates]
      rw [ih _ _ hnd.2 (by simpa using hl), writeRates_other _ _ _ _ hnd.1]
      simp [upd]

theorem writeIns_clip (net : Net K) (s : Sys K σ) (ids : List Nat) (rate : Nat → Option K)
    (hr : ∀ f ∈ ids, byRate net f = true → rate f = s.rate f ∧ 0 ≤ (s.rate f).getD 0) :
    writeIns rate ids ((ids.map (inflowOf net s)).map Inflow.clip) = rate := by
  induction ids with
  | nil => rfl
  | cons a l ih =>
    have ihl := ih (fun f hf => hr f (List.mem_cons_of_mem _ hf))
    simp only [List.map_cons]
    have ha := hr a (by simp)
    unfold inflowOf at ihl ⊢
    by_cases h1 : (net.flux a).inst = true
    · simp only [h1, if_true, Inflow.clip, writeIns]; exact ihl
    · by_cases h2 : (net.flux a).static = true
      · simp only [h1, h2, if_true, Inflow.clip, writeIns, Bool.false_eq_true, if_false]; exact ihl
      · simp only [h1, h2, Bool.false_eq_true, if_false]
        have hb : byRate net a = true := by simp [byRate, h1, h2]
        obtain ⟨e, hn⟩ := ha hb
        have hu : upd rate a (s.rate a) = rate := by
          funext j; unfold upd; split
          · rename_i hj; rw [hj, e]
          · rfl
        cases hs : s.rate a with
        | none => simp only [Inflow.clip, writeIns]; rw [← hs, hu]; exact ihl
        | some r =>
          have hr0 : 0 ≤ r := by rw [hs] at hn; exact hn
          simp only [Inflow.clip, writeIns, clip_of_nonneg hr0]; rw [← hs, hu]; exact ihl

theorem inflows_congr (net : Net K) (s s' : Sys K σ) (c : Nat) (hph : s'.ph = s.ph)
    (h : ∀ f ∈ net.inputs c, byRate net f = true → s'.rate f = s.rate f) :
    (net.inputs c).map (inflowOf net s') = (net.inputs c).map (inflowOf net s) := by
  apply List.map_congr_left
  intro f hf
  unfold inflowOf
  rw [hph]
  by_cases h1 : (net.flux f).inst = true
  · simp [h1]
  · by_cases h2 : (net.flux f).static = true
    · simp [h1, h2]
    · simp only [h1, h2, Bool.false_eq_true, if_false]
      rw [h f hf (by simp [byRate, h1, h2])]

theorem inAmount_rate (net : Net K) (s s' : Sys K σ) (hph : s'.ph = s.ph) (ids : List Nat) :
    inAmount (ids.map (inflowOf net s')) = inAmount (ids.map (inflowOf net s)) := by
  induction ids with
  | nil => rfl
  | cons a l ih =>
    simp only [List.map_cons]
    unfold inflowOf at ih ⊢
    rw [hph] at ih ⊢
    by_cases h1 : (net.flux a).inst = true
    · simp only [h1, if_true, inAmount, ih]
    · by_cases h2 : (net.flux a).static = true
      · simp only [h1, h2, if_true, inAmount, ih, Bool.false_eq_true, if_false]
      · simp only [h1, h2, inAmount, ih, Bool.false_eq_true, if_false]

theorem inRate_mono (net : Net K) (s s' : Sys K σ) (ids : List Nat)
    (h : ∀ f ∈ ids, byRate net f = true → (s'.rate f).getD 0 ≤ (s.rate f).getD 0) :
    inRate (ids.map (inflowOf net s')) ≤ inRate (ids.map (inflowOf net s)) := by
  induction ids with
  | nil => exact le_refl _
  | cons a l ih =>
    have ihl := ih (fun f hf => h f (List.mem_cons_of_mem _ hf))
    simp only [List.map_cons]
    unfold inflowOf at ihl ⊢
    by_cases h1 : (net.flux a).inst = true
    · simp only [h1, if_true, inRate]; exact ihl
    · by_cases h2 : (net.flux a).static = true
      · simp only [h1, h2, if_true, inRate, Bool.false_eq_true, if_false]; exact ihl
      · simp only [h1, h2, Bool.false_eq_true, if_false]
        have hb := h a (by simp) (by simp [byRate, h1, h2])
        cases hs : s.rate a <;> cases hs' : s'.rate a <;> rw [hs, hs'] at hb <;>
          simp only [inRate, Option.getD_some, Option.getD_none] at hb ⊢ <;> linarith

theorem tinyOut_le (l : List (Option K)) : tinyOut l ≤ (l.length : K) * epsD := by
  have he : (0 : K) ≤ epsD := epsD_pos.le
  induction l with
  | nil => simp [tinyOut]
  | cons a l ih =>
    cases a with
    | none => simp only [tinyOut, List.length_cons]; push_cast; linarith
    | some r =>
      simp only [tinyOut, List.length_cons]; push_cast
      split
      · rename_i h; linarith [h.2]
      · linarith

/-- The cell can be limited upwards: either its overflow slot is still empty, or it already fits. -/
def Fits (net : Net K) (dt : K) (s : Sys K σ) (q : Brick × Nat) : Prop :=
  (∀ f ∈ q.1.outsOf q.2, 0 ≤ (s.rate f).getD 0) ∧
  ∀ k, (s.ph.cont q.2).cap = some k → finalContent net dt s q ≤ k

def Empty0 (net : Net K) (s : Sys K σ) (q : Brick × Nat) : Prop :=
  ∀ f ∈ q.1.outsOf q.2, net.ovf q.2 = some f → s.rate f = some 0

theorem findIdx_mem {l : List Nat} {f : Nat} (h : f ∈ l) :
    ∃ i, l.findIdx? (· = f) = some i ∧ l[i]? = some f := by
  cases hx : l.findIdx? (· = f) with
  | none =>
    rw [List.findIdx?_eq_none_iff] at hx
    have := hx f h; simp at this
  | some i =>
    refine ⟨i, rfl, ?_⟩
    rw [List.findIdx?_eq_some_iff_getElem] at hx
    obtain ⟨hi, h1, -⟩ := hx
    rw [List.getElem?_eq_getElem hi]; simpa using h1

theorem constrainCont_step {net : Net K} {dt : K} {s s' : Sys K σ} {q : Brick × Nat} (hdt : 0 < dt)
    (hnd : (q.1.outsOf q.2).Nodup)
    (hself : ∀ f ∈ q.1.outsOf q.2, byRate net f = true → (net.flux f).target ≠ .cont q.2)
    (hovf : (s.ph.cont q.2).cap.isSome → ∃ f ∈ q.1.outsOf q.2, net.ovf q.2 = some f)
    (hfin : (s.ph.cont q.2).infinite = false) (hneg : (s.ph.cont q.2).allowNeg = false)
    (hstart : 0 ≤ (s.ph.cont q.2).content + (s.ph.cont q.2).dyn +
      inAmount ((net.inputs q.2).map (inflowOf net s)))
    (hroom : ∀ k, (s.ph.cont q.2).cap = some k → 0 ≤ k ∧
      prec * dt < (s.ph.cont q.2).content + (s.ph.cont q.2).dyn +
        inAmount ((net.inputs q.2).map (inflowOf net s)))
    (hins : ∀ f ∈ net.inputs q.2, byRate net f = true → 0 ≤ (s.rate f).getD 0)
    (hpre : Empty0 net s q ∨ Fits net dt s q)
    (h : constrainCont net dt q.1 s q.2 = .ok s') :
    s'.ph = s.ph ∧ (∀ f, f ∉ q.1.outsOf q.2 → s'.rate f = s.rate f) ∧
    (∀ f ∈ q.1.outsOf q.2, 0 ≤ (s'.rate f).getD 0) ∧ Feasible net dt s' q ∧
    (Fits net dt s q → ∀ f ∈ q.1.outsOf q.2, (s'.rate f).getD 0 ≤ (s.rate f).getD 0) := by
  unfold constrainCont at h
  dsimp only at h
  set outs := (q.1.outsOf q.2).map s.rate with houts
  set ins := (net.inputs q.2).map (inflowOf net s) with hinsd
  set ovf := (net.ovf q.2).bind (fun f => (q.1.outsOf q.2).findIdx? (· = f)) with hov
  cases ha : applyConstraints (s.ph.cont q.2) dt outs ovf ins with
  | error e => rw [ha] at h; simp [bind, Except.bind] at h
  | ok oi =>
    obtain ⟨o, i⟩ := oi
    rw [ha] at h
    simp only [bind, Except.bind, pure, Except.pure, Except.ok.injEq] at h
    have hS := hS_of_start (s.ph.cont q.2) outs ins hstart
    -- the inflows are not touched
    have hi : i = ins.map Inflow.clip := by
      obtain ⟨_, (⟨-, h1, _⟩ | ⟨k, j, o', hk, hj, hexc, ho, -, h1⟩ | ⟨k, hk, hj, hexc, hle, -, -⟩)⟩ :=
        ac_cases _ dt outs ovf ins o i hdt hfin ha
      · exact h1
      · exact h1
      · exfalso
        obtain ⟨f, hf, hfo⟩ := hovf (by simp [hk])
        obtain ⟨j, hj', -⟩ := findIdx_mem hf
        have hj2 : (List.findIdx? (fun x => decide (x = f)) (q.1.outsOf q.2)) = some j := hj'
        rw [hov, hfo] at hj
        simp [hj2] at hj
    have hnn : NonnegIns ins := by
      intro r hr
      rw [hinsd, List.mem_map] at hr
      obtain ⟨f, hf, he⟩ := hr
      unfold inflowOf at he
      by_cases h1 : (net.flux f).inst = true
      · simp [h1] at he
      · by_cases h2 : (net.flux f).static = true
        · simp [h1, h2] at he
        · simp only [h1, h2, Bool.false_eq_true, if_false, Inflow.rate.injEq] at he
          have := hins f hf (by simp [byRate, h1, h2])
          rw [he] at this; exact this
    have hlen : o.length = (q.1.outsOf q.2).length := by
      have := (c01_only_reduced _ dt outs ovf ins o i hdt hfin hstart ha).1
      rw [this, houts, List.length_map]
    have hw : writeIns (writeRates s.rate (q.1.outsOf q.2) o) (net.inputs q.2) i
        = writeRates s.rate (q.1.outsOf q.2) o := by
      rw [hi]
      apply writeIns_clip
      intro f hf hb
      refine ⟨writeRates_other _ _ _ _ (fun hm => hself f hm hb ?_), hins f hf hb⟩
      simpa using (List.mem_filter.1 hf).2
    rw [hw] at h
    have hother : ∀ f, f ∉ q.1.outsOf q.2 → s'.rate f = s.rate f := fun f hf => by
      rw [← h]; exact writeRates_other _ _ _ _ hf
    have hph : s'.ph = s.ph := by rw [← h]
    have hout' : (q.1.outsOf q.2).map s'.rate = o := by
      rw [← h]; exact writeRates_map _ _ _ hnd hlen
    have hin' : (net.inputs q.2).map (inflowOf net s') = ins := by
      apply inflows_congr net s s' q.2 hph
      intro f hf hb
      exact hother f (fun hm => hself f hm hb (by simpa using (List.mem_filter.1 hf).2))
    have hfinal : finalContent net dt s' q = endContent (s.ph.cont q.2) dt o ins := by
      unfold finalContent; rw [hph, hout', hin']
    have hi' : i = ins := by rw [hi]; exact map_clip_ins ins hnn
    rw [hi'] at ha
    have hlow := c01_never_drained _ dt outs ovf ins o ins hdt hfin hneg hstart (fun k hk => (hroom k hk).1) ha
    -- position of a flux
    have hpos : ∀ f ∈ q.1.outsOf q.2, ∃ j : Nat, (q.1.outsOf q.2)[j]? = some f := fun f hf =>
      List.mem_iff_getElem?.1 hf
    have hget : ∀ (j : Nat) (f : Nat), (q.1.outsOf q.2)[j]? = some f → o[j]? = some (s'.rate f) ∧
        outs[j]? = some (s.rate f) := by
      intro j f hj
      constructor
      · rw [← hout', List.getElem?_map, hj]; rfl
      · rw [houts, List.getElem?_map, hj]; rfl
    have hup : ∀ k, (s.ph.cont q.2).cap = some k → Fits net dt s q →
        asked (s.ph.cont q.2) dt outs ins ≤ k := by
      intro k hk hf
      have hno : NonnegOuts outs := by
        intro r hr
        rw [houts, List.mem_map] at hr
        obtain ⟨f, hf', he⟩ := hr
        have := hf.1 f hf'
        rw [he] at this; exact this
      rw [asked_eq _ dt outs ins hno hnn]
      exact hf.2 k hk
    have hnonneg : ∀ f ∈ q.1.outsOf q.2, 0 ≤ (s'.rate f).getD 0 := by
      intro f hf
      obtain ⟨j, hj⟩ := hpos f hf
      obtain ⟨h1, h2⟩ := hget j f hj
      cases hs : s'.rate f with
      | none => simp
      | some r' =>
        rw [hs] at h1
        simp only [Option.getD_some]
        obtain ⟨_, (⟨rfl, -, _⟩ | ⟨k, j', o', hk, hj', hexc, ho, rfl, -⟩ | ⟨k, hk, hj, hexc, hle, rfl, -⟩)⟩ :=
          ac_cases _ dt outs ovf ins o ins hdt hfin ha
        · exact (outs1_get _ dt outs ins hdt hS j r' h1).choose_spec.2.1
        · by_cases e : j' = j
          · subst e
            rw [List.getElem?_set_self (by rw [List.getElem?_eq_some_iff] at ho; exact ho.1)] at h1
            simp only [Option.some.injEq] at h1
            rw [← h1]
            exact div_nonneg (by linarith) hdt.le
          · rw [List.getElem?_set_ne e] at h1
            exact (outs1_get _ dt outs ins hdt hS j r' h1).choose_spec.2.1
        · exact (outs1_get _ dt outs ins hdt hS j r' h1).choose_spec.2.1
    refine ⟨hph, hother, hnonneg, ⟨?_, ?_⟩, ?_⟩
    · rw [hfinal]
      have h1 := tinyOut_le outs
      rw [houts, List.length_map] at h1
      have h2 := mul_le_mul_of_nonneg_right h1 hdt.le
      linarith
    · intro k hk
      rw [hph] at hk
      rw [hfinal]
      obtain ⟨hk0, hrm⟩ := hroom k hk
      have hrm' : prec * dt < (ctx (s.ph.cont q.2) outs ins).S + (ctx (s.ph.cont q.2) outs ins).inStat := by
        rw [spec_inAmount_eq] at hrm; exact hrm
      obtain ⟨_, (⟨rfl, -, hle⟩ | ⟨k', j', o', hk', hj', hexc, ho, rfl, -⟩ | ⟨k', hk', hj, -⟩)⟩ :=
          ac_cases _ dt outs ovf ins o ins hdt hfin ha
      · have := base_end_le _ dt outs ins k hdt hk0 (Or.inl hrm') (hle k hk)
        rwa [map_clip_ins _ hnn] at this
      · rw [hk] at hk'; cases hk'
        rcases hpre with h0 | h0
        · obtain ⟨f, hf, hfo⟩ := hovf (by simp [hk])
          have hz := h0 f hf hfo
          obtain ⟨j, hj1, hj2⟩ := findIdx_mem hf
          have hj3 : ovf = some j := by rw [hov, hfo]; exact hj1
          have ej : j' = j := by rw [hj3] at hj'; simpa using hj'.symm
          rw [ej] at ho ⊢
          have hnd' := not_drains_of_asked_nonneg (s.ph.cont q.2) dt outs ins (by linarith)
          have hz' : outs[j]? = some (some 0) := by rw [(hget j f hj2).2, hz]
          have := outs1_getD_clip _ dt outs ins hnd' j o' 0 hz' ho
          have ho0 : o' = 0 := by rw [this]; exact clip_of_nonneg (le_refl _)
          subst ho0
          have e := end_overflow _ dt outs ins hdt k j 0 hnd' ho
          rw [map_clip_ins _ hnn] at e
          rw [e]; simp
        · exact absurd (hup k hk h0) (not_le.mpr hexc)
      · exfalso
        obtain ⟨f, hf, hfo⟩ := hovf (by simp [hk])
        obtain ⟨j, hj', -⟩ := findIdx_mem hf
        rw [hov, hfo] at hj
        have hj2 : (List.findIdx? (fun x => decide (x = f)) (q.1.outsOf q.2)) = some j := hj'
        simp at hj
        exact absurd rfl (hj f hf)
    · intro hf f hfm
      obtain ⟨j, hj⟩ := hpos f hfm
      obtain ⟨h1, h2⟩ := hget j f hj
      have hle1 : o = outs1 (s.ph.cont q.2) dt outs ins := by
        obtain ⟨_, (⟨h1, -, _⟩ | ⟨k', j', o', hk', hj', hexc, ho, -, -⟩ | ⟨k', hk', hj, hexc, -, h1, -⟩)⟩ :=
          ac_cases _ dt outs ovf ins o ins hdt hfin ha
        · exact h1
        · exact absurd (hup k' hk' hf) (not_le.mpr hexc)
        · exact h1
      cases hs : s'.rate f with
      | none => simpa using hf.1 f hfm
      | some r' =>
        rw [hs, hle1] at h1
        obtain ⟨r, hr, -, hr2⟩ := outs1_get _ dt outs ins hdt hS j r' h1
        rw [h2] at hr
        simp only [Option.some.injEq] at hr
        have hr0 := hf.1 f hfm
        rw [hr] at hr0 ⊢
        simp only [Option.getD_some] at hr0 ⊢
        rwa [max_eq_left hr0] at hr2

/-! ## A whole sweep -/

theorem sweep_cells (net : Net K) (dt : K) (s : Sys K σ) :
    sweep net dt s = (cells net).foldlM (fun s q => constrainCont net dt q.1 s q.2) s := by
  unfold sweep cells
  induction net.solver generalizing s with
  | nil => rfl
  | cons b l ih =>
    rw [List.flatMap_cons, List.foldlM_append, List.foldlM_cons, List.foldlM_map, List.foldlM_map]
    congr 1
    funext s1
    exact ih s1

theorem finalContent_congr {net : Net K} {dt : K} {s s' : Sys K σ} {q : Brick × Nat}
    (hph : s'.ph = s.ph) (ho : ∀ f ∈ q.1.outsOf q.2, s'.rate f = s.rate f)
    (hi : ∀ f ∈ net.inputs q.2, byRate net f = true → s'.rate f = s.rate f) :
    finalContent net dt s' q = finalContent net dt s q := by
  unfold finalContent
  rw [hph, inflows_congr net s s' q.2 hph hi, List.map_congr_left ho]

theorem finalContent_mono {net : Net K} {dt : K} {s s' : Sys K σ} {q : Brick × Nat} (hdt : 0 < dt)
    (hph : s'.ph = s.ph) (ho : ∀ f ∈ q.1.outsOf q.2, s'.rate f = s.rate f)
    (hi : ∀ f ∈ net.inputs q.2, byRate net f = true → (s'.rate f).getD 0 ≤ (s.rate f).getD 0) :
    finalContent net dt s' q ≤ finalContent net dt s q := by
  unfold finalContent endContent
  rw [hph, inAmount_rate net s s' hph, List.map_congr_left ho]
  have := inRate_mono net s s' _ hi
  have := mul_le_mul_of_nonneg_right this hdt.le
  nlinarith

theorem sweep_aux {net : Net K} {dt : K} (hdt : 0 < dt) {s0 : Sys K σ} (hch : Chained net s0)
    (hst : Startable net dt s0) (rest : List (Brick × Nat)) :
    ∀ (done : List (Brick × Nat)) (s s' : Sys K σ), cells net = done ++ rest → s.ph = s0.ph →
      (∀ f, f ∉ (cells net).flatMap (fun q => q.1.outsOf q.2) → 0 ≤ (s.rate f).getD 0) →
      (∀ q ∈ done, ∀ f ∈ q.1.outsOf q.2, 0 ≤ (s.rate f).getD 0) →
      (∀ q ∈ done, Feasible net dt s q) →
      ((∀ q ∈ rest, Empty0 net s q) ∨ (∀ q ∈ rest, Fits net dt s q)) →
      rest.foldlM (fun s q => constrainCont net dt q.1 s q.2) s = .ok s' →
      s'.ph = s0.ph ∧
      (∀ f, f ∉ (cells net).flatMap (fun q => q.1.outsOf q.2) → 0 ≤ (s'.rate f).getD 0) ∧
      (∀ q ∈ cells net, ∀ f ∈ q.1.outsOf q.2, 0 ≤ (s'.rate f).getD 0) ∧
      (∀ q ∈ cells net, Feasible net dt s' q) := by
  induction rest with
  | nil =>
    intro done s s' hc hph hoth hnn hfe _ h
    simp only [List.foldlM_nil, pure, Except.pure, Except.ok.injEq] at h
    subst h
    rw [List.append_nil] at hc
    rw [hc] at hoth ⊢
    exact ⟨hph, hoth, hnn, hfe⟩
  | cons q rest ih =>
    intro done s s' hc hph hoth hnn hfe hmode h
    rw [List.foldlM_cons] at h
    cases h1 : constrainCont net dt q.1 s q.2 with
    | error e => rw [h1] at h; simp [bind, Except.bind] at h
    | ok s1 =>
      rw [h1] at h
      simp only [bind, Except.bind] at h
      have hq : q ∈ cells net := by rw [hc]; simp
      have hord := hch.order
      rw [hc, List.pairwise_append, List.pairwise_cons] at hord
      have hnd := hch.nodup
      rw [hc, List.flatMap_append, List.flatMap_cons, List.nodup_append, List.nodup_append] at hnd
      obtain ⟨-, ⟨hndq, -, hdisj1⟩, hdisj2⟩ := hnd
      have hrest : ∀ q' ∈ rest, ∀ f ∈ q'.1.outsOf q'.2, f ∉ q.1.outsOf q.2 := by
        intro q' hq' f hf hf'
        exact hdisj1 f hf' f (List.mem_flatMap.2 ⟨q', hq', hf⟩) rfl
      have hdone : ∀ q' ∈ done, ∀ f ∈ q'.1.outsOf q'.2, f ∉ q.1.outsOf q.2 := by
        intro q' hq' f hf hf'
        exact hdisj2 f (List.mem_flatMap.2 ⟨q', hq', hf⟩) f (List.mem_append.2 (Or.inl hf')) rfl
      have hamt : ∀ c, inAmount ((net.inputs c).map (inflowOf net s)) =
          inAmount ((net.inputs c).map (inflowOf net s0)) := fun c => inAmount_rate net s0 s hph _
      obtain ⟨e1, e2, e3, e4, e5⟩ := constrainCont_step (net := net) (s := s) (s' := s1) (q := q) hdt hndq
        (hch.self q hq) (by rw [hph]; exact hch.overflow q hq)
        (by rw [hph]; exact (hst.finite q hq).1) (by rw [hph]; exact (hst.finite q hq).2)
        (by rw [hph, hamt]; exact hst.start q hq) (by rw [hph, hamt]; exact hst.room q hq)
        (by
          intro f hf hb
          have ht : (net.flux f).target = .cont q.2 := by simpa using (List.mem_filter.1 hf).2
          by_cases hm : f ∈ (cells net).flatMap (fun q => q.1.outsOf q.2)
          · obtain ⟨q', hq', hf'⟩ := List.mem_flatMap.1 hm
            rw [hc] at hq'
            rcases List.mem_append.1 hq' with hd | hd
            · exact hnn q' hd f hf'
            · rcases List.mem_cons.1 hd with e | hr
              · subst e; exact absurd ht (hch.self q' hq f hf' hb)
              · exact absurd ht (hord.2.1.1 q' hr f hf' hb)
          · exact hoth f hm)
        (by rcases hmode with hm | hm
            · exact Or.inl (hm q (by simp))
            · exact Or.inr (hm q (by simp))) h1
      apply ih (done ++ [q]) s1 s' (by rw [hc]; simp) (e1.trans hph) ?_ ?_ ?_ ?_ h
      · intro f hf
        rw [e2 f (fun hm => hf (List.mem_flatMap.2 ⟨q, hq, hm⟩))]
        exact hoth f hf
      · intro q' hq' f hf
        rcases List.mem_append.1 hq' with hd | hd
        · rw [e2 f (hdone q' hd f hf)]; exact hnn q' hd f hf
        · simp only [List.mem_singleton] at hd; subst hd; exact e3 f hf
      · intro q' hq'
        rcases List.mem_append.1 hq' with hd | hd
        · have heq : finalContent net dt s1 q' = finalContent net dt s q' := by
            apply finalContent_congr e1 (fun f hf => e2 f (hdone q' hd f hf))
            intro f hf hb
            apply e2
            intro hm
            exact hord.2.2 q' hd q (by simp) f hm hb (by simpa using (List.mem_filter.1 hf).2)
          have := hfe q' hd
          unfold Feasible at this ⊢
          rw [heq, e1]; exact this
        · simp only [List.mem_singleton] at hd; subst hd; exact e4
      · rcases hmode with hm | hm
        · left
          intro q' hq' f hf ho
          rw [e2 f (hrest q' hq' f hf)]
          exact hm q' (by simp [hq']) f hf ho
        · right
          intro q' hq'
          have hfit := hm q' (by simp [hq'])
          refine ⟨fun f hf => by rw [e2 f (hrest q' hq' f hf)]; exact hfit.1 f hf, fun k hk => ?_⟩
          rw [e1] at hk
          refine le_trans ?_ (hfit.2 k hk)
          apply finalContent_mono hdt e1 (fun f hf => e2 f (hrest q' hq' f hf))
          intro f _ _
          by_cases hmf : f ∈ q.1.outsOf q.2
          · exact e5 (hm q (by simp)) f hmf
          · rw [e2 f hmf]

theorem enforce_feasible {net : Net K} {dt : K} (hdt : 0 < dt) {s0 : Sys K σ} (hch : Chained net s0)
    (hst : Startable net dt s0) (n : Nat) :
    ∀ (s s' : Sys K σ), s.ph = s0.ph →
      (∀ f, f ∉ (cells net).flatMap (fun q => q.1.outsOf q.2) → 0 ≤ (s.rate f).getD 0) →
      ((∀ q ∈ cells net, Empty0 net s q) ∨ (∀ q ∈ cells net, Fits net dt s q)) →
      enforce net dt (n + 1) s = .ok s' →
      (∀ q ∈ cells net, Feasible net dt s' q) := by
  induction n with
  | zero =>
    intro s s' hph hoth hmode h
    unfold enforce at h
    cases h1 : sweep net dt s with
    | error e => rw [h1] at h; simp [bind, Except.bind] at h
    | ok s1 =>
      rw [h1] at h
      rw [sweep_cells] at h1
      have hr := sweep_aux hdt hch hst (cells net) [] s s1 rfl hph hoth (by simp) (by simp) hmode h1
      simp only [bind, Except.bind, enforce] at h
      split at h <;> simp only [pure, Except.pure, Except.ok.injEq] at h <;> subst h <;> exact hr.2.2.2
  | succ n ih =>
    intro s s' hph hoth hmode h
    unfold enforce at h
    cases h1 : sweep net dt s with
    | error e => rw [h1] at h; simp [bind, Except.bind] at h
    | ok s1 =>
      rw [h1] at h
      rw [sweep_cells] at h1
      obtain ⟨r1, r2, r3, r4⟩ := sweep_aux hdt hch hst (cells net) [] s s1 rfl hph hoth (by simp) (by simp) hmode h1
      simp only [bind, Except.bind] at h
      split at h
      · simp only [pure, Except.pure, Except.ok.injEq] at h; subst h; exact r4
      · exact ih s1 s' r1 r2 (Or.inr (fun q hq => ⟨r3 q hq, fun k hk => (r4 q hq).2 k hk⟩)) h

theorem outsOf_solver {net : Net K} {q : Brick × Nat} (hq : q ∈ cells net) {f : Nat}
    (hf : f ∈ q.1.outsOf q.2) : f ∈ net.solverOuts ∧ (net.ovf q.2 = some f → net.isOvf f = true) := by
  obtain ⟨b, hb, hq⟩ := List.mem_flatMap.1 hq
  obtain ⟨c, hc, rfl⟩ := List.mem_map.1 hq
  obtain ⟨p, hp, hf⟩ := List.mem_flatMap.1 hf
  refine ⟨List.mem_flatMap.2 ⟨b, hb, List.mem_flatMap.2 ⟨p, (List.mem_filter.1 hp).1, hf⟩⟩, fun ho => ?_⟩
  unfold Net.isOvf
  rw [List.any_eq_true]
  refine ⟨b, hb, ?_⟩
  rw [List.any_eq_true]
  exact ⟨c, hc, by simpa using ho⟩

theorem link_get (ovfs : Nat → Bool) (ids : List Nat) (k : Nat → K) (r : Nat → Option K) (f : Nat) :
    ids.foldl (fun r f => upd r f (some (if ovfs f then 0 else k f))) r f =
      if f ∈ ids then some (if ovfs f then 0 else k f) else r f := by
  induction ids generalizing r with
  | nil => simp
  | cons a l ih =>
    rw [List.foldl_cons, ih]
    by_cases h1 : f ∈ l
    · simp [h1]
    · by_cases h2 : f = a
      · subst h2; simp [h1, upd]
      · simp [h1, h2, upd]

/-- **C10 (feasibility, partial).** Whatever rates the processes ask for, after the constraints have
been enforced the rates keep *every* solved storage between zero and its capacity at the end of the
step, simultaneously — for networks processed from upstream to downstream in which each storage with a
capacity has an overflow and is not empty.  Missing: networks outside these conditions, for which the
property is false (`c10_stable_but_overfull`, `c10_never_stabilises`). -/
theorem c10_feasible_partial {net : Net K} {dt : K} (hdt : 0 < dt) {k : Nat → K} {s : Sys K σ}
    {r : (Nat → K) × Sys K σ} (hch : Chained net s) (hst : Startable net dt s)
    (hrest : ∀ f ∈ net.solverOuts, f ∈ (cells net).flatMap (fun q => q.1.outsOf q.2))
    (h : constrainRates net dt k s = .ok r) :
    ∀ q ∈ cells net, Feasible net dt r.2 q := by
  unfold constrainRates at h
  set s1 := linkRates net.isOvf net.solverOuts k s with hs1
  cases hw : enforce net dt 10 s1 with
  | error e => rw [hw] at h; simp [bind, Except.bind] at h
  | ok s2 =>
    rw [hw] at h
    simp only [bind, Except.bind, pure, Except.pure, Except.ok.injEq] at h
    subst h
    apply enforce_feasible hdt hch hst 9 s1 s2 rfl ?_ (Or.inl ?_) hw
    · intro f hf
      have : s1.rate f = s.rate f := by
        rw [hs1]; unfold linkRates; dsimp only
        rw [link_get, if_neg (fun hm => hf (hrest f hm))]
      rw [this]; exact hst.others f hf
    · intro q hq f hf ho
      obtain ⟨h1, h2⟩ := outsOf_solver hq hf
      rw [hs1]; unfold linkRates; dsimp only
      rw [link_get, if_pos h1, h2 ho]; rfl

end HB
