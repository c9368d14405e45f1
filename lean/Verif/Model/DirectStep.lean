import Verif.Model.Network

/-!
# One process of a brick computed directly, worked out

What `directProc` does for a process with a single output, on a brick with one water container with a single input, for daily steps.
-/

set_option linter.unusedSectionVars false

namespace HB

variable {K σ : Type} [Field K] [LinearOrder K] [IsStrictOrderedRing K]

theorem upd_same' {α : Type} (f : ℕ → α) (i : ℕ) (v : α) : upd f i v i = v := by simp [upd]

theorem upd_ne' {α : Type} (f : ℕ → α) {i j : ℕ} (v : α) (h : j ≠ i) : upd f i v j = f j := by simp [upd, h]

/-- The slots after writing back. -/
theorem writeRates_map' (rate : ℕ → Option K) (g : ℕ → Option K) : ∀ l : List ℕ,
    ∀ x, writeRates rate l (l.map g) x = if x ∈ l then g x else rate x := by
  intro l
  induction l generalizing rate with
  | nil => intro x; simp [writeRates]
  | cons a l ih =>
    intro x
    rw [List.map_cons, writeRates, ih]
    by_cases h1 : x ∈ l
    · simp [h1]
    · by_cases h2 : x = a
      · subst h2; simp [h1, upd]
      · simp [h1, h2, upd]

/-- The limited rate: what is there, at most. -/
def limited (avail r : K) : K := if avail - r < 0 then (if nearlyZero r epsD then r else if nearlyEqual avail 0 prec then 0 else avail) else r

theorem sumRates_single {l : List ℕ} {f : ℕ} (hf : f ∈ l) (hnd : l.Nodup) {g : ℕ → Option K} {r : K} (hr : g f = some r)
    (h0 : ∀ x ∈ l, x ≠ f → g x = some 0) : sumRates (l.map g) = r := by
  unfold sumRates
  rw [List.map_map]
  induction l with
  | nil => cases hf
  | cons a l ih =>
    obtain ⟨h1, h2⟩ := List.nodup_cons.1 hnd
    rw [List.map_cons, List.sum_cons]
    by_cases h : a = f
    · subst h
      have : (l.map ((fun x : Option K => x.getD 0) ∘ g)) = l.map fun _ => (0 : K) := by
        apply List.map_congr_left
        intro x hx
        have := h0 x (by simp [hx]) (by rintro rfl; exact h1 hx)
        simp [this]
      rw [this]
      simp [hr]
    · have hfl : f ∈ l := by
        rcases List.mem_cons.1 hf with rfl | h'
        · exact absurd rfl h
        · exact h'
      rw [ih hfl h2 (fun x hx => h0 x (by simp [hx]))]
      simp [h0 a (by simp) h]

/-- `ApplyConstraints` when a single output moves and the inputs are already in the container. -/
theorem constraints_single (c : Cont K) (hinf : c.infinite = false) (hneg : c.allowNeg = false) {l : List ℕ} {f : ℕ} (hf : f ∈ l) (hnd : l.Nodup)
    {g : ℕ → Option K} {r : K} (hr : g f = some r) (h0 : ∀ x ∈ l, x ≠ f → g x = some 0) (hr0 : 0 ≤ r) (hM : r ≤ 10000) (i : Inflow K)
    (hi : i.clip.rateOf = 0) (hcap : ∀ cap, c.cap = some cap → c.content + c.dyn + i.clip.staticOf - r ≤ cap) :
    applyConstraints c 1 (l.map g) none [i] =
      .ok (l.map (upd g f (some (limited (c.content + c.dyn + i.clip.staticOf) r))), [i.clip]) := by
  have hclip : ∀ x ∈ l, (g x).map clip = g x := by
    intro x hx
    by_cases h : x = f
    · subst h; rw [hr]; simp [clip, not_lt.2 hr0]
    · rw [h0 x hx h]; simp [clip]
  have hmap : (l.map g).map (Option.map clip) = l.map g := by
    rw [List.map_map]
    exact List.map_congr_left hclip
  have hany : ((l.map g).any fun o => match o with | some r => decide (r > 10000) | none => false) = false := by
    rw [List.any_eq_false]
    intro o ho
    obtain ⟨x, hx, rfl⟩ := List.mem_map.1 ho
    by_cases h : x = f
    · subst h; rw [hr]; simpa using hM
    · rw [h0 x hx h]; simp
  have hsum := sumRates_single hf hnd hr h0
  unfold applyConstraints
  simp only [hinf, hany, hmap, hsum, Bool.false_eq_true, if_false, List.map_cons, List.map_nil, List.sum_cons, List.sum_nil, add_zero, hi, zero_sub,
    mul_one, div_one, hneg, Bool.not_false, Bool.true_and]
  set A := c.content + c.dyn + i.clip.staticOf with hA
  have houts : (if (decide (-r < 0) && decide (A + -r < 0)) = true then
        (l.map g).map (Option.map (limitOut (A + -r) (-r) r)) else l.map g) = l.map (upd g f (some (limited A r))) := by
    by_cases hlt : A - r < 0
    · by_cases hr' : r = 0
      · subst hr'
        have : l.map g = l.map (upd g f (some (limited A 0))) := by
          apply List.map_congr_left
          intro x hx
          by_cases h : x = f
          · subst h
            rw [upd_same', hr]
            simp [limited, nearlyZero, epsD_nonneg]
          · rw [upd_ne' _ _ h]
        simpa using this
      · have hrp : 0 < r := lt_of_le_of_ne hr0 (Ne.symm hr')
        have h1 : (decide (-r < 0) && decide (A + -r < 0)) = true := by
          simp only [Bool.and_eq_true, decide_eq_true_eq]
          exact ⟨by linarith, by linarith⟩
        rw [if_pos h1, List.map_map]
        apply List.map_congr_left
        intro x hx
        by_cases h : x = f
        · subst h
          rw [upd_same', Function.comp, hr, Option.map_some]
          unfold limitOut limited
          rw [if_pos hlt]
          have e1 : nearlyEqual (A + -r) (-r) prec = nearlyEqual A 0 prec := by
            unfold nearlyEqual; congr 2; simp
          rw [e1, div_self hr', abs_one, mul_one]
          congr 2
          ring_nf
        · rw [upd_ne' _ _ h, Function.comp, h0 x hx h, Option.map_some]
          simp [limitOut, nearlyZero, epsD_nonneg]
    · have h1 : ¬ ((decide (-r < 0) && decide (A + -r < 0)) = true) := by
        simp only [Bool.and_eq_true, decide_eq_true_eq, not_and]
        intro _
        linarith
      rw [if_neg h1]
      apply List.map_congr_left
      intro x hx
      by_cases h : x = f
      · subst h
        rw [upd_same', hr, limited, if_neg hlt]
      · rw [upd_ne' _ _ h]
  rw [houts]
  refine (if_neg ?_).trans ?_
  · rw [Bool.not_eq_true]; exact hany
  cases hc : c.cap with
  | none => rfl
  | some cap =>
    have := hcap cap hc
    dsimp only
    rw [if_neg (by linarith)]

/-- `ApplyConstraints` of a container that may be negative: the rate stays. -/
theorem constraints_neg (c : Cont K) (hinf : c.infinite = false) (hneg : c.allowNeg = true) (hcap : c.cap = none) {l : List ℕ} {f : ℕ}
    {g : ℕ → Option K} {r : K} (hr : g f = some r) (h0 : ∀ x ∈ l, x ≠ f → g x = some 0) (hr0 : 0 ≤ r) (hM : r ≤ 10000) (i : Inflow K) :
    applyConstraints c 1 (l.map g) none [i] = .ok (l.map (upd g f (some r)), [i.clip]) := by
  have hclip : ∀ x ∈ l, (g x).map clip = upd g f (some r) x := by
    intro x hx
    by_cases h : x = f
    · subst h; rw [hr, upd_same']; simp [clip, not_lt.2 hr0]
    · rw [h0 x hx h, upd_ne' _ _ h, h0 x hx h]; simp [clip]
  have hmap : (l.map g).map (Option.map clip) = l.map (upd g f (some r)) := by
    rw [List.map_map]
    exact List.map_congr_left hclip
  have hany : ((l.map g).any fun o => match o with | some r => decide (r > 10000) | none => false) = false := by
    rw [List.any_eq_false]
    intro o ho
    obtain ⟨x, hx, rfl⟩ := List.mem_map.1 ho
    by_cases h : x = f
    · subst h; rw [hr]; simpa using hM
    · rw [h0 x hx h]; simp
  unfold applyConstraints
  rw [if_neg (by rw [hinf]; simp)]
  refine (if_neg ?_).trans ?_
  · rw [Bool.not_eq_true]; exact hany
  simp only [hmap, hneg, hcap, Bool.not_true, Bool.false_and, Bool.false_eq_true, if_false, List.map_cons, List.map_nil]

/-- A process with a single output, of a brick computed directly, for the rate the constraints leave. -/
theorem directProc_core {net : Net K} {laws : Laws K σ} {b : Brick} {s : Sys K σ} {p : Proc} {f fin : ℕ} {rr : ℕ → K} {x : K} {h' : σ}
    (hlaw : laws.rates p.pid s.hid s.ph = (rr, x, h')) (hp : p.outs = [f])
    (hf : f ∈ b.outsOf p.src) (h0 : ∀ g ∈ b.outsOf p.src, s.rate g = some 0)
    (hin : net.inputs p.src = [fin]) (hown : fin ∉ b.outsOf p.src) (hov : net.ovf p.src = none) {L : K}
    (hc : applyConstraints ((injCont s.ph p.src x).cont p.src) 1 ((b.outsOf p.src).map (upd s.rate f (some (rr f)))) none [inflowOf net s fin] =
      .ok ((b.outsOf p.src).map (upd (upd s.rate f (some (rr f))) f (some L)), [(inflowOf net s fin).clip])) :
    ∃ s', directProc net laws 1 b s p = .ok s' ∧
      s'.ph = applyChange net 1 p.src f L (injCont s.ph p.src x) ∧
      s'.hid = h' ∧ (∀ g ∈ b.outsOf p.src, s'.rate g = some 0) ∧ ∀ g, g ∉ b.outsOf p.src → g ≠ fin → s'.rate g = s.rate g := by
  have hne : fin ≠ f := by rintro rfl; exact hown hf
  unfold directProc
  simp only [callRates, hlaw, hp, List.foldl_cons, List.foldl_nil]
  have hinfl : inflowOf net { ph := injCont s.ph p.src x, rate := upd s.rate f (some (rr f)), hid := h' : Sys K σ } fin = inflowOf net s fin := by
    unfold inflowOf
    have : (injCont s.ph p.src x).amt = s.ph.amt := rfl
    simp only [this, upd_ne' _ _ hne]
  unfold constrainCont
  simp only [hov, Option.bind_none, hin, List.map_cons, List.map_nil, hinfl]
  rw [hc]
  simp only [bind, Except.bind, pure, Except.pure]
  -- the slots after writing back
  have hw : ∀ y, y ≠ fin → writeIns (writeRates (upd s.rate f (some (rr f))) (b.outsOf p.src)
      ((b.outsOf p.src).map (upd (upd s.rate f (some (rr f))) f (some L)))) [fin] [(inflowOf net s fin).clip] y =
      if y ∈ b.outsOf p.src then upd (upd s.rate f (some (rr f))) f (some L) y else upd s.rate f (some (rr f)) y := by
    intro y hy
    have : writeIns (writeRates (upd s.rate f (some (rr f))) (b.outsOf p.src)
      ((b.outsOf p.src).map (upd (upd s.rate f (some (rr f))) f (some L)))) [fin] [(inflowOf net s fin).clip] y = writeRates (upd s.rate f (some (rr f))) (b.outsOf p.src)
      ((b.outsOf p.src).map (upd (upd s.rate f (some (rr f))) f (some L))) y := by
      cases hI : (inflowOf net s fin).clip with
      | rate v => simp only [writeIns]; rw [upd_ne' _ _ hy]
      | inst a => rfl
      | amount a => rfl
    rw [this, writeRates_map']
  refine ⟨_, rfl, ?_, rfl, ?_, ?_⟩
  · dsimp only
    rw [hw f hne.symm, if_pos hf, upd_same']
    rfl
  · intro g hg
    dsimp only
    by_cases h : g = f
    · subst h; rw [upd_same']
    · rw [upd_ne' _ _ h, hw g (by rintro rfl; exact hown hg), if_pos hg, upd_ne' _ _ h, upd_ne' _ _ h, h0 g hg]
  · intro g hg hgf
    have h : g ≠ f := by rintro rfl; exact hg hf
    dsimp only
    rw [upd_ne' _ _ h, hw g hgf, if_neg hg, upd_ne' _ _ h]

/-- A process with a single output, of a brick computed directly. -/
theorem directProc_single {net : Net K} {laws : Laws K σ} {b : Brick} {s : Sys K σ} {p : Proc} {f fin : ℕ} {rr : ℕ → K} {x : K} {h' : σ}
    (hlaw : laws.rates p.pid s.hid s.ph = (rr, x, h')) (hp : p.outs = [f])
    (hinf : (s.ph.cont p.src).infinite = false) (hneg : (s.ph.cont p.src).allowNeg = false)
    (hf : f ∈ b.outsOf p.src) (hnd : (b.outsOf p.src).Nodup) (h0 : ∀ g ∈ b.outsOf p.src, s.rate g = some 0)
    (hin : net.inputs p.src = [fin]) (hown : fin ∉ b.outsOf p.src) (hov : net.ovf p.src = none)
    (hi : (inflowOf net s fin).clip.rateOf = 0) (hr0 : 0 ≤ rr f) (hM : rr f ≤ 10000)
    (hcap : ∀ cap, (s.ph.cont p.src).cap = some cap →
      (s.ph.cont p.src).content + (s.ph.cont p.src).dyn + (inflowOf net s fin).clip.staticOf - rr f ≤ cap) :
    ∃ s', directProc net laws 1 b s p = .ok s' ∧
      s'.ph = applyChange net 1 p.src f
        (limited ((s.ph.cont p.src).content + (s.ph.cont p.src).dyn + (inflowOf net s fin).clip.staticOf) (rr f)) (injCont s.ph p.src x) ∧
      s'.hid = h' ∧ (∀ g ∈ b.outsOf p.src, s'.rate g = some 0) ∧ ∀ g, g ∉ b.outsOf p.src → g ≠ fin → s'.rate g = s.rate g := by
  have hci : ((injCont s.ph p.src x).cont p.src).infinite = false ∧ ((injCont s.ph p.src x).cont p.src).allowNeg = false ∧
      ((injCont s.ph p.src x).cont p.src).content = (s.ph.cont p.src).content ∧ ((injCont s.ph p.src x).cont p.src).dyn = (s.ph.cont p.src).dyn ∧
      ((injCont s.ph p.src x).cont p.src).cap = (s.ph.cont p.src).cap := by
    simp only [injCont, upd_same', Cont.addStat, hinf, Bool.false_eq_true, if_false]
    exact ⟨trivial, hneg, trivial, trivial, trivial⟩
  have hc := constraints_single ((injCont s.ph p.src x).cont p.src) hci.1 hci.2.1 hf hnd (g := upd s.rate f (some (rr f))) (upd_same' _ _ _)
    (fun y hy hyf => by rw [upd_ne' _ _ hyf]; exact h0 y hy) hr0 hM (inflowOf net s fin) hi
    (by rw [hci.2.2.1, hci.2.2.2.1, hci.2.2.2.2]; exact hcap)
  rw [hci.2.2.1, hci.2.2.2.1] at hc
  exact directProc_core hlaw hp hf h0 hin hown hov hc

/-- The same when the container may be negative. -/
theorem directProc_neg {net : Net K} {laws : Laws K σ} {b : Brick} {s : Sys K σ} {p : Proc} {f fin : ℕ} {rr : ℕ → K} {x : K} {h' : σ}
    (hlaw : laws.rates p.pid s.hid s.ph = (rr, x, h')) (hp : p.outs = [f])
    (hinf : (s.ph.cont p.src).infinite = false) (hneg : (s.ph.cont p.src).allowNeg = true) (hcap : (s.ph.cont p.src).cap = none)
    (hf : f ∈ b.outsOf p.src) (h0 : ∀ g ∈ b.outsOf p.src, s.rate g = some 0)
    (hin : net.inputs p.src = [fin]) (hown : fin ∉ b.outsOf p.src) (hov : net.ovf p.src = none) (hr0 : 0 ≤ rr f) (hM : rr f ≤ 10000) :
    ∃ s', directProc net laws 1 b s p = .ok s' ∧
      s'.ph = applyChange net 1 p.src f (rr f) (injCont s.ph p.src x) ∧
      s'.hid = h' ∧ (∀ g ∈ b.outsOf p.src, s'.rate g = some 0) ∧ ∀ g, g ∉ b.outsOf p.src → g ≠ fin → s'.rate g = s.rate g := by
  have hci : ((injCont s.ph p.src x).cont p.src).infinite = false ∧ ((injCont s.ph p.src x).cont p.src).allowNeg = true ∧
      ((injCont s.ph p.src x).cont p.src).cap = none := by
    simp only [injCont, upd_same', Cont.addStat, hinf, Bool.false_eq_true, if_false]
    exact ⟨trivial, hneg, hcap⟩
  exact directProc_core hlaw hp hf h0 hin hown hov (constraints_neg _ hci.1 hci.2.1 hci.2.2 (g := upd s.rate f (some (rr f))) (upd_same' _ _ _)
    (fun y hy hyf => by rw [upd_ne' _ _ hyf]; exact h0 y hy) hr0 hM (inflowOf net s fin))

end HB
