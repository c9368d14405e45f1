import Verif.Model.ContainerLemmas

set_option linter.unusedSectionVars false

/-!
# Storage limits: properties C01 (no negative drain), C02 (capacity), C03 (fair, stable limiting)

All statements quantify over every storage, every list of requested rates and inflows (including null
slots), every time step > 0 and every ordered field.
-/

namespace HB

variable {K : Type*} [Field K] [LinearOrder K] [IsStrictOrderedRing K]

/-! ## C01 -/

theorem hS_of_start (c : Cont K) (outs ins)
    (hstart : 0 ≤ c.content + c.dyn + Spec.inAmount ins) :
    0 ≤ (ctx c outs ins).S + (ctx c outs ins).inStat := by
  rw [spec_inAmount_eq] at hstart; exact hstart

/-- **C01** A limited storage is not drained below zero: the content at the end of the step is
non-negative, up to the requests that are themselves below machine epsilon. -/
theorem c01_never_drained (c : Cont K) (dt : K) (outs : List (Option K)) (ovf : Option Nat)
    (ins : List (Inflow K)) (outs' : List (Option K)) (ins' : List (Inflow K))
    (hdt : 0 < dt) (hfin : c.infinite = false) (hneg : c.allowNeg = false)
    (hstart : 0 ≤ c.content + c.dyn + Spec.inAmount ins)
    (hcap : ∀ k, c.cap = some k → 0 ≤ k)
    (h : applyConstraints c dt outs ovf ins = .ok (outs', ins')) :
    Spec.endContent c dt outs' ins' ≥ -(Spec.tinyOut outs) * dt := by
  have hS := hS_of_start c outs ins hstart
  have hbase := base_end_nonneg c dt outs ins hdt hneg hS
  have ht0 : 0 ≤ Spec.tinyOut outs := by
    rw [← tiny_clip_out]; exact tiny_nonneg (clip_list_nonneg _)
  have ht : -(Spec.tinyOut outs) * dt ≤ 0 := by
    have := mul_nonneg ht0 hdt.le; linarith
  obtain ⟨_, (⟨rfl, rfl, _⟩ | ⟨k, i, o, hk, _, hexc, ho, rfl, rfl⟩ | ⟨k, hk, _, hexc, hle, rfl, rfl⟩)⟩ :=
    ac_cases c dt outs ovf ins outs' ins' hdt hfin h
  · exact hbase
  · have hk0 := hcap k hk
    obtain ⟨r, _, ho0, _⟩ := outs1_get c dt outs ins hdt hS i o ho
    rw [end_overflow c dt outs ins hdt k i o
      (not_drains_of_asked_nonneg c dt outs ins (by linarith)) ho]
    have := mul_nonneg ho0 hdt.le
    linarith
  · have hk0 := hcap k hk
    obtain ⟨hi, hd, _⟩ := inputs_pos_of_excess c dt outs ins hdt k hexc hle
    rw [end_limited c dt outs ins hdt k
      (not_drains_of_asked_nonneg c dt outs ins (by linarith)) hexc hle]
    have hti : 0 ≤ Spec.tinyIn ins := by
      rw [← tiny_clip_in]; exact tiny_nonneg (clip_list_nonneg _)
    have : 0 ≤ ((asked c dt outs ins - k) / dt / (ctx c outs ins).inputs * Spec.tinyIn ins) * dt :=
      mul_nonneg (mul_nonneg (div_nonneg hd.le hi.le) hti) hdt.le
    linarith

/-- When every positive request exceeds machine epsilon the bound is exactly zero. -/
theorem c01_never_drained_exact (c : Cont K) (dt : K) (outs : List (Option K)) (ovf : Option Nat)
    (ins : List (Inflow K)) (outs' : List (Option K)) (ins' : List (Inflow K))
    (hdt : 0 < dt) (hfin : c.infinite = false) (hneg : c.allowNeg = false)
    (hstart : 0 ≤ c.content + c.dyn + Spec.inAmount ins)
    (hcap : ∀ k, c.cap = some k → 0 ≤ k)
    (hbig : ∀ r, some r ∈ outs → r ≤ 0 ∨ epsD < r)
    (h : applyConstraints c dt outs ovf ins = .ok (outs', ins')) :
    0 ≤ Spec.endContent c dt outs' ins' := by
  have h0 : Spec.tinyOut outs = 0 := by
    clear h hcap hstart
    induction outs with
    | nil => rfl
    | cons a l ih =>
      have hl := ih (fun r hr => hbig r (by simp [hr]))
      cases a with
      | none => simpa [Spec.tinyOut] using hl
      | some r =>
        have : ¬ (0 < r ∧ r ≤ epsD) := by
          rintro ⟨h1, h2⟩
          rcases hbig r (by simp) with h3 | h3
          · linarith
          · linarith
        simp [Spec.tinyOut, this, hl]
  have := c01_never_drained c dt outs ovf ins outs' ins' hdt hfin hneg hstart hcap h
  rw [h0] at this
  linarith

/-- **C01** No outflow is increased and none becomes negative: every slot except the overflow keeps
its null/non-null status and its new rate lies between 0 and what was asked. -/
theorem c01_only_reduced (c : Cont K) (dt : K) (outs : List (Option K)) (ovf : Option Nat)
    (ins : List (Inflow K)) (outs' : List (Option K)) (ins' : List (Inflow K))
    (hdt : 0 < dt) (hfin : c.infinite = false)
    (hstart : 0 ≤ c.content + c.dyn + Spec.inAmount ins)
    (h : applyConstraints c dt outs ovf ins = .ok (outs', ins')) :
    outs'.length = outs.length ∧
    ∀ i, ovf ≠ some i →
      (outs'[i]? = some none ↔ outs[i]? = some none) ∧
      ∀ r', outs'[i]? = some (some r') → ∃ r, outs[i]? = some (some r) ∧ 0 ≤ r' ∧ r' ≤ max r 0 := by
  have hS := hS_of_start c outs ins hstart
  obtain ⟨_, (⟨rfl, rfl, _⟩ | ⟨k, j, o, hk, hj, hexc, ho, rfl, rfl⟩ | ⟨k, hk, _, hexc, hle, rfl, rfl⟩)⟩ :=
    ac_cases c dt outs ovf ins outs' ins' hdt hfin h
  · exact ⟨outs1_length _ _ _ _, fun i _ => ⟨outs1_null c dt outs ins i, fun r' hr' =>
      outs1_get c dt outs ins hdt hS i r' hr'⟩⟩
  · refine ⟨by rw [List.length_set]; exact outs1_length _ _ _ _, fun i hi => ?_⟩
    have hne : j ≠ i := by rintro rfl; exact hi hj
    rw [List.getElem?_set_ne hne]
    exact ⟨outs1_null c dt outs ins i, fun r' hr' => outs1_get c dt outs ins hdt hS i r' hr'⟩
  · exact ⟨outs1_length _ _ _ _, fun i _ => ⟨outs1_null c dt outs ins i, fun r' hr' =>
      outs1_get c dt outs ins hdt hS i r' hr'⟩⟩

/-- Non-negative rate lists. -/
def Spec.NonnegOuts (outs : List (Option K)) : Prop := ∀ r, some r ∈ outs → 0 ≤ r
def Spec.NonnegIns (ins : List (Inflow K)) : Prop := ∀ r, Inflow.rate (some r) ∈ ins → 0 ≤ r

theorem map_clip_outs (outs : List (Option K)) (h : Spec.NonnegOuts outs) :
    outs.map (Option.map clip) = outs := by
  conv_rhs => rw [← List.map_id outs]
  apply List.map_congr_left
  intro a ha
  cases a with
  | none => rfl
  | some r => simp [clip_of_nonneg (h r ha)]

theorem map_clip_ins (ins : List (Inflow K)) (h : Spec.NonnegIns ins) :
    ins.map Inflow.clip = ins := by
  conv_rhs => rw [← List.map_id ins]
  apply List.map_congr_left
  intro a ha
  rcases a with a | a | (_ | r) <;> simp [Inflow.clip]
  exact clip_of_nonneg (h r ha)

/-- **C01/C03** Rates the storage can honour are left untouched. -/
theorem c01_honoured (c : Cont K) (dt : K) (outs : List (Option K)) (ovf : Option Nat)
    (ins : List (Inflow K)) (hfin : c.infinite = false)
    (ho : Spec.NonnegOuts outs) (hi : Spec.NonnegIns ins)
    (hlim : ∀ r, some r ∈ outs → r ≤ 10000)
    (hlow : 0 ≤ Spec.endContent c dt outs ins)
    (hhigh : ∀ k, c.cap = some k → Spec.endContent c dt outs ins ≤ k) :
    applyConstraints c dt outs ovf ins = .ok (outs, ins) := by
  rw [applyConstraints_eq c dt outs ovf ins hfin]
  have ha : Spec.endContent c dt outs ins = asked c dt outs ins := by
    conv_lhs => rw [← map_clip_outs outs ho, ← map_clip_ins ins hi]
    exact endContent_asked c dt outs ins
  have hh : tooHigh outs = false := by
    unfold tooHigh
    rw [List.any_eq_false]
    intro a ha
    cases a with
    | none => simp
    | some r => simp [hlim r ha]
  have hnd := not_drains_of_asked_nonneg c dt outs ins (by rw [← ha]; exact hlow)
  rw [outs1_of_not_drains _ _ _ _ hnd, map_clip_outs outs ho, map_clip_ins ins hi]
  simp only [hh, Bool.false_eq_true, if_false]
  cases hc : c.cap with
  | none => rfl
  | some k =>
    have hk := hhigh k hc
    rw [ha] at hk
    have : ¬ ((ctx c outs ins).S + (ctx c outs ins).inStat
      + ((ctx c outs ins).inputs - (ctx c outs ins).outputs) * dt > k) := not_lt.mpr hk
    simp [this]

/-- Witness: a storage holding 3 mm with 1 mm of static input, asked for 6 + 2 mm/d against 2 mm/d of
inflow, meets the hypotheses, is really limited, and ends exactly empty. -/
example : applyConstraints ({ content := 3, dyn := 0, stat := 0, init := 0 } : Cont ℚ) 1
    [some 6, none, some 2] none [.rate (some 2), .amount 1]
    = .ok ([some (9/2), none, some (3/2)], [.rate (some 2), .amount 1]) := by decide +kernel

example : (0:ℚ) < 1 ∧ (0:ℚ) ≤ 3 + 0 + Spec.inAmount [.rate (some 2), .amount 1] ∧
    Spec.endContent ({ content := 3, dyn := 0, stat := 0, init := 0 } : Cont ℚ) 1
      [some (9/2), none, some (3/2)] [.rate (some 2), .amount 1] = 0 := by
  norm_num [Spec.inAmount, Spec.endContent, Spec.inRate, Spec.total]

/-! ## C02 -/

theorem asked_eq (c : Cont K) (dt : K) (outs ins) (ho : Spec.NonnegOuts outs)
    (hi : Spec.NonnegIns ins) : asked c dt outs ins = Spec.endContent c dt outs ins := by
  conv_rhs => rw [← map_clip_outs outs ho, ← map_clip_ins ins hi]
  exact (endContent_asked c dt outs ins).symm

/-- The upper bound when only the draining branch acted. -/
theorem base_end_le (c : Cont K) (dt : K) (outs ins) (k : K) (hdt : 0 < dt) (hk : 0 ≤ k)
    (hroom : prec * dt < (ctx c outs ins).S + (ctx c outs ins).inStat ∨ 0 ≤ asked c dt outs ins)
    (hle : asked c dt outs ins ≤ k) :
    Spec.endContent c dt (outs1 c dt outs ins) (ins.map Inflow.clip) ≤ k := by
  rw [endContent_clip]
  by_cases hd : drains c dt (ctx c outs ins)
  · rcases hroom with hr | hr
    · have := outs1_end_upper c dt outs ins hdt hr hd
      change (ctx c outs ins).S + (ctx c outs ins).inStat + ((ctx c outs ins).inputs - _) * dt ≤ 0 at this
      change (ctx c outs ins).S + (ctx c outs ins).inStat + ((ctx c outs ins).inputs - _) * dt ≤ k
      linarith
    · exact absurd hd (not_drains_of_asked_nonneg c dt outs ins hr)
  · rw [sumRates_outs1, if_neg hd]; exact hle

/-- **C02 (with an overflow process)** The storage ends within its capacity; when the requests would
overfill it, it ends exactly at the capacity and the overflow carries exactly the excess.

Missing with respect to C02 (hence `_partial`): the overflow slot must not already carry a request
(`c02_preloaded_overflow_exceeds`), and a storage that is both empty and over-asked is excluded by
`hroom` (`c02_empty_store_exceeds`). -/
theorem c02_overflow_partial (c : Cont K) (dt : K) (outs : List (Option K)) (i : Nat)
    (ins : List (Inflow K)) (outs' : List (Option K)) (ins' : List (Inflow K)) (k : K)
    (hdt : 0 < dt) (hfin : c.infinite = false) (hcap : c.cap = some k) (hk : 0 ≤ k)
    (ho : Spec.NonnegOuts outs) (hi : Spec.NonnegIns ins)
    (hroom : prec * dt < c.content + c.dyn + Spec.inAmount ins ∨ 0 ≤ Spec.endContent c dt outs ins)
    (hov : outs[i]? = some (some 0))
    (h : applyConstraints c dt outs (some i) ins = .ok (outs', ins')) :
    Spec.endContent c dt outs' ins' ≤ k ∧ ins' = ins ∧
    (k < Spec.endContent c dt outs ins →
      Spec.endContent c dt outs' ins' = k ∧
      outs'[i]? = some (some ((Spec.endContent c dt outs ins - k) / dt))) := by
  have ha := asked_eq c dt outs ins ho hi
  rw [spec_inAmount_eq, ← ha] at hroom
  rw [← ha]
  obtain ⟨_, (⟨rfl, rfl, hle⟩ | ⟨k', j, o, hk', hj, hexc, hoo, rfl, rfl⟩ | ⟨k', _, hn, _⟩)⟩ :=
    ac_cases c dt outs (some i) ins outs' ins' hdt hfin h
  · have := hle k hcap
    exact ⟨base_end_le c dt outs ins k hdt hk hroom this, map_clip_ins ins hi,
      fun hlt => absurd hlt (not_lt.mpr this)⟩
  · rw [hcap] at hk'; cases hk'
    cases hj
    have hnd := not_drains_of_asked_nonneg c dt outs ins (by linarith)
    have := outs1_getD_clip c dt outs ins hnd i o 0 hov hoo
    simp at this; subst this
    have e := end_overflow c dt outs ins hdt k i 0 hnd hoo
    rw [e]
    have hlen : i < (outs1 c dt outs ins).length := by
      rw [List.getElem?_eq_some_iff] at hoo; exact hoo.1
    refine ⟨by simp, map_clip_ins ins hi, fun _ => ⟨by simp, ?_⟩⟩
    rw [List.getElem?_set_self hlen]
  · simp at hn

/-- **C02 (without an overflow process)** The storage ends within its capacity (up to the inflows that
are themselves below machine epsilon), exactly at the capacity when the requests would overfill it. -/
theorem c02_limited_partial (c : Cont K) (dt : K) (outs : List (Option K))
    (ins : List (Inflow K)) (outs' : List (Option K)) (ins' : List (Inflow K)) (k : K)
    (hdt : 0 < dt) (hfin : c.infinite = false) (hcap : c.cap = some k) (hk : 0 ≤ k)
    (ho : Spec.NonnegOuts outs) (hi : Spec.NonnegIns ins)
    (hroom : prec * dt < c.content + c.dyn + Spec.inAmount ins ∨ 0 ≤ Spec.endContent c dt outs ins)
    (h : applyConstraints c dt outs none ins = .ok (outs', ins')) :
    Spec.endContent c dt outs' ins' ≤ k + Spec.tinyIn ins * dt ∧
    (k < Spec.endContent c dt outs ins →
      outs' = outs ∧ k ≤ Spec.endContent c dt outs' ins' ∧
      (Spec.tinyIn ins = 0 → Spec.endContent c dt outs' ins' = k)) := by
  have ha := asked_eq c dt outs ins ho hi
  rw [spec_inAmount_eq, ← ha] at hroom
  rw [← ha]
  have ht0 : 0 ≤ Spec.tinyIn ins := by
    rw [← tiny_clip_in]; exact tiny_nonneg (clip_list_nonneg _)
  have ht := mul_nonneg ht0 hdt.le
  obtain ⟨_, (⟨rfl, rfl, hle⟩ | ⟨k', j, o, hk', hj, hexc, hoo, rfl, rfl⟩ | ⟨k', hk', _, hexc, hle, rfl, rfl⟩)⟩ :=
    ac_cases c dt outs none ins outs' ins' hdt hfin h
  · have := hle k hcap
    have := base_end_le c dt outs ins k hdt hk hroom this
    exact ⟨by linarith, fun hlt => absurd hlt (not_lt.mpr (hle k hcap))⟩
  · simp at hj
  · rw [hcap] at hk'; cases hk'
    have hnd := not_drains_of_asked_nonneg c dt outs ins (by linarith)
    rw [end_limited c dt outs ins hdt k hnd hexc hle]
    obtain ⟨hi0, hd, hd2⟩ := inputs_pos_of_excess c dt outs ins hdt k hexc hle
    have hq : (asked c dt outs ins - k) / dt / (ctx c outs ins).inputs ≤ 1 := by
      rw [div_le_one hi0]; exact hd2
    have hq0 : 0 ≤ (asked c dt outs ins - k) / dt / (ctx c outs ins).inputs := div_nonneg hd.le hi0.le
    have h1 : (asked c dt outs ins - k) / dt / (ctx c outs ins).inputs * Spec.tinyIn ins
        ≤ Spec.tinyIn ins := by
      have := mul_le_mul_of_nonneg_right hq ht0; linarith
    refine ⟨?_, fun _ => ⟨?_, ?_, ?_⟩⟩
    · have := mul_le_mul_of_nonneg_right h1 hdt.le
      linarith
    · rw [outs1_of_not_drains _ _ _ _ hnd, map_clip_outs outs ho]
    · have := mul_nonneg (mul_nonneg hq0 ht0) hdt.le
      linarith
    · intro h0; rw [h0]; ring

/-- **C02** Overfilling by inputs that cannot be limited is reported as a configuration error, and this
is the only situation in which it is. -/
theorem c02_config_error (c : Cont K) (dt : K) (outs : List (Option K)) (ovf : Option Nat)
    (ins : List (Inflow K)) (hfin : c.infinite = false)
    (ho : Spec.NonnegOuts outs) (hi : Spec.NonnegIns ins)
    (hlim : ∀ r, some r ∈ outs → r ≤ 10000) :
    applyConstraints c dt outs ovf ins = .error .forcingIntoLimited ↔
      ∃ k, c.cap = some k ∧ ovf = none ∧ k < Spec.endContent c dt outs ins ∧
        k < c.content + c.dyn + Spec.inAmount ins := by
  have ha := asked_eq c dt outs ins ho hi
  rw [← ha, spec_inAmount_eq, applyConstraints_eq c dt outs ovf ins hfin]
  have hh : tooHigh outs = false := by
    unfold tooHigh
    rw [List.any_eq_false]
    intro a ha
    cases a with
    | none => simp
    | some r => simp [hlim r ha]
  simp only [hh, Bool.false_eq_true, if_false]
  change _ ↔ ∃ k, c.cap = some k ∧ ovf = none ∧ k < (ctx c outs ins).S + (ctx c outs ins).inStat
    + ((ctx c outs ins).inputs - (ctx c outs ins).outputs) * dt ∧
    k < (ctx c outs ins).S + (ctx c outs ins).inStat
  cases hc : c.cap with
  | none => simp
  | some k =>
    simp only [Option.some.injEq, exists_eq_left']
    split
    · rename_i he
      cases ovf with
      | some i =>
        simp only
        split <;> simp
      | none =>
        simp only
        split
        · rename_i h1; simp [he, h1]
        · rename_i h1; simp [h1]
    · rename_i he
      simp only [reduceCtorEq, false_iff, not_and]
      intro _ h1; exact absurd h1 he

/-- The full C02 fails in one pass: a storage holding 10 mm of 10 mm, with 4 mm/d coming in and the
overflow slot already carrying 2 mm/d, ends at 12 mm (the code assigns the excess computed *with* the
old overflow rate instead of adding it, WaterContainer.cpp:155). -/
theorem c02_preloaded_overflow_exceeds :
    ∃ (c : Cont ℚ) (outs outs' : List (Option ℚ)) (ins ins' : List (Inflow ℚ)),
      c.cap = some 10 ∧ Spec.NonnegOuts outs ∧ Spec.NonnegIns ins ∧
      applyConstraints c 1 outs (some 0) ins = .ok (outs', ins') ∧
      10 < Spec.endContent c 1 outs' ins' := by
  refine ⟨{ content := 10, dyn := 0, stat := 0, init := 0, cap := some 10 }, [some 2], [some 2],
    [.rate (some 4)], [.rate (some 4)], rfl, ?_, ?_, by decide +kernel, by decide +kernel⟩
  · intro r hr; simp at hr; subst hr; norm_num
  · intro r hr; simp at hr; subst hr; norm_num

/-- The full C02 also fails for an empty over-asked storage: with 5 mm/d coming in and 10 mm/d asked
from an empty storage of capacity 2, all outflow is cancelled (not only what is missing), the capacity
test still uses the requested rates, and the storage ends at 5 mm. -/
theorem c02_empty_store_exceeds :
    ∃ (c : Cont ℚ) (outs outs' : List (Option ℚ)) (ins ins' : List (Inflow ℚ)),
      c.cap = some 2 ∧ Spec.NonnegOuts outs ∧ Spec.NonnegIns ins ∧
      applyConstraints c 1 outs none ins = .ok (outs', ins') ∧
      2 < Spec.endContent c 1 outs' ins' := by
  refine ⟨{ content := 0, dyn := 0, stat := 0, init := 0, cap := some 2 }, [some 10], [some 0],
    [.rate (some 5)], [.rate (some 5)], rfl, ?_, ?_, by decide +kernel, by decide +kernel⟩
  · intro r hr; simp at hr; subst hr; norm_num
  · intro r hr; simp at hr; subst hr; norm_num

/-- Witness for `c02_overflow_partial`: 8 of 10 mm, 7 mm/d in, 1 mm/d out: the overflow takes 4. -/
example : applyConstraints ({ content := 8, dyn := 0, stat := 0, init := 0, cap := some 10 } : Cont ℚ)
    1 [some 1, some 0] (some 1) [.rate (some 7)] = .ok ([some 1, some 4], [.rate (some 7)]) := by
  decide +kernel

/-- Witness for `c02_limited_partial`: the inflow is cut from 7 to 3 mm/d. -/
example : applyConstraints ({ content := 8, dyn := 0, stat := 0, init := 0, cap := some 10 } : Cont ℚ)
    1 [some 1] none [.rate (some 7)] = .ok ([some 1], [.rate (some 3)]) := by decide +kernel

/-- Witness for `c02_config_error`. -/
example : applyConstraints ({ content := 8, dyn := 0, stat := 0, init := 0, cap := some 10 } : Cont ℚ)
    1 [some 1] none [.amount 7] = .error .forcingIntoLimited := by decide +kernel

/-! ## C03 -/

/-- **C03 (proportional)** All outflow requests above machine epsilon are multiplied by one common
factor in [0, 1]; requests below it are left alone. -/
theorem c03_proportional (c : Cont K) (dt : K) (outs : List (Option K)) (ovf : Option Nat)
    (ins : List (Inflow K)) (outs' : List (Option K)) (ins' : List (Inflow K))
    (hdt : 0 < dt) (hfin : c.infinite = false)
    (hstart : 0 ≤ c.content + c.dyn + Spec.inAmount ins)
    (h : applyConstraints c dt outs ovf ins = .ok (outs', ins')) :
    ∃ s : K, 0 ≤ s ∧ s ≤ 1 ∧ ∀ i r, ovf ≠ some i → outs[i]? = some (some r) →
      outs'[i]? = some (some (if epsD < r then s * r else max r 0)) := by
  have hS := hS_of_start c outs ins hstart
  have key : ∃ s : K, 0 ≤ s ∧ s ≤ 1 ∧ ∀ (i : Nat) (r : K), outs[i]? = some (some r) →
      (outs1 c dt outs ins)[i]? = some (some (if epsD < r then s * r else max r 0)) := by
    by_cases hd : drains c dt (ctx c outs ins)
    · obtain ⟨h1, h2, h3⟩ := drains_facts c dt outs ins hdt hS hd
      set x := ctx c outs ins with hx
      set d := (x.S + x.inStat + (x.inputs - x.outputs) * dt) / dt with hdd
      refine ⟨if nearlyEqual d (x.inputs - x.outputs) prec then 0 else 1 + d / x.outputs, ?_, ?_, ?_⟩
      · split
        · exact le_refl _
        · have : -1 ≤ d / x.outputs := by rw [le_div_iff₀ h1]; linarith
          linarith
      · split
        · exact zero_le_one
        · have : d / x.outputs ≤ 0 := div_nonpos_of_nonpos_of_nonneg h2.le h1.le
          linarith
      · intro i r hr
        unfold outs1
        rw [← hx]
        simp only [hd, if_true, List.getElem?_map, hr, Option.map_some, ← hdd]
        congr 2
        unfold limitOut nearlyZero
        rw [abs_of_nonneg (clip_nonneg r), clip_eq_max]
        by_cases hb : epsD < r
        · have hr0 : 0 ≤ r := le_trans epsD_nonneg hb.le
          rw [max_eq_left hr0, if_pos hb]
          simp only [decide_eq_true_eq, not_le.mpr hb, if_false]
          split
          · ring
          · rw [abs_of_nonneg (div_nonneg hr0 h1.le)]; ring
        · rw [if_neg hb]
          have : max r 0 ≤ epsD := max_le (not_lt.mp hb) epsD_nonneg
          simp [this]
    · refine ⟨1, zero_le_one, le_refl _, ?_⟩
      intro i r hr
      rw [outs1_of_not_drains _ _ _ _ hd, List.getElem?_map, hr]
      simp only [Option.map_some, clip_eq_max, one_mul]
      congr 2
      split
      · rename_i hb; exact max_eq_left (le_trans epsD_nonneg hb.le)
      · rfl
  obtain ⟨s, hs0, hs1, hs⟩ := key
  refine ⟨s, hs0, hs1, fun i r hi hr => ?_⟩
  obtain ⟨_, (⟨rfl, rfl, _⟩ | ⟨k, j, o, hk, hj, hexc, ho, rfl, rfl⟩ | ⟨k, hk, _, hexc, hle, rfl, rfl⟩)⟩ :=
    ac_cases c dt outs ovf ins outs' ins' hdt hfin h
  · exact hs i r hr
  · rw [List.getElem?_set_ne (by rintro rfl; exact hi hj)]; exact hs i r hr
  · exact hs i r hr

theorem ctx_perm (c : Cont K) (outs outs2 : List (Option K)) (ins ins2 : List (Inflow K))
    (ho : outs.Perm outs2) (hi : ins.Perm ins2) : ctx c outs ins = ctx c outs2 ins2 := by
  have h1 := (((ho.map (fun x : Option K => x.getD 0)).map clip)).sum_eq
  have h2 := (((hi.map Inflow.rateOf).map clip)).sum_eq
  have h3 := (hi.map Inflow.staticOf).sum_eq
  unfold ctx
  rw [h1, h2, h3]

/-- **C03 (order independence)** The allowance of a request depends on the request and on the set of
competitors only: one function gives the outcome for every order in which the fluxes are attached. -/
theorem c03_order_independent (c : Cont K) (dt : K) (outs : List (Option K))
    (ins : List (Inflow K)) (outs' : List (Option K)) (ins' : List (Inflow K))
    (hdt : 0 < dt) (hfin : c.infinite = false)
    (h : applyConstraints c dt outs none ins = .ok (outs', ins')) :
    ∃ (f : Option K → Option K) (g : Inflow K → Inflow K), ∀ outs2 ins2,
      outs.Perm outs2 → ins.Perm ins2 →
      applyConstraints c dt outs2 none ins2 = .ok (outs2.map f, ins2.map g) := by
  have hc := ac_cases c dt outs none ins outs' ins' hdt hfin h
  have hh := hc.1
  have hthr : ∀ outs2, outs.Perm outs2 → tooHigh outs2 = false := by
    intro outs2 hp
    unfold tooHigh at hh ⊢
    rw [← hp.any_eq]; exact hh
  have ho1 : ∃ f : Option K → Option K, ∀ outs2 ins2, outs.Perm outs2 → ins.Perm ins2 →
      outs1 c dt outs2 ins2 = outs2.map f := by
    by_cases hd : drains c dt (ctx c outs ins)
    · refine ⟨fun o => Option.map (limitOut (((ctx c outs ins).S + (ctx c outs ins).inStat
          + ((ctx c outs ins).inputs - (ctx c outs ins).outputs) * dt) / dt)
          ((ctx c outs ins).inputs - (ctx c outs ins).outputs) (ctx c outs ins).outputs) (Option.map clip o), ?_⟩
      intro outs2 ins2 hp hq
      unfold outs1
      rw [← ctx_perm c outs outs2 ins ins2 hp hq]
      simp [hd, Function.comp_def]
    · refine ⟨Option.map clip, ?_⟩
      intro outs2 ins2 hp hq
      unfold outs1
      rw [← ctx_perm c outs outs2 ins ins2 hp hq]
      simp [hd]
  obtain ⟨f, hf⟩ := ho1
  obtain ⟨_, (⟨_, _, hle⟩ | ⟨k, j, o, hk, hj, _⟩ | ⟨k, hk, _, hexc, hle, _, _⟩)⟩ := hc
  · refine ⟨f, Inflow.clip, fun outs2 ins2 hp hq => ?_⟩
    rw [applyConstraints_eq c dt outs2 none ins2 hfin, ← ctx_perm c outs outs2 ins ins2 hp hq,
      hthr outs2 hp, hf outs2 ins2 hp hq]
    simp only [Bool.false_eq_true, if_false]
    cases hcap : c.cap with
    | none => rfl
    | some k =>
      have := hle k hcap
      unfold asked at this
      simp [not_lt.mpr this]
  · simp at hj
  · refine ⟨f, fun x => Inflow.limit ((asked c dt outs ins - k) / dt) (ctx c outs ins).inputs
      (Inflow.clip x), fun outs2 ins2 hp hq => ?_⟩
    rw [applyConstraints_eq c dt outs2 none ins2 hfin, ← ctx_perm c outs outs2 ins ins2 hp hq,
      hthr outs2 hp, hf outs2 ins2 hp hq]
    simp only [Bool.false_eq_true, if_false, hk]
    unfold asked at hexc
    simp only [gt_iff_lt, hexc, if_true, not_lt.mpr hle, if_false]
    simp [Function.comp_def, asked]

theorem outs1_nonneg (c : Cont K) (dt : K) (outs ins) (hdt : 0 < dt)
    (hS : 0 ≤ (ctx c outs ins).S + (ctx c outs ins).inStat) :
    Spec.NonnegOuts (outs1 c dt outs ins) := by
  intro r hr
  obtain ⟨i, hi⟩ := List.mem_iff_getElem?.mp hr
  obtain ⟨_, _, h0, _⟩ := outs1_get c dt outs ins hdt hS i r hi
  exact h0

theorem ins_clip_nonneg (ins : List (Inflow K)) : Spec.NonnegIns (ins.map Inflow.clip) := by
  intro r hr
  obtain ⟨x, _, hx⟩ := List.mem_map.mp hr
  rcases x with a | a | (_ | a) <;> simp [Inflow.clip] at hx
  rw [← hx]; exact clip_nonneg a

theorem ins_limit_nonneg (ins : List (Inflow K)) (d o : K) (ho : 0 < o) (hd : 0 ≤ d) (hd2 : d ≤ o) :
    Spec.NonnegIns ((ins.map Inflow.clip).map (Inflow.limit d o)) := by
  intro r hr
  simp only [List.map_map, List.mem_map] at hr
  obtain ⟨x, _, hx⟩ := hr
  rcases x with a | a | (_ | a) <;> simp [Inflow.clip, Inflow.limit] at hx
  rw [← hx]; exact (limitIn_bounds ho hd hd2 (clip_nonneg a)).1

/-- **C03 (idempotence)** Limiting an already limited set of rates changes nothing (whenever the second
pass is not refused for a rate above 10000 mm/d).

Missing with respect to C03 (hence `_partial`): the same two situations as in C02, an overflow slot that
already carries a request and an empty over-asked storage with a capacity
(`c03_empty_store_not_idempotent`, `c03_preloaded_overflow_oscillates`). -/
theorem c03_idempotent_partial (c : Cont K) (dt : K) (outs : List (Option K)) (ovf : Option Nat)
    (ins : List (Inflow K)) (outs' outs'' : List (Option K)) (ins' ins'' : List (Inflow K))
    (hdt : 0 < dt) (hfin : c.infinite = false) (hneg : c.allowNeg = false)
    (hstart : 0 ≤ c.content + c.dyn + Spec.inAmount ins)
    (ho : Spec.NonnegOuts outs) (hi : Spec.NonnegIns ins)
    (hcap : ∀ k, c.cap = some k → 0 ≤ k ∧
      (prec * dt < c.content + c.dyn + Spec.inAmount ins ∨ 0 ≤ Spec.endContent c dt outs ins))
    (hbig : ∀ r, some r ∈ outs → r = 0 ∨ epsD < r) (hbigin : Spec.tinyIn ins = 0)
    (hov : ∀ i, ovf = some i → outs[i]? = some (some 0))
    (h : applyConstraints c dt outs ovf ins = .ok (outs', ins'))
    (h2 : applyConstraints c dt outs' ovf ins' = .ok (outs'', ins'')) :
    outs'' = outs' ∧ ins'' = ins' := by
  have hS := hS_of_start c outs ins hstart
  have hlow : 0 ≤ Spec.endContent c dt outs' ins' :=
    c01_never_drained_exact c dt outs ovf ins outs' ins' hdt hfin hneg hstart
      (fun k hk => (hcap k hk).1) (fun r hr => (hbig r hr).imp (fun e => e.le) id) h
  have hlim : ∀ r, some r ∈ outs' → r ≤ 10000 := by
    obtain ⟨hh, _⟩ := ac_cases c dt outs' ovf ins' outs'' ins'' hdt hfin h2
    unfold tooHigh at hh
    rw [List.any_eq_false] at hh
    intro r hr
    have := hh _ hr
    simpa using this
  have hhigh : ∀ k, c.cap = some k → Spec.endContent c dt outs' ins' ≤ k := by
    intro k hk
    obtain ⟨hk0, hroom⟩ := hcap k hk
    cases ovf with
    | some i =>
      exact (c02_overflow_partial c dt outs i ins outs' ins' k hdt hfin hk hk0 ho hi hroom
        (hov i rfl) h).1
    | none =>
      have := (c02_limited_partial c dt outs ins outs' ins' k hdt hfin hk hk0 ho hi hroom h).1
      rw [hbigin] at this; linarith
  have hnn : Spec.NonnegOuts outs' ∧ Spec.NonnegIns ins' := by
    obtain ⟨_, (⟨rfl, rfl, _⟩ | ⟨k, j, o, hk, hj, hexc, hoo, rfl, rfl⟩ | ⟨k, hk, _, hexc, hle, rfl, rfl⟩)⟩ :=
      ac_cases c dt outs ovf ins outs' ins' hdt hfin h
    · exact ⟨outs1_nonneg c dt outs ins hdt hS, ins_clip_nonneg ins⟩
    · refine ⟨?_, ins_clip_nonneg ins⟩
      intro r hr
      rcases List.mem_or_eq_of_mem_set hr with h1 | h1
      · exact outs1_nonneg c dt outs ins hdt hS r h1
      · cases h1; exact div_nonneg (by linarith) hdt.le
    · obtain ⟨hi0, hd, hd2⟩ := inputs_pos_of_excess c dt outs ins hdt k hexc hle
      exact ⟨outs1_nonneg c dt outs ins hdt hS, ins_limit_nonneg ins _ _ hi0 hd.le hd2⟩
  have := c01_honoured c dt outs' ovf ins' hfin hnn.1 hnn.2 hlim hlow hhigh
  rw [this] at h2
  simp only [Except.ok.injEq, Prod.mk.injEq] at h2
  exact ⟨h2.1.symm, h2.2.symm⟩

/-- A second pass does change the rates of an empty over-asked storage with a capacity. -/
theorem c03_empty_store_not_idempotent :
    applyConstraints ({ content := 0, dyn := 0, stat := 0, init := 0, cap := some 2 } : Cont ℚ) 1
      [some 10] none [.rate (some 5)] = .ok ([some 0], [.rate (some 5)]) ∧
    applyConstraints ({ content := 0, dyn := 0, stat := 0, init := 0, cap := some 2 } : Cont ℚ) 1
      [some 0] none [.rate (some 5)] = .ok ([some 0], [.rate (some 2)]) := by
  constructor <;> decide +kernel

/-- A pre-loaded overflow slot alternates between two values and never settles. -/
theorem c03_preloaded_overflow_oscillates :
    applyConstraints ({ content := 10, dyn := 0, stat := 0, init := 0, cap := some 10 } : Cont ℚ) 1
      [some 1] (some 0) [.rate (some 4)] = .ok ([some 3], [.rate (some 4)]) ∧
    applyConstraints ({ content := 10, dyn := 0, stat := 0, init := 0, cap := some 10 } : Cont ℚ) 1
      [some 3] (some 0) [.rate (some 4)] = .ok ([some 1], [.rate (some 4)]) := by
  constructor <;> decide +kernel

/-- Witness for the C03 theorems: three competing outflows share 6 mm in proportion 3 : 2 : 1 and a
second pass leaves them alone. -/
example : applyConstraints ({ content := 6, dyn := 0, stat := 0, init := 0, cap := some 9 } : Cont ℚ) 1
      [some 9, some 6, some 3, some 0] (some 3) [] = .ok ([some 3, some 2, some 1, some 0], []) ∧
    applyConstraints ({ content := 6, dyn := 0, stat := 0, init := 0, cap := some 9 } : Cont ℚ) 1
      [some 3, some 2, some 1, some 0] (some 3) [] = .ok ([some 3, some 2, some 1, some 0], []) := by
  constructor <;> decide +kernel

end HB
