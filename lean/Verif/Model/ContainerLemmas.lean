import Verif.Spec.Storage

/-! Helper lemmas about `applyConstraints`. -/

set_option linter.unusedSectionVars false
set_option linter.unusedVariables false

namespace HB

variable {K : Type*} [Field K] [LinearOrder K] [IsStrictOrderedRing K]

theorem clip_eq_max (r : K) : clip r = max r 0 := by
  unfold clip; split
  · rename_i h; rw [max_eq_right h.le]
  · rename_i h; rw [max_eq_left (not_lt.mp h)]

theorem clip_nonneg (r : K) : 0 ≤ clip r := by rw [clip_eq_max]; exact le_max_right _ _
@[simp] theorem clip_zero : clip (0 : K) = 0 := by simp [clip]
theorem clip_of_nonneg {r : K} (h : 0 ≤ r) : clip r = r := by rw [clip_eq_max, max_eq_left h]

theorem spec_total_eq (l : List (Option K)) : Spec.total l = sumRates l := by
  induction l with
  | nil => rfl
  | cons a l ih => cases a <;> simp_all [Spec.total, sumRates]

theorem spec_inRate_eq (l : List (Inflow K)) : Spec.inRate l = (l.map Inflow.rateOf).sum := by
  induction l with
  | nil => rfl
  | cons a l ih =>
    rcases a with a | a | (_ | a) <;> simp_all [Spec.inRate, Inflow.rateOf]

theorem spec_inAmount_eq (l : List (Inflow K)) :
    Spec.inAmount l = (l.map Inflow.staticOf).sum := by
  induction l with
  | nil => rfl
  | cons a l ih =>
    rcases a with a | a | a <;> simp_all [Spec.inAmount, Inflow.staticOf]

theorem sumRates_map (f : K → K) (h0 : f 0 = 0) (l : List (Option K)) :
    sumRates (l.map (Option.map f)) = ((l.map (·.getD 0)).map f).sum := by
  unfold sumRates
  induction l with
  | nil => rfl
  | cons a l ih => cases a <;> simp_all

@[simp] theorem rateOf_clip (x : Inflow K) : (Inflow.clip x).rateOf = clip x.rateOf := by
  rcases x with a | a | (_ | a) <;> simp [Inflow.clip, Inflow.rateOf]

@[simp] theorem staticOf_clip (x : Inflow K) : (Inflow.clip x).staticOf = x.staticOf := by
  rcases x with a | a | (_ | a) <;> simp [Inflow.clip, Inflow.staticOf]

@[simp] theorem limitIn_zero (d i : K) : limitIn d i 0 = 0 := by
  simp [limitIn, nearlyZero, epsD_nonneg]
@[simp] theorem limitOut_zero (d c o : K) : limitOut d c o 0 = 0 := by
  simp [limitOut, nearlyZero, epsD_nonneg]

@[simp] theorem rateOf_limit (d i : K) (x : Inflow K) :
    (Inflow.limit d i x).rateOf = limitIn d i x.rateOf := by
  rcases x with a | a | (_ | a) <;> simp [Inflow.limit, Inflow.rateOf]

@[simp] theorem staticOf_limit (d i : K) (x : Inflow K) :
    (Inflow.limit d i x).staticOf = x.staticOf := by
  rcases x with a | a | (_ | a) <;> simp [Inflow.limit, Inflow.staticOf]

/-- Sum of the entries at most machine epsilon. -/
def tiny (l : List K) : K := (l.map (fun r => if |r| ≤ epsD then r else 0)).sum

theorem tiny_nonneg {l : List K} (h : ∀ r ∈ l, 0 ≤ r) : 0 ≤ tiny l := by
  unfold tiny
  apply List.sum_nonneg
  intro x hx
  obtain ⟨r, hr, rfl⟩ := List.mem_map.mp hx
  split
  · exact h r hr
  · exact le_refl _

theorem tiny_le_sum {l : List K} (h : ∀ r ∈ l, 0 ≤ r) : tiny l ≤ l.sum := by
  unfold tiny
  induction l with
  | nil => simp
  | cons a l ih =>
    have ha := h a (by simp)
    have := ih (fun r hr => h r (by simp [hr]))
    simp only [List.map_cons, List.sum_cons]
    split <;> linarith

theorem tiny_clip_out (l : List (Option K)) :
    tiny ((l.map (·.getD 0)).map clip) = Spec.tinyOut l := by
  unfold tiny
  induction l with
  | nil => rfl
  | cons a l ih =>
    cases a with
    | none =>
      simp only [List.map_cons, List.sum_cons, Option.getD_none, clip_zero, abs_zero, ih,
        Spec.tinyOut]
      split <;> simp
    | some r =>
      simp only [List.map_cons, List.sum_cons, Option.getD_some, ih, Spec.tinyOut]
      congr 1
      rw [abs_of_nonneg (clip_nonneg r)]
      by_cases h : 0 < r
      · rw [clip_of_nonneg h.le]; simp [h]
      · have : clip r = 0 := by rw [clip_eq_max, max_eq_right (not_lt.mp h)]
        rw [this]; simp [h]

theorem tiny_clip_in (l : List (Inflow K)) :
    tiny ((l.map Inflow.rateOf).map clip) = Spec.tinyIn l := by
  unfold tiny
  induction l with
  | nil => rfl
  | cons a l ih =>
    rcases a with a | a | (_ | r)
    iterate 3
      simp only [List.map_cons, List.sum_cons, Inflow.rateOf, clip_zero, abs_zero, ih,
        Spec.tinyIn]
      split <;> simp
    · simp only [List.map_cons, List.sum_cons, Inflow.rateOf, ih, Spec.tinyIn]
      congr 1
      rw [abs_of_nonneg (clip_nonneg r)]
      by_cases h : 0 < r
      · rw [clip_of_nonneg h.le]; simp [h]
      · have : clip r = 0 := by rw [clip_eq_max, max_eq_right (not_lt.mp h)]
        rw [this]; simp [h]

theorem sum_limit (d o : K) (l : List K) (ho : 0 < o) (h : ∀ r ∈ l, 0 ≤ r) :
    (l.map (fun r => if |r| ≤ epsD then r else r + d * |r / o|)).sum
      = l.sum + d / o * (l.sum - tiny l) := by
  unfold tiny
  induction l with
  | nil => simp
  | cons a l ih =>
    have ha := h a (by simp)
    have := ih (fun r hr => h r (by simp [hr]))
    simp only [List.map_cons, List.sum_cons, this]
    split
    · ring
    · rw [abs_of_nonneg (div_nonneg ha ho.le)]; ring

theorem sum_limit_zero (l : List K) :
    (l.map (fun r => if |r| ≤ epsD then r else 0)).sum = tiny l := rfl

theorem sum_limitOut (d c o : K) (l : List K) (ho : 0 < o) (h : ∀ r ∈ l, 0 ≤ r) :
    (l.map (limitOut d c o)).sum =
      if nearlyEqual d c prec then tiny l else l.sum + d / o * (l.sum - tiny l) := by
  by_cases hq : nearlyEqual d c prec = true
  · rw [if_pos hq, ← sum_limit_zero]
    congr 1; apply List.map_congr_left; intro r _
    simp [limitOut, nearlyZero, hq]
  · rw [if_neg hq, ← sum_limit d o l ho h]
    congr 1; apply List.map_congr_left; intro r _
    simp [limitOut, nearlyZero, hq]

theorem sum_limitIn (d o : K) (l : List K) (ho : 0 < o) (h : ∀ r ∈ l, 0 ≤ r) :
    (l.map (limitIn d o)).sum = l.sum - d / o * (l.sum - tiny l) := by
  have := sum_limit (-d) o l ho h
  have e : (l.map (limitIn d o)) = (l.map (fun r => if |r| ≤ epsD then r else r + -d * |r / o|)) := by
    apply List.map_congr_left; intro r _
    simp only [limitIn, nearlyZero, decide_eq_true_eq]
    split <;> ring
  rw [e, this]; ring

/-- All the quantities `ApplyConstraints` works with, after the first clipping pass. -/
structure Ctx (K : Type*) where
  S : K        -- content + dynamic change
  inStat : K
  inputs : K
  outputs : K

def ctx (c : Cont K) (outs : List (Option K)) (ins : List (Inflow K)) : Ctx K :=
  { S := c.content + c.dyn
    inStat := (ins.map Inflow.staticOf).sum
    inputs := ((ins.map Inflow.rateOf).map clip).sum
    outputs := ((outs.map (·.getD 0)).map clip).sum }

theorem clip_list_nonneg (l : List K) : ∀ r ∈ l.map clip, 0 ≤ r := by
  intro r hr; obtain ⟨x, _, rfl⟩ := List.mem_map.mp hr; exact clip_nonneg x

theorem ctx_inputs_nonneg (c : Cont K) (outs ins) : 0 ≤ (ctx c outs ins).inputs :=
  List.sum_nonneg (clip_list_nonneg _)
theorem ctx_outputs_nonneg (c : Cont K) (outs ins) : 0 ≤ (ctx c outs ins).outputs :=
  List.sum_nonneg (clip_list_nonneg _)

/-- Rates too high for the code to accept. -/
def tooHigh (outs : List (Option K)) : Bool :=
  outs.any (fun o => match o with | some r => decide (r > 10000) | none => false)

/-- The condition of the "avoid negative content" branch. -/
def drains (c : Cont K) (dt : K) (x : Ctx K) : Prop :=
  c.allowNeg = false ∧ x.inputs - x.outputs < 0 ∧ x.S + x.inStat + (x.inputs - x.outputs) * dt < 0

instance (c : Cont K) (dt : K) (x : Ctx K) : Decidable (drains c dt x) := by
  unfold drains; infer_instance

/-- Outgoing rates after the "avoid negative content" branch. -/
def outs1 (c : Cont K) (dt : K) (outs : List (Option K)) (ins : List (Inflow K)) :
    List (Option K) :=
  let x := ctx c outs ins
  if drains c dt x then
    (outs.map (Option.map clip)).map (Option.map
      (limitOut ((x.S + x.inStat + (x.inputs - x.outputs) * dt) / dt) (x.inputs - x.outputs) x.outputs))
  else outs.map (Option.map clip)

/-- `applyConstraints` rephrased through `ctx`. -/
theorem applyConstraints_eq (c : Cont K) (dt : K) (outs ovf ins) (hf : c.infinite = false) :
    applyConstraints c dt outs ovf ins =
    if tooHigh outs then .error .rateTooHigh else
    let x := ctx c outs ins
    let e := x.S + x.inStat + (x.inputs - x.outputs) * dt
    match c.cap with
    | none => .ok (outs1 c dt outs ins, ins.map Inflow.clip)
    | some cap =>
      if e > cap then
        match ovf with
        | some i =>
          match (outs1 c dt outs ins)[i]? with
          | some (some _) => .ok ((outs1 c dt outs ins).set i (some ((e - cap) / dt)), ins.map Inflow.clip)
          | _ => .error .overflowUnlinked
        | none =>
          if x.S + x.inStat > cap then .error .forcingIntoLimited
          else .ok (outs1 c dt outs ins,
            (ins.map Inflow.clip).map (Inflow.limit ((e - cap) / dt) x.inputs))
      else .ok (outs1 c dt outs ins, ins.map Inflow.clip) := by
  have e1 : sumRates (outs.map (Option.map clip)) = ((outs.map (·.getD 0)).map clip).sum :=
    sumRates_map clip clip_zero outs
  have e2 : ((ins.map Inflow.clip).map Inflow.rateOf).sum
      = ((ins.map Inflow.rateOf).map clip).sum := by
    simp [List.map_map, Function.comp_def]
  have e3 : ((ins.map Inflow.clip).map Inflow.staticOf).sum = (ins.map Inflow.staticOf).sum := by
    simp [List.map_map, Function.comp_def]
  unfold applyConstraints
  rw [hf]
  simp only [Bool.false_eq_true, if_false, e1, e2, e3]
  change (if tooHigh outs then _ else _) = _
  by_cases hh : tooHigh outs
  · simp [hh]
  · have e4 : (if (!c.allowNeg &&
          decide (((ins.map Inflow.rateOf).map clip).sum - ((outs.map (·.getD 0)).map clip).sum < 0) &&
          decide (c.content + c.dyn + (ins.map Inflow.staticOf).sum +
            (((ins.map Inflow.rateOf).map clip).sum - ((outs.map (·.getD 0)).map clip).sum) * dt < 0)) = true
        then (outs.map (Option.map clip)).map (Option.map
          (limitOut ((c.content + c.dyn + (ins.map Inflow.staticOf).sum +
            (((ins.map Inflow.rateOf).map clip).sum - ((outs.map (·.getD 0)).map clip).sum) * dt) / dt)
            (((ins.map Inflow.rateOf).map clip).sum - ((outs.map (·.getD 0)).map clip).sum)
            ((outs.map (·.getD 0)).map clip).sum))
        else outs.map (Option.map clip)) = outs1 c dt outs ins := by
      unfold outs1 drains ctx
      simp only [Bool.and_eq_true, decide_eq_true_eq, Bool.not_eq_eq_eq_not, Bool.not_true, and_assoc]
    simp only [hh, if_false, Bool.false_eq_true]
    rw [e4]
    rfl

end HB

namespace HB
variable {K : Type*} [Field K] [LinearOrder K] [IsStrictOrderedRing K]

theorem sumRates_outs1 (c : Cont K) (dt : K) (outs ins) :
    sumRates (outs1 c dt outs ins) =
      if drains c dt (ctx c outs ins) then
        (((outs.map (·.getD 0)).map clip).map (limitOut
          (((ctx c outs ins).S + (ctx c outs ins).inStat
            + ((ctx c outs ins).inputs - (ctx c outs ins).outputs) * dt) / dt)
          ((ctx c outs ins).inputs - (ctx c outs ins).outputs) (ctx c outs ins).outputs)).sum
      else (ctx c outs ins).outputs := by
  unfold outs1
  by_cases h : drains c dt (ctx c outs ins)
  · simp only [h, if_true]
    rw [sumRates_map _ (by simp)]
    congr 2
    simp only [List.map_map]
    apply List.map_congr_left
    intro a _
    cases a <;> simp
  · simp only [h, if_false]
    exact sumRates_map clip clip_zero outs

/-- In the draining branch the reduction `-diff` never exceeds the total outflow. -/
theorem drains_facts (c : Cont K) (dt : K) (outs ins) (hdt : 0 < dt)
    (hS : 0 ≤ (ctx c outs ins).S + (ctx c outs ins).inStat)
    (h : drains c dt (ctx c outs ins)) :
    let x := ctx c outs ins
    let diff := (x.S + x.inStat + (x.inputs - x.outputs) * dt) / dt
    0 < x.outputs ∧ diff < 0 ∧ -x.outputs ≤ diff := by
  intro x diff
  obtain ⟨_, h1, h2⟩ := h
  have hi := ctx_inputs_nonneg c outs ins
  refine ⟨by linarith, div_neg_of_neg_of_pos h2 hdt, ?_⟩
  rw [le_div_iff₀ hdt]
  change 0 ≤ x.S + x.inStat at hS
  change 0 ≤ x.inputs at hi
  have : 0 ≤ x.inputs * dt := mul_nonneg hi hdt.le
  linarith

theorem limitOut_bounds {d ch o r : K} (ho : 0 < o) (hd : d ≤ 0) (hd2 : -o ≤ d) (hr : 0 ≤ r) :
    0 ≤ limitOut d ch o r ∧ limitOut d ch o r ≤ r := by
  unfold limitOut
  split
  · exact ⟨hr, le_refl _⟩
  split
  · exact ⟨le_refl _, hr⟩
  rw [abs_of_nonneg (div_nonneg hr ho.le)]
  have hq : 0 ≤ r / o := div_nonneg hr ho.le
  have : r = o * (r / o) := by field_simp
  constructor
  · have : -o * (r / o) ≤ d * (r / o) := mul_le_mul_of_nonneg_right hd2 hq
    linarith
  · have : d * (r / o) ≤ 0 := mul_nonpos_of_nonpos_of_nonneg hd hq
    linarith

theorem limitIn_bounds {d o r : K} (ho : 0 < o) (hd : 0 ≤ d) (hd2 : d ≤ o) (hr : 0 ≤ r) :
    0 ≤ limitIn d o r ∧ limitIn d o r ≤ r := by
  unfold limitIn
  split
  · exact ⟨hr, le_refl _⟩
  rw [abs_of_nonneg (div_nonneg hr ho.le)]
  have hq : 0 ≤ r / o := div_nonneg hr ho.le
  have : r = o * (r / o) := by field_simp
  constructor
  · have : d * (r / o) ≤ o * (r / o) := mul_le_mul_of_nonneg_right hd2 hq
    linarith
  · have : 0 ≤ d * (r / o) := mul_nonneg hd hq
    linarith

/-- End-of-step content once the first branch has been applied. -/
theorem outs1_end (c : Cont K) (dt : K) (outs ins) (hdt : 0 < dt)
    (hS : 0 ≤ (ctx c outs ins).S + (ctx c outs ins).inStat)
    (h : drains c dt (ctx c outs ins)) :
    let x := ctx c outs ins
    x.S + x.inStat + (x.inputs - sumRates (outs1 c dt outs ins)) * dt ≥ -(Spec.tinyOut outs) * dt := by
  intro x
  have hi : 0 ≤ x.inputs := ctx_inputs_nonneg c outs ins
  obtain ⟨ho, hd, hd2⟩ := drains_facts c dt outs ins hdt hS h
  change 0 < x.outputs at ho
  change (x.S + x.inStat + (x.inputs - x.outputs) * dt) / dt < 0 at hd
  change -x.outputs ≤ (x.S + x.inStat + (x.inputs - x.outputs) * dt) / dt at hd2
  rw [sumRates_outs1, if_pos h, sum_limitOut _ _ _ _ ho (clip_list_nonneg _), tiny_clip_out]
  have ht0 : 0 ≤ Spec.tinyOut outs := by rw [← tiny_clip_out]; exact tiny_nonneg (clip_list_nonneg _)
  have ht1 : Spec.tinyOut outs ≤ x.outputs := by
    rw [← tiny_clip_out]; exact tiny_le_sum (clip_list_nonneg _)
  have hsum : ((outs.map (·.getD 0)).map clip).sum = x.outputs := rfl
  change 0 ≤ x.S + x.inStat at hS
  rw [ge_iff_le]
  split
  · have : 0 ≤ x.inputs * dt := mul_nonneg hi hdt.le
    linarith
  · rw [hsum]
    change -Spec.tinyOut outs * dt ≤ x.S + x.inStat + (x.inputs - (x.outputs +
      (x.S + x.inStat + (x.inputs - x.outputs) * dt) / dt / x.outputs * (x.outputs - Spec.tinyOut outs))) * dt
    set d := (x.S + x.inStat + (x.inputs - x.outputs) * dt) / dt with hdd
    have e : x.S + x.inStat + (x.inputs - x.outputs) * dt = d * dt := by rw [hdd]; field_simp
    have e2 : x.S + x.inStat + (x.inputs - (x.outputs + d / x.outputs * (x.outputs - Spec.tinyOut outs))) * dt
        = (d / x.outputs * Spec.tinyOut outs) * dt := by
      have : d / x.outputs * x.outputs = d := by field_simp
      linear_combination e - dt * this
    rw [e2]
    apply mul_le_mul_of_nonneg_right _ hdt.le
    have : -1 ≤ d / x.outputs := by rw [le_div_iff₀ ho]; linarith
    nlinarith



theorem endContent_eq (c : Cont K) (dt : K) (outs ins) :
    Spec.endContent c dt outs ins =
      c.content + c.dyn + (ins.map Inflow.staticOf).sum
        + ((ins.map Inflow.rateOf).sum - sumRates outs) * dt := by
  unfold Spec.endContent
  rw [spec_inAmount_eq, spec_inRate_eq, spec_total_eq]

theorem endContent_clip (c : Cont K) (dt : K) (o ins) :
    Spec.endContent c dt o (ins.map Inflow.clip) =
      (ctx c o ins).S + (ctx c o ins).inStat + ((ctx c o ins).inputs - sumRates o) * dt := by
  rw [endContent_eq]
  simp [ctx, List.map_map, Function.comp_def]

/-- The end-of-step content the rates ask for, once negative requests are read as zero. -/
theorem endContent_asked (c : Cont K) (dt : K) (outs ins) :
    Spec.endContent c dt (outs.map (Option.map clip)) (ins.map Inflow.clip) =
      (ctx c outs ins).S + (ctx c outs ins).inStat
        + ((ctx c outs ins).inputs - (ctx c outs ins).outputs) * dt := by
  rw [endContent_eq, sumRates_map clip clip_zero]
  simp [ctx, List.map_map, Function.comp_def]

theorem sumRates_set (l : List (Option K)) (i : Nat) (o v : K) (h : l[i]? = some (some o)) :
    sumRates (l.set i (some v)) = sumRates l - o + v := by
  unfold sumRates
  induction l generalizing i with
  | nil => simp at h
  | cons a l ih =>
    cases i with
    | zero => simp at h; subst h; simp; ring
    | succ i =>
      simp at h; have := ih i h
      simp only [List.set_cons_succ, List.map_cons, List.sum_cons, this]; ring

theorem outs1_get (c : Cont K) (dt : K) (outs ins) (hdt : 0 < dt)
    (hS : 0 ≤ (ctx c outs ins).S + (ctx c outs ins).inStat) (i : Nat) (r' : K)
    (h : (outs1 c dt outs ins)[i]? = some (some r')) :
    ∃ r, outs[i]? = some (some r) ∧ 0 ≤ r' ∧ r' ≤ max r 0 := by
  unfold outs1 at h
  by_cases hd : drains c dt (ctx c outs ins)
  · simp only [hd, if_true, List.getElem?_map] at h
    cases ho : outs[i]? with
    | none => rw [ho] at h; simp at h
    | some a =>
      rw [ho] at h
      cases a with
      | none => simp at h
      | some r =>
        refine ⟨r, rfl, ?_⟩
        simp only [Option.map_some, Option.some.injEq] at h
        obtain ⟨h1, h2, h3⟩ := drains_facts c dt outs ins hdt hS hd
        have hb := limitOut_bounds (ch := (ctx c outs ins).inputs - (ctx c outs ins).outputs) h1 h2.le h3 (clip_nonneg r)
        rw [h] at hb
        rw [← clip_eq_max]; exact hb
  · simp only [hd, if_false, List.getElem?_map] at h
    cases ho : outs[i]? with
    | none => rw [ho] at h; simp at h
    | some a =>
      rw [ho] at h
      cases a with
      | none => simp at h
      | some r =>
        refine ⟨r, rfl, ?_⟩
        simp only [Option.map_some, Option.some.injEq] at h
        subst h
        exact ⟨clip_nonneg r, by rw [clip_eq_max]⟩

theorem outs1_length (c : Cont K) (dt : K) (outs ins) :
    (outs1 c dt outs ins).length = outs.length := by
  unfold outs1; dsimp only; split <;> simp

theorem outs1_null (c : Cont K) (dt : K) (outs ins) (i : Nat) :
    (outs1 c dt outs ins)[i]? = some none ↔ outs[i]? = some none := by
  unfold outs1; dsimp only
  cases h : outs[i]? with
  | none => split <;> simp [h]
  | some a => cases a <;> split <;> simp [h]


/-- What the code asked for: the end-of-step content with the clipped requests. -/
def asked (c : Cont K) (dt : K) (outs : List (Option K)) (ins : List (Inflow K)) : K :=
  (ctx c outs ins).S + (ctx c outs ins).inStat
    + ((ctx c outs ins).inputs - (ctx c outs ins).outputs) * dt

/-- The three ways `applyConstraints` can succeed on a finite storage. -/
theorem ac_cases (c : Cont K) (dt : K) (outs : List (Option K)) (ovf : Option Nat)
    (ins : List (Inflow K)) (outs' : List (Option K)) (ins' : List (Inflow K))
    (hdt : 0 < dt) (hfin : c.infinite = false)
    (h : applyConstraints c dt outs ovf ins = .ok (outs', ins')) :
    tooHigh outs = false ∧
    ((outs' = outs1 c dt outs ins ∧ ins' = ins.map Inflow.clip ∧
        (∀ k, c.cap = some k → asked c dt outs ins ≤ k)) ∨
     (∃ k i o, c.cap = some k ∧ ovf = some i ∧ k < asked c dt outs ins ∧
        (outs1 c dt outs ins)[i]? = some (some o) ∧
        outs' = (outs1 c dt outs ins).set i (some ((asked c dt outs ins - k) / dt)) ∧
        ins' = ins.map Inflow.clip) ∨
     (∃ k, c.cap = some k ∧ ovf = none ∧ k < asked c dt outs ins ∧
        (ctx c outs ins).S + (ctx c outs ins).inStat ≤ k ∧
        outs' = outs1 c dt outs ins ∧
        ins' = (ins.map Inflow.clip).map
          (Inflow.limit ((asked c dt outs ins - k) / dt) (ctx c outs ins).inputs))) := by
  rw [applyConstraints_eq c dt outs ovf ins hfin] at h
  by_cases hh : tooHigh outs
  · simp [hh] at h
  refine ⟨by simpa using hh, ?_⟩
  simp only [hh, if_false, Bool.false_eq_true] at h
  cases hc : c.cap with
  | none =>
    simp only [hc, Except.ok.injEq, Prod.mk.injEq] at h
    left; exact ⟨h.1.symm, h.2.symm, by simp⟩
  | some k =>
    simp only [hc] at h
    split at h
    · rename_i hexc
      right
      cases ovf with
      | some i =>
        left
        simp only at h
        split at h
        · rename_i o ho
          simp only [Except.ok.injEq, Prod.mk.injEq] at h
          exact ⟨k, i, o, rfl, rfl, hexc, ho, h.1.symm, h.2.symm⟩
        · simp at h
      | none =>
        right
        simp only at h
        split at h
        · simp at h
        · rename_i hle
          simp only [Except.ok.injEq, Prod.mk.injEq] at h
          exact ⟨k, rfl, rfl, hexc, not_lt.mp hle, h.1.symm, h.2.symm⟩
    · rename_i hn
      simp only [Except.ok.injEq, Prod.mk.injEq] at h
      left
      refine ⟨h.1.symm, h.2.symm, ?_⟩
      intro k' hk'; cases hk'; exact not_lt.mp hn

theorem not_drains_of_asked_nonneg (c : Cont K) (dt : K) (outs ins) (h : 0 ≤ asked c dt outs ins) :
    ¬ drains c dt (ctx c outs ins) := by
  rintro ⟨_, _, h3⟩
  unfold asked at h; linarith

theorem outs1_of_not_drains (c : Cont K) (dt : K) (outs ins) (h : ¬ drains c dt (ctx c outs ins)) :
    outs1 c dt outs ins = outs.map (Option.map clip) := by
  unfold outs1; simp [h]

/-- End content in the overflow case: the capacity plus what the overflow slot already carried. -/
theorem end_overflow (c : Cont K) (dt : K) (outs ins) (hdt : 0 < dt) (k : K) (i : Nat) (o : K)
    (hnd : ¬ drains c dt (ctx c outs ins))
    (ho : (outs1 c dt outs ins)[i]? = some (some o)) :
    Spec.endContent c dt ((outs1 c dt outs ins).set i (some ((asked c dt outs ins - k) / dt)))
      (ins.map Inflow.clip) = k + o * dt := by
  have hsum := sumRates_outs1 c dt outs ins
  rw [if_neg hnd] at hsum
  rw [endContent_clip c dt, sumRates_set _ i o _ ho, hsum]
  have e : (asked c dt outs ins - k) / dt * dt = asked c dt outs ins - k := by field_simp
  change (ctx c outs ins).S + (ctx c outs ins).inStat + ((ctx c outs ins).inputs - _) * dt = _
  have ea : asked c dt outs ins = (ctx c outs ins).S + (ctx c outs ins).inStat
    + ((ctx c outs ins).inputs - (ctx c outs ins).outputs) * dt := rfl
  linear_combination -ea - e

theorem inputs_pos_of_excess (c : Cont K) (dt : K) (outs ins) (hdt : 0 < dt) (k : K)
    (hexc : k < asked c dt outs ins)
    (hle : (ctx c outs ins).S + (ctx c outs ins).inStat ≤ k) :
    0 < (ctx c outs ins).inputs ∧ 0 < (asked c dt outs ins - k) / dt ∧
      (asked c dt outs ins - k) / dt ≤ (ctx c outs ins).inputs := by
  have ho := ctx_outputs_nonneg c outs ins
  have ea : asked c dt outs ins = (ctx c outs ins).S + (ctx c outs ins).inStat
    + ((ctx c outs ins).inputs - (ctx c outs ins).outputs) * dt := rfl
  have hmul := mul_nonneg ho hdt.le
  have hle2 : (asked c dt outs ins - k) / dt ≤ (ctx c outs ins).inputs := by
    rw [div_le_iff₀ hdt]; linarith
  have hpos : 0 < (asked c dt outs ins - k) / dt := div_pos (by linarith) hdt
  exact ⟨by linarith, hpos, hle2⟩

/-- End content when the inflows are limited: the capacity, plus a share of the inflows below
machine epsilon, which are left alone. -/
theorem end_limited (c : Cont K) (dt : K) (outs ins) (hdt : 0 < dt) (k : K)
    (hnd : ¬ drains c dt (ctx c outs ins)) (hexc : k < asked c dt outs ins)
    (hle : (ctx c outs ins).S + (ctx c outs ins).inStat ≤ k) :
    Spec.endContent c dt (outs1 c dt outs ins) ((ins.map Inflow.clip).map
      (Inflow.limit ((asked c dt outs ins - k) / dt) (ctx c outs ins).inputs))
      = k + ((asked c dt outs ins - k) / dt / (ctx c outs ins).inputs * Spec.tinyIn ins) * dt := by
  obtain ⟨hi, hd, hd2⟩ := inputs_pos_of_excess c dt outs ins hdt k hexc hle
  have hsum := sumRates_outs1 c dt outs ins
  rw [if_neg hnd] at hsum
  rw [endContent_eq]
  have ea : asked c dt outs ins = (ctx c outs ins).S + (ctx c outs ins).inStat
    + ((ctx c outs ins).inputs - (ctx c outs ins).outputs) * dt := rfl
  have ed : (asked c dt outs ins - k) / dt * dt = asked c dt outs ins - k := by field_simp
  generalize (asked c dt outs ins - k) / dt = d at *
  have e1 : ((ins.map Inflow.clip).map (Inflow.limit d (ctx c outs ins).inputs)).map Inflow.rateOf
      = ((ins.map Inflow.rateOf).map clip).map (limitIn d (ctx c outs ins).inputs) := by
    simp [List.map_map, Function.comp_def]
  have e2 : (((ins.map Inflow.clip).map (Inflow.limit d (ctx c outs ins).inputs)).map
      Inflow.staticOf).sum = (ctx c outs ins).inStat := by
    simp [List.map_map, Function.comp_def, ctx]
  rw [e1, e2, sum_limitIn _ _ _ hi (clip_list_nonneg _), tiny_clip_in, hsum]
  have hsi : ((ins.map Inflow.rateOf).map clip).sum = (ctx c outs ins).inputs := rfl
  have eS : c.content + c.dyn = (ctx c outs ins).S := rfl
  rw [hsi, eS]
  have : d / (ctx c outs ins).inputs * (ctx c outs ins).inputs = d := by field_simp
  linear_combination -ed - ea - dt * this

theorem base_end_nonneg (c : Cont K) (dt : K) (outs ins) (hdt : 0 < dt)
    (hneg : c.allowNeg = false) (hS : 0 ≤ (ctx c outs ins).S + (ctx c outs ins).inStat) :
    Spec.endContent c dt (outs1 c dt outs ins) (ins.map Inflow.clip)
      ≥ -(Spec.tinyOut outs) * dt := by
  have ht0 : 0 ≤ Spec.tinyOut outs := by
    rw [← tiny_clip_out]; exact tiny_nonneg (clip_list_nonneg _)
  have ht : -(Spec.tinyOut outs) * dt ≤ 0 := by
    have := mul_nonneg ht0 hdt.le; linarith
  rw [endContent_clip]
  by_cases hd : drains c dt (ctx c outs ins)
  · exact outs1_end c dt outs ins hdt hS hd
  · rw [sumRates_outs1, if_neg hd]
    change (ctx c outs ins).S + (ctx c outs ins).inStat
      + ((ctx c outs ins).inputs - (ctx c outs ins).outputs) * dt ≥ _
    have : ¬ ((ctx c outs ins).S + (ctx c outs ins).inStat
      + ((ctx c outs ins).inputs - (ctx c outs ins).outputs) * dt < 0) := by
      intro hlt
      apply hd
      refine ⟨hneg, ?_, hlt⟩
      by_contra hge
      have := mul_nonneg (not_lt.mp hge) hdt.le
      linarith
    linarith [not_lt.mp this]

end HB

namespace HB
variable {K : Type*} [Field K] [LinearOrder K] [IsStrictOrderedRing K]

theorem nearlyEqual_diff_iff (dt S i ch : K) (hdt : 0 < dt) (hS : 0 ≤ S + i) :
    nearlyEqual ((S + i + ch * dt) / dt) ch prec = true ↔ S + i ≤ prec * dt := by
  have e : (S + i + ch * dt) / dt - ch = (S + i) / dt := by field_simp; ring
  simp only [nearlyEqual, e, decide_eq_true_eq]
  rw [abs_of_nonneg (div_nonneg hS hdt.le), div_le_iff₀ hdt]

/-- In the draining branch with some water in store, the storage ends (at most) empty. -/
theorem outs1_end_upper (c : Cont K) (dt : K) (outs ins) (hdt : 0 < dt)
    (hS : prec * dt < (ctx c outs ins).S + (ctx c outs ins).inStat)
    (h : drains c dt (ctx c outs ins)) :
    let x := ctx c outs ins
    x.S + x.inStat + (x.inputs - sumRates (outs1 c dt outs ins)) * dt ≤ 0 := by
  intro x
  have hS0 : 0 ≤ (ctx c outs ins).S + (ctx c outs ins).inStat := by
    have := mul_nonneg (prec_nonneg (K := K)) hdt.le; linarith
  obtain ⟨ho, hd, hd2⟩ := drains_facts c dt outs ins hdt hS0 h
  change 0 < x.outputs at ho
  change (x.S + x.inStat + (x.inputs - x.outputs) * dt) / dt < 0 at hd
  have hne := (nearlyEqual_diff_iff dt x.S x.inStat (x.inputs - x.outputs) hdt hS0).not.mpr (not_le.mpr hS)
  rw [sumRates_outs1, if_pos h, sum_limitOut _ _ _ _ ho (clip_list_nonneg _), tiny_clip_out,
    if_neg hne]
  have ht0 : 0 ≤ Spec.tinyOut outs := by
    rw [← tiny_clip_out]; exact tiny_nonneg (clip_list_nonneg _)
  have hsum : ((outs.map (·.getD 0)).map clip).sum = x.outputs := rfl
  rw [hsum]
  change x.S + x.inStat + (x.inputs - (x.outputs +
      (x.S + x.inStat + (x.inputs - x.outputs) * dt) / dt / x.outputs * (x.outputs - Spec.tinyOut outs))) * dt ≤ 0
  set d := (x.S + x.inStat + (x.inputs - x.outputs) * dt) / dt with hdd
  have e : x.S + x.inStat + (x.inputs - x.outputs) * dt = d * dt := by rw [hdd]; field_simp
  have e2 : x.S + x.inStat + (x.inputs - (x.outputs + d / x.outputs * (x.outputs - Spec.tinyOut outs))) * dt
      = (d / x.outputs * Spec.tinyOut outs) * dt := by
    have : d / x.outputs * x.outputs = d := by field_simp
    linear_combination e - dt * this
  rw [e2]
  apply mul_nonpos_of_nonpos_of_nonneg _ hdt.le
  exact mul_nonpos_of_nonpos_of_nonneg (div_nonpos_of_nonpos_of_nonneg hd.le ho.le) ht0

theorem outs1_getD_clip (c : Cont K) (dt : K) (outs ins) (hnd : ¬ drains c dt (ctx c outs ins))
    (i : Nat) (o r : K) (hr : outs[i]? = some (some r))
    (ho : (outs1 c dt outs ins)[i]? = some (some o)) : o = clip r := by
  rw [outs1_of_not_drains _ _ _ _ hnd, List.getElem?_map, hr] at ho
  simpa using ho.symm

end HB
