import Verif.Props.Calib2
import Mathlib.Data.Rat.Defs
import Mathlib.Algebra.Order.Field.Rat
import Mathlib.Algebra.Order.BigOperators.Group.List

/-! # C85: better simulations get better scores; examples and limits -/

set_option linter.unusedSectionVars false

namespace HB.Calib

open HB.Spec.Calib HB.Periods

section
variable {K : Type} [Field K] [LinearOrder K] [IsStrictOrderedRing K]

/-- A value of a metric is at least as good as another one. -/
def AsGood (m : String) (a b : K) : Prop := if isError m then a ≤ b else b ≤ a

theorem toSkill_mono (M : Metrics K) (m : String) (obs : Ser K) (hpos : ∀ r, reference M obs m = some r → isError m = true → 0 ≤ r) {a b : K}
    (h : AsGood m a b) : toSkill M b m obs ≤ toSkill M a m obs := by
  unfold AsGood at h
  unfold toSkill
  cases hm : isError m with
  | false => rw [hm] at h; simpa using h
  | true =>
    rw [hm] at h
    simp only [Bool.not_true, Bool.false_eq_true, if_false, if_true] at h ⊢
    cases hr : reference M obs m with
    | none => simpa using h
    | some r =>
      simp only
      split_ifs
      · simpa using h
      · exact sub_le_sub_left (div_le_div_of_nonneg_right h (hpos r hr hm)) 1

/-- **C85 (better is better)**: of two runs that meet the constraints, compared with the same observations, the one whose discharge and
auxiliary signals all have metrics at least as good gets a weighted score at least as good, when the weights are not negative
and errors of the mean of the observations are not negative. -/
theorem c85_monotone (M : Metrics K) (c : Cfg K) (m : String) (hf : c.objFunc = .named m) (hw : 0 ≤ c.dischargeWeight)
    (sig : List (Extra K × Ser K × Ser K × Ser K)) (hweight : ∀ e ∈ sig, 0 ≤ e.1.weight)
    (href : ∀ (n : String) (o : Ser K) (r : K), reference M o n = some r → isError n = true → 0 ≤ r)
    (hsame : ∀ e ∈ sig, (usable e.2.1 e.2.2.2).map Prod.snd = (usable e.2.2.1 e.2.2.2).map Prod.snd)
    (qa qb qo : Ser K) (hq : AsGood m (M.named m qa qo) (M.named m qb qo))
    (hsig : ∀ e ∈ sig, AsGood e.1.metric
      (M.named e.1.metric ((usable e.2.1 e.2.2.2).map fun x => some x.1) ((usable e.2.1 e.2.2.2).map fun x => some x.2))
      (M.named e.1.metric ((usable e.2.2.1 e.2.2.2).map fun x => some x.1) ((usable e.2.2.1 e.2.2.2).map fun x => some x.2))) :
    c.dischargeWeight * dischargeTerm M c qb qo + (sig.map fun e => e.1.weight * term M c e.1 e.2.2.1 e.2.2.2).sum ≤
      c.dischargeWeight * dischargeTerm M c qa qo + (sig.map fun e => e.1.weight * term M c e.1 e.2.1 e.2.2.2).sum := by
  have raw : ∀ (n : String) (a b : K), AsGood n a b → (if isError n then -b else b) ≤ (if isError n then -a else a) := by
    intro n a b h
    unfold AsGood at h
    split_ifs at h ⊢
    · exact neg_le_neg h
    · exact h
  have hd : dischargeTerm M c qb qo ≤ dischargeTerm M c qa qo := by
    unfold dischargeTerm
    rw [hf]
    simp only
    split_ifs
    · exact toSkill_mono M m qo (fun r hr he => href m qo r hr he) hq
    · unfold dischargeSkill
      rw [hf]
      exact raw m _ _ hq
  have ht : ∀ e ∈ sig, term M c e.1 e.2.2.1 e.2.2.2 ≤ term M c e.1 e.2.1 e.2.2.2 := by
    intro e he
    unfold term
    have hobs : ((usable e.2.2.1 e.2.2.2).map fun x => some x.2) = (usable e.2.1 e.2.2.2).map fun x => some x.2 := by
      have := congrArg (List.map some) (hsame e he)
      rw [List.map_map, List.map_map] at this
      exact this.symm
    have h := hsig e he
    rw [hobs] at h
    simp only
    rw [hobs]
    unfold orientedTerm
    split_ifs with hn
    · exact toSkill_mono M _ _ (fun r hr he => href _ _ r hr he) h
    · next hE => have := raw _ _ _ h; rw [if_pos hE, if_pos hE] at this; exact this
    · next hE => have := raw _ _ _ h; rw [if_neg hE, if_neg hE] at this; exact this
  refine add_le_add (mul_le_mul_of_nonneg_left hd hw) ?_
  apply List.sum_le_sum
  intro e he
  exact mul_le_mul_of_nonneg_left (ht e he) (hweight e he)

end

namespace Demo

def abs' (s o : Ser ℚ) : List ℚ := (s.zip o).map fun e => |e.1.getD 0 - e.2.getD 0|
def diff (s o : Ser ℚ) : List ℚ := (s.zip o).map fun e => e.1.getD 0 - e.2.getD 0

/-- Mean absolute error, mean error, mean squared log... by name; a skill `1 - mae` for the other names. -/
def M : Metrics ℚ where
  named := fun m s o =>
    if m = "mae" then mean (abs' s o) else if m = "me" then mean (diff s o)
    else if m = "male" then mean (abs' s o) else 1 - mean (abs' s o)
  kgeNp := fun o s => 1 - mean (abs' s o)

def at' (k : ℤ) : ℤ := 86400 * (10000 + k)

/-- Observations from one day before the period to one day after it; day 2 is given twice. -/
def member : Member (Option ℚ) where
  start := at' 0
  stop := at' 3
  otime := [at' (-1), at' 0, at' 1, at' 2, at' 2, at' 3, at' 4]
  obs := [some 9, some 1, some 2, some 7, some 3, some 4, some 9]
  run := [some 5, some 2, some 3, some 6]

def cfg (min : Bool) : Cfg ℚ := ⟨min, .named "mae", false, 1, true, [], []⟩

/-- Aligned: one value per day, the last one of day 2. -/
theorem c85_aligned_demo : (align (at' 0) (at' 3) 1 member.otime member.obs).toOption = some [some 1, some 2, some 3, some 4] := by decide +kernel

/-- A missing day is refused. -/
theorem c85_missing : (align (at' 0) (at' 3) 1 [at' 0, at' 1, at' 3] [some (1 : ℚ), some 1, some 1]).toOption = none := by decide +kernel

/-- The first day is warm-up; the mean absolute error is 2/3 on the others. -/
theorem c85_score_demo : ∀ b, objective M (cfg b) (simulation true [some member.run] 1 none)
    (evaluation [[some 1, some 2, some 3, some 4]] 1 none) = .one (.num (if b then 2 / 3 else -2 / 3)) := by
  intro b
  have : ∀ b, (match objective M (cfg b) (simulation true [some member.run] 1 none)
    (evaluation [[some 1, some 2, some 3, some 4]] 1 none) with | .one (.num x) => some x | _ => none) = some (if b then 2 / 3 else -2 / 3) := by
    decide +kernel
  have h := this b
  revert h
  cases objective M (cfg b) (simulation true [some member.run] 1 none) (evaluation [[some 1, some 2, some 3, some 4]] 1 none) with
  | vec l => intro h; simp at h
  | one v => cases v with
    | bad => intro h; simp at h
    | num x => intro h; simp only [Option.some.injEq] at h; rw [h]

/-- The hypotheses of `c85_score` are met. -/
example : ∃ obss, alignAll 1 [member] = .ok obss ∧ (∀ m ∈ [member], m.otime.length = m.obs.length) ∧
    ∀ m ∈ [member], (m.run.length : ℤ) = (m.stop - m.start) / 86400 + 1 := by
  refine ⟨[[some 1, some 2, some 3, some 4]], ?_, by simp [member], by simp [member, at']⟩
  have h : (alignAll 1 [member]).toOption = some [[some 1, some 2, some 3, some 4]] := by decide +kernel
  revert h
  cases alignAll 1 [member] with
  | error e => intro h; cases h
  | ok x => intro h; cases h; rfl

/-- An objective signal (weight 2, one missing value) and a constraint. -/
def sig (x : ℚ) : List (Sig ℚ) :=
  [(⟨.objective, "mae", 2, none, none⟩, [some 1, none, some 4], [some 0, some 3, some 4]),
   (⟨.constraint, "mae", 1, none, some (1 / 10)⟩, [some x], [some 100])]

def cfgX : Cfg ℚ := ⟨true, .named "nse", false, 1, true, (sig 0).map fun e => e.1, (sig 0).map fun e => e.2.2.length⟩

def value (s : Score ℚ) : Option ℚ := match s with
  | .one (.num x) => some x
  | _ => none

def scored (x : ℚ) : Option ℚ := value (objective M cfgX (simulation true [some member.run] 1 (some (some ((sig x).map fun e => e.2.1))))
    (evaluation [[some 1, some 2, some 3, some 4]] 1 (some ((sig x).map fun e => e.2.2))))

/-- Within ten per cent: the score is the weighted sum; beyond: the worst score. -/
theorem c85_signals_demo : scored 109 = some (-(1 * (1 - 2 / 3) + 2 * (1 - 1 / 2 / 2))) ∧ scored 111 = some 1000000000000 := by
  constructor <;> decide +kernel

/-- Best of four runs, one of them rejected, one without score. -/
theorem c85_best_demo : ∀ b, (getBest (cfg b) [.num ((cfg b).orient 3), .bad, .num ((cfg b).orient 5), .num ((cfg b).orient (-1000000000000))]).toOption =
    some (2, 5) := by decide +kernel

/-- **C85 (limit: all rejected)**: when every set was rejected, the first one is still reported as the best, with the penalty as its score:
the test for the absence of finite scores does not see it. -/
theorem c85_all_rejected : ∀ b, (getBest (cfg b) [.num ((cfg b).orient penalty), .num ((cfg b).orient penalty)]).toOption =
    some (0, -1000000000000) := by decide +kernel

/-- **C85 (limit: penalty)**: a set that was run, with an error above `1e12`, is scored below the rejected sets. -/
theorem c85_below_penalty : ∀ b, Prefers (cfg b) ((cfg b).orient penalty)
    ((cfg b).orient (dischargeSkill M (cfg b) [some 2000000000000] [some 0])) := by
  have h : dischargeSkill M (cfg false) [some 2000000000000] [some 0] < penalty ∧ dischargeSkill M (cfg true) [some 2000000000000] [some 0] < penalty := by
    constructor <;> decide +kernel
  intro b
  cases b
  · exact (c85_direction _ _ _).1.2 h.1
  · exact (c85_direction _ _ _).1.2 h.2

/-- **C85 (limit: signed error)**: the mean error `me` is taken as an error to minimise: a simulation of nothing at all is
preferred to a perfect one. -/
theorem c85_signed_error : isError "me" = true ∧
    dischargeSkill M ⟨false, .named "me", false, 1, true, [], []⟩ [some 3, some 4] [some 3, some 4] <
      dischargeSkill M ⟨false, .named "me", false, 1, true, [], []⟩ [some 0, some 0] [some 3, some 4] := by
  constructor <;> decide +kernel

/-- **C85 (limit: unlisted errors)**: an error of HydroErr that is not in the list, such as the mean absolute log error `male` (also
`msle`, `mde`, `mdse`, `maape`), is taken as a skill: the worse simulation is preferred. -/
theorem c85_unlisted : isError "male" = false ∧ isError "msle" = false ∧ isError "mdse" = false ∧ isError "maape" = false ∧
    dischargeSkill M ⟨false, .named "male", false, 1, true, [], []⟩ [some 3, some 4] [some 3, some 4] <
      dischargeSkill M ⟨false, .named "male", false, 1, true, [], []⟩ [some 0, some 0] [some 3, some 4] := by
  refine ⟨?_, ?_, ?_, ?_, ?_⟩ <;> decide +kernel

end Demo
end HB.Calib
