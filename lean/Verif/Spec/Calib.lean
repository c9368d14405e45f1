import Verif.Model.Calib

/-! # What the score of a parameter set means -/

namespace HB.Spec.Calib

open HB.Calib

section
variable {V : Type}

/-- `v` is the value of the last observation dated `t`. -/
def LastDated (otime : List ℤ) (obs : List V) (t : ℤ) (v : V) : Prop :=
  ∃ i : ℕ, otime[i]? = some t ∧ obs[i]? = some v ∧ ∀ j : ℕ, i < j → otime[j]? ≠ some t

/-- A model of the calibration: modelling period, dated observations, and the discharge of a run. -/
structure Member (V : Type) where
  start : ℤ
  stop : ℤ
  otime : List ℤ
  obs : List V
  run : List V

/-- `ss` and `os` are the simulated and observed values of the same days: the days of the period after the warm-up. -/
structure After (warmup : ℕ) (m : Member V) (ss os : List V) : Prop where
  count : ss.length = os.length
  days : (ss.length : ℤ) + (warmup : ℤ) = (m.stop - m.start) / 86400 + 1
  simulated : ∀ j : ℕ, ss[j]? = m.run[warmup + j]?
  observed : ∀ (j : ℕ) (v : V), os[j]? = some v → LastDated m.otime m.obs (m.start + 86400 * ((warmup : ℤ) + (j : ℤ))) v

end

section
variable {K : Type} [Field K] [LinearOrder K]

/-- The optimiser prefers `a` to `b`. -/
def Prefers (c : Cfg K) (a b : K) : Prop := if c.minimize then a < b else b < a

/-- Pairs of values where both signals have one. -/
def usable : Ser K → Ser K → List (K × K)
  | some a :: s, some b :: o => (a, b) :: usable s o
  | _ :: s, _ :: o => usable s o
  | _, _ => []

def mean (l : List K) : K := l.sum / (l.length : K)

/-- The largest mean absolute error a constraint accepts. -/
def Limit (e : Extra K) (l : List (K × K)) : Option K :=
  match e.relative with
  | some r => some (r * mean (l.map fun x => |x.2|))
  | none => e.tolerance

/-- A signal does not reject the run: it has values to compare and, for a constraint, the mean absolute error is within the limit. -/
def Meets (e : Extra K) (s o : Ser K) : Prop :=
  usable s o ≠ [] ∧
    (e.mode = .constraint → ∀ t, Limit e (usable s o) = some t → mean ((usable s o).map fun x => |x.1 - x.2|) ≤ t)

/-- The skill of an auxiliary signal, on its usable values. -/
def term (M : Metrics K) (c : Cfg K) (e : Extra K) (s o : Ser K) : K :=
  let a := (usable s o).map fun x => some x.1
  let b := (usable s o).map fun x => some x.2
  orientedTerm M c (M.named e.metric a b) e.metric b

/-- The skill of the discharge in a weighted score. -/
def dischargeTerm (M : Metrics K) (c : Cfg K) (s o : Ser K) : K :=
  match c.objFunc with
  | .named m => if c.normalize then toSkill M (M.named m s o) m o else dischargeSkill M c s o
  | _ => dischargeSkill M c s o

end
end HB.Spec.Calib
