import Verif.Model.Run

/-! # Specification of forcing access -/

namespace HB

/-- The value last written to the forcing `v` of unit `u` in this list of accesses. -/
def lastWrite {K : Type} : List (FEv K) → ℤ → VarType → Option K
  | [], _, _ => none
  | .rd .. :: l, u, v => lastWrite l u v
  | .wr u' v' x :: l, u, v => (lastWrite l u v).or (if u' = u ∧ v' = v then some x else none)

/-- In the accesses of one step, every reader of a forcing sees the last value written to it in that step, and the series
value `base` if nothing was written. -/
def Coherent {K : Type} (base : ℤ → VarType → Option K) (evs : List (FEv K)) : Prop :=
  ∀ pre post u v x, evs = pre ++ .rd u v x :: post → some x = (lastWrite pre u v).or (base u v)

/-- `x` was read from the series (not from an override) during the step. -/
def ReadFromSeries {K : Type} (evs : List (FEv K)) (u : ℤ) (v : VarType) (x : K) : Prop :=
  ∃ pre post, evs = pre ++ .rd u v x :: post ∧ lastWrite pre u v = none

section
variable {K : Type} [Field K]

/-- Length of one series step, in days. -/
def unitDays : TUnit → K
  | .week => 7
  | .day => 1
  | .hour => 1 / 24
  | .minute => 1 / 1440
  | .variable => 0

/-- The `k`-th value of a regular series is dated `start + k · step`. `x` is the value of `r` dated `d`. -/
def DatedAt (r : RegSeries K) (d x : K) : Prop :=
  ∃ k : ℕ, r.values[k]? = some x ∧ r.start + k * (r.step * unitDays r.unit) = d

end

/-- The computation only reads forcings of `S`, whatever values it gets. -/
def Prog.ReadsOnly {K A : Type} (S : ℤ → VarType → Prop) : Prog K A → Prop
  | .ret _ => True
  | .read u v k => S u v ∧ ∀ x, (k x).ReadsOnly S
  | .write _ _ _ k => k.ReadsOnly S

/-- Whatever values it reads, the computation ends with a result satisfying `Q`. -/
def Prog.Ensures {K A : Type} (Q : A → Prop) : Prog K A → Prop
  | .ret a => Q a
  | .read _ _ k => ∀ x, (k x).Ensures Q
  | .write _ _ _ k => k.Ensures Q

end HB
