import Verif.Model.ForcingOps

/-!
# What the forcing operations are documented to do

The rules below are written from the docstrings of `Forcing.correct_station_data` and
`Forcing.spatialize_from_station_data`.
-/

namespace HB.Spec.ForcingOps

open HB.ForcingOps

set_option linter.unusedSectionVars false

variable {K : Type}

/-- A gradient per 100 m: a single value or one value per month (1 to 12). -/
inductive Grad (K : Type) where
  | fixed (g : K)
  | monthly (g : ℕ → K)

def Grad.inMonth (month : ℕ) : Grad K → K
  | .fixed g => g
  | .monthly g => g month

/-- The ways to pass from the value at the station to the value of a unit. -/
inductive Rule (K : Type) where
  /-- the value of the station everywhere -/
  | same
  /-- an additive gradient from the elevation of the station -/
  | additive (station : K) (g : Grad K)
  /-- a multiplicative gradient from the elevation of the station -/
  | multiplicative (station : K) (g : Grad K)
  /-- a multiplicative gradient below the threshold and another one above it -/
  | threshold (station g g2 limit : K)

/-- The value of a unit at elevation `z` when the station has `x`, in a given month. -/
def Rule.value [Field K] [LinearOrder K] (month : ℕ) (z x : K) : Rule K → K
  | .same => x
  | .additive r g => x + (z - r) / 100 * g.inMonth month
  | .multiplicative r g => x * (1 + (z - r) / 100 * g.inMonth month)
  | .threshold r g g2 limit =>
    if z < limit then x * (1 + (z - r) / 100 * g)
    else if limit < r then x * (1 + (z - r) / 100 * g2)
    else x * (1 + (limit - r) / 100 * g) * (1 + (z - limit) / 100 * g2)

/-- The option `a` of an operation is given and stands for `v`: written out, or the value of a parameter. -/
def Given (ps : Option (Pars K)) (a : Option (Arg K)) (v : Val K) : Prop :=
  a = some (.val v) ∨ ∃ n p, a = some (.param n) ∧ ps = some p ∧ p.get n = .ok (some v)

/-- The option is absent, or stands for no value. -/
def NotGiven (ps : Option (Pars K)) (a : Option (Arg K)) : Prop :=
  a = none ∨ ∃ n p, a = some (.param n) ∧ ps = some p ∧ p.get n = .ok none

/-- The gradient of the operation: `gradient`, or `gradient_1` when there is no `gradient`. -/
def GradientGiven (ps : Option (Pars K)) (o : Spat K) (v : Val K) : Prop :=
  Given ps o.gradient v ∨ (NotGiven ps o.gradient ∧ Given ps o.gradient1 v)

/-- A value read as a gradient: a `float`, a list of one value, a list of twelve. -/
def IsGrad (v : Val K) : Grad K → Prop
  | .fixed g => v = .num false g ∨ v = .list [g]
  | .monthly g => ∃ xs, v = .list xs ∧ xs.length = 12 ∧ ∀ m, 1 ≤ m → m ≤ 12 → xs[m - 1]? = some (g m)

/-- A value read as a single gradient by the threshold method. -/
def IsSingle (v : Val K) (g : K) : Prop := (∃ b, v = .num b g) ∨ v = .list [g]

/-- What an operation means with the parameters `ps`. -/
def Means (ps : Option (Pars K)) (o : Spat K) : Rule K → Prop
  | .same => o.method = .constant ∨ (o.method = .default ∧ o.var = .pet)
  | .additive r g =>
    (o.method = .additive ∨ (o.method = .default ∧ o.var = .t)) ∧ (∃ b, Given ps o.ref (.num b r)) ∧
      ∃ v, GradientGiven ps o v ∧ IsGrad v g
  | .multiplicative r g =>
    (o.method = .multiplicative ∨ (o.method = .default ∧ o.var = .p)) ∧ (∃ b, Given ps o.ref (.num b r)) ∧
      ∃ v, GradientGiven ps o v ∧ IsGrad v g
  | .threshold r g g2 limit =>
    o.method = .threshold ∧ (∃ b, Given ps o.ref (.num b r)) ∧ (∃ v, GradientGiven ps o v ∧ IsSingle v g) ∧
      (∃ v, Given ps o.gradient2 v ∧ IsSingle v g2) ∧ ∃ b, Given ps o.threshold (.num b limit)

/-- `Corrected ps v ops x y`: the corrections of the variable `v` found in `ops`, one after the other, turn `x` into
`y`. -/
inductive Corrected [Field K] (ps : Option (Pars K)) (v : Var) : List (Op K) → K → K → Prop
  | nil (x : K) : Corrected ps v [] x x
  | other (op : Op K) (ops : List (Op K)) (x y : K) (h : ∀ c, op = .correct c → c.var ≠ v)
      (rest : Corrected ps v ops x y) : Corrected ps v (op :: ops) x y
  | times (a : Arg K) (b : Bool) (f : K) (ops : List (Op K)) (x y : K) (h : Given ps (some a) (.num b f))
      (rest : Corrected ps v ops (x * f) y) : Corrected ps v (.correct ⟨v, true, a⟩ :: ops) x y
  | plus (a : Arg K) (b : Bool) (f : K) (ops : List (Op K)) (x y : K) (h : Given ps (some a) (.num b f))
      (rest : Corrected ps v ops (x + f) y) : Corrected ps v (.correct ⟨v, false, a⟩ :: ops) x y

/-- The variables that may be below zero: the temperatures. -/
def Signed (v : Var) : Prop := v = .t ∨ v = .tMin ∨ v = .tMax ∨ v = .tDew

instance (v : Var) : Decidable (Signed v) := by unfold Signed; infer_instance

/-- A value as it is stored: raised to zero unless the variable is a temperature. -/
def stored [Field K] [LinearOrder K] (v : Var) (x : K) : K := if Signed v then x else max x 0

/-- The value of a variable for a unit and a time in the table handed to the model (the first entry of that name). -/
def cell (s : State K) (v : Var) (unit time : ℕ) : Option K :=
  ((s.spatial.find? fun e => decide (e.1 = v)).bind fun e => e.2[unit]?).bind fun c => c[time]?

/-- The station value of a variable at a time. -/
def observed (s : State K) (v : Var) (time : ℕ) : Option K :=
  (s.station.find? fun e => decide (e.1 = v)).bind fun e => e.2[time]?

/-- `o` is the last spatialisation of its variable from station data. -/
def LastOf (ops : List (Op K)) (o : Spat K) : Prop :=
  ∃ before after, ops = before ++ .station o :: after ∧ ∀ o', .station o' ∈ after → o'.var ≠ o.var

/-- Every station series has one value per time. -/
def Rectangular (site : Site K) (s : State K) : Prop := ∀ e ∈ s.station, e.2.length = site.months.length

/-- The months are months. -/
def Months (site : Site K) : Prop := ∀ m ∈ site.months, 1 ≤ m ∧ m ≤ 12

end HB.Spec.ForcingOps
