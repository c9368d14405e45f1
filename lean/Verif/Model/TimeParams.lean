import Verif.Model.Find
import Verif.Model.Calendar

/-!
# Time-varying parameters

Model of `ParameterModifier` (ParameterModifier.cpp), `Parameter::UpdateFromModifier` (Parameter.cpp:11-23) and
`ParametersUpdater` (ParametersUpdater.cpp).  Parameter pointers are positions in a memory `ℕ → Param K`; `NaN` is `none`.
Out-of-range vector accesses (undefined behaviour in a release build) are the outcome `undefined`.
-/

namespace HB

/-- `ParameterModifierType` (ParameterModifier.h). -/
inductive ModKind | yearly | monthly | dates
  deriving DecidableEq, Repr

/-- `ParameterModifier` members (ParameterModifier.h). -/
structure Modifier (K : Type) where
  kind : ModKind
  values : List K := []
  dates : List K := []

/-- Result of `UpdateValue`. -/
inductive Got (K : Type) where
  | value (v : K)
  | nan
  | undefined

section
variable {K : Type} [Field K] [LinearOrder K] [IsStrictOrderedRing K] [FloorRing K]

/-- The years `yearStart .. yearEnd` (ParameterModifier.cpp:9-13). -/
def yearsFrom (y0 y1 : ℤ) : List K := (List.range (y1 - y0 + 1).toNat).map fun i : ℕ => ((y0 + (i : ℤ) : ℤ) : K)

/-- `SetYearlyValues` (ParameterModifier.cpp:3-21): `none` = exception (wrong type, or a negative count given to
`reserve`); the Boolean is the returned value, the modifier is changed also when it is false. -/
def Modifier.setYearly (m : Modifier K) (y0 y1 : ℤ) (values : List K) : Option (Bool × Modifier K) :=
  if m.kind ≠ .yearly ∨ y1 - y0 + 1 < 0 then none
  else some (decide (values.length = (yearsFrom (K := K) y0 y1).length), { m with values := values, dates := yearsFrom y0 y1 })

/-- `SetMonthlyValues` (ParameterModifier.cpp:23-37). -/
def Modifier.setMonthly (m : Modifier K) (values : List K) : Option (Bool × Modifier K) :=
  if m.kind ≠ .monthly then none
  else some (decide (values.length = 12), { m with values := values, dates := [] })

/-- `SetDatesAndValues` (ParameterModifier.cpp:39-53). -/
def Modifier.setDates (m : Modifier K) (dates values : List K) : Option (Bool × Modifier K) :=
  if m.kind ≠ .dates then none
  else some (decide (values.length = dates.length), { m with values := values, dates := dates })

/-- `_values[i]`. -/
def Modifier.valueAt (m : Modifier K) (i : ℕ) : Got K :=
  match m.values[i]? with
  | some v => .value v
  | none => .undefined

/-- `_dates` searched (ParameterModifier.cpp:62-69, 85-92): `front()` of an empty vector is undefined. -/
def Modifier.lookup (m : Modifier K) (x : K) : Got K :=
  if m.dates = [] then .undefined
  else match find m.dates x 0 with
    | .at i => m.valueAt i
    | _ => .nan

/-- `ParameterModifier::UpdateValue` (ParameterModifier.cpp:55-97). -/
def Modifier.updateValue (m : Modifier K) (date : K) : Got K :=
  match m.kind with
  | .yearly => m.lookup ((fromMJD date).year : K)
  | .monthly => m.valueAt ((fromMJD date).month - 1).toNat
  | .dates => m.lookup date

/-- `Parameter` members (Parameter.h:119-123). -/
structure Param (K : Type) where
  value : Option K
  modifier : Option (Modifier K)

/-- `Parameter::UpdateFromModifier` (Parameter.cpp:11-23): `none` = undefined behaviour. -/
def Param.update (p : Param K) (date : K) : Option (Param K) :=
  match p.modifier with
  | none => some p
  | some m =>
    match m.updateValue date with
    | .value v => some { p with value := some v }
    | .nan => some p
    | .undefined => none

/-- `ParametersUpdater` members (ParametersUpdater.h). -/
structure Updater (K : Type) where
  active : Bool
  previous : K
  yearly : List ℕ
  monthly : List ℕ
  dated : List ℕ

/-- Constructor (ParametersUpdater.cpp:6-8). -/
def Updater.new : Updater K := ⟨false, 0, [], [], []⟩

/-- `AddParameter` (ParametersUpdater.cpp:10-31); a null pointer is `none`. -/
def Updater.add (mem : ℕ → Param K) (u : Updater K) (p : Option ℕ) : Updater K :=
  match p with
  | none => u
  | some i =>
    match (mem i).modifier with
    | none => u
    | some m =>
      match m.kind with
      | .yearly => { u with yearly := u.yearly ++ [i], active := true }
      | .monthly => { u with monthly := u.monthly ++ [i], active := true }
      | .dates => { u with dated := u.dated ++ [i], active := true }

/-- The loops of `ChangingYear`, `ChangingMonth`, `ChangingDate` (ParametersUpdater.cpp:55-71). -/
def refresh (date : K) : List ℕ → (ℕ → Param K) → Option (ℕ → Param K)
  | [], mem => some mem
  | i :: r, mem =>
    match (mem i).update date with
    | none => none
    | some p => refresh date r (Function.update mem i p)

/-- `DateUpdate` (ParametersUpdater.cpp:33-53). -/
def Updater.dateUpdate (u : Updater K) (mem : ℕ → Param K) (date : K) : Option (Updater K × (ℕ → Param K)) :=
  if !u.active then some (u, mem)
  else
    let a := fromMJD u.previous
    let b := fromMJD date
    let u' := { u with previous := date }
    if a.year ≠ b.year then
      ((refresh date u.yearly mem).bind fun mem => (refresh date u.monthly mem).bind (refresh date u.dated)).map (u', ·)
    else if a.month ≠ b.month then
      ((refresh date u.monthly mem).bind (refresh date u.dated)).map (u', ·)
    else (refresh date u.dated mem).map (u', ·)

/-- Successive updates. -/
def Updater.updates (u : Updater K) (mem : ℕ → Param K) : List K → Option (Updater K × (ℕ → Param K))
  | [] => some (u, mem)
  | d :: r => (u.dateUpdate mem d).bind fun s => s.1.updates s.2 r

/-- The parameters in force at step `k` of a run visiting the dates `ds`: `TimeMachine::IncrementTime`
(TimeMachine.cpp:49-55) calls the updater after moving to the next date, so the first date never reaches it
(ModelHydro.cpp:118-129). -/
def Updater.atStep (u : Updater K) (mem : ℕ → Param K) (ds : List K) (k : ℕ) : Option (ℕ → Param K) :=
  (u.updates mem (ds.tail.take k)).map (·.2)

end
end HB
