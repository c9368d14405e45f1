import Verif.Model.ProjectObs
import Verif.Model.Periods

/-!
# Periods of a project file (Python side)

`_validate_periods` (python/src/hydrobricks/project.py:923-950) and the arguments of `Periods` (python/src/hydrobricks/periods.py:60-79, 121-175, 214-231).

Simplifications.  The reading of a date (`pd.Timestamp`) and of the text of a spin-up are inputs; an unreadable date is refused here by a message (in the code, by another
exception); a null date, which pandas reads as "not a time", counts as unreadable.  A number is an integer.
-/

namespace HB.Project

open Custom (Val get has truthy)
open Periods (Spinup)

/-- `Period.coerce` on a value of the file (periods.py:60-79): a pair of dates. -/
def span (date : Val → Option ℤ) : Val → Option (ℤ × ℤ)
  | .list [a, b] => match date a, date b with
    | some x, some y => some (x, y)
    | _, _ => none
  | _ => none

/-- An evaluation period (periods.py:221-226): left out when empty; `none` when refused. -/
def evaluation (date : Val → Option ℤ) (d : Dict) (k : String) : Option (Option (ℤ × ℤ)) :=
  match get d k with
  | none => some none
  | some v => if truthy v then (span date v).map some else some none

/-- The simulation (periods.py:229-231): left out when null. -/
def simulation (date : Val → Option ℤ) (d : Dict) : Option (Option (ℤ × ℤ)) :=
  match get d "simulation" with
  | none => some none
  | some .null => some none
  | some v => (span date v).map some

/-- The spin-up, none by default (project.py:944-945; periods.py:136-168). -/
def spinup (text : String → Option Spinup) (d : Dict) : Option Spinup :=
  match get d "spinup" with
  | none => some (.days 0)
  | some (.num n) => some (.days n)
  | some (.str s) => text s
  | some _ => none

/-- The section, a pair standing for the simulation (932-940). -/
def periodsSection (config : Dict) : Option Dict :=
  match get config "periods" with
  | some (.list [a, b]) => some [("simulation", .list [a, b])]
  | some (.dict d) => some d
  | _ => none

/-- `_validate_periods` (923-950). -/
def readPeriods (date : Val → Option ℤ) (text : String → Option Spinup) (config : Dict) : Except (List String) Periods.Periods :=
  match periodsSection config with
  | none => .error ["periods"]
  | some d =>
    if keyMsgs d ["calibration", "validation", "simulation", "spinup"] "periods" ≠ [] then
      .error (keyMsgs d ["calibration", "validation", "simulation", "spinup"] "periods")
    else match evaluation date d "calibration", evaluation date d "validation", simulation date d, spinup text d with
      | some c, some v, some s, some sp => match Periods.Periods.make c v s sp with
        | .ok p => .ok p
        | .error _ => .error ["periods"]
      | _, _, _, _ => .error ["periods"]

end HB.Project
