import Mathlib.Algebra.Order.Field.Basic
import Mathlib.Data.List.Basic

/-!
# Forcing operations (Python side)

`Forcing.correct_station_data`, `spatialize_from_station_data`, `spatialize_from_gridded_data` and `compute_pet`
store operations; `apply_operations` runs them and fills the table that `Model.set_forcing` hands to the C++ core.

Simplifications.  Numbers are exact.  The result of the regridding of a netCDF file and the pyet formula are external
libraries: a gridded operation carries its result and a PET operation carries the function it calls.  NaN values are
not represented.  An exception leaves no state (the Python object keeps what was already written).  Options of a PET or
of a gridded operation are plain values (no `param:` reference).
-/

namespace HB.ForcingOps

set_option linter.unusedSectionVars false

/-- `Forcing.Variable` (python forcing.py:95-110). -/
inductive Var where
  | p | t | tMin | tMax | tDew | pet | rh | rhMin | rhMax | rNet | rSolar | sd | wind | pressure
  deriving DecidableEq, Repr

/-- `_can_be_negative` (forcing.py:251-293). -/
def Var.canBeNegative : Var → Bool
  | .t | .tMin | .tMax | .tDew => true
  | _ => false

/-- A value of an option: a number (an `int` or a `float`) or a list of numbers. -/
inductive Val (K : Type) where
  | num (isInt : Bool) (x : K)
  | list (xs : List K)
  deriving DecidableEq

/-- An option as given by the user: a value or a `param:<name>` reference. -/
inductive Arg (K : Type) where
  | val (v : Val K)
  | param (name : String)

/-- What `apply_operations` reads of the parameter set: the value of a parameter (an exception when it does not exist,
`None` when it has no value; parameters.py `get`) and the list `allow_changing`. -/
structure Pars (K : Type) where
  get : String → Except String (Option (Val K))
  allow : List String

/-- The spatialisation methods (forcing.py:71-79). -/
inductive Method where
  | default | constant | additive | multiplicative | threshold
  deriving DecidableEq, Repr

/-- The dictionary stored by `spatialize_from_station_data` (forcing.py:403-482). -/
structure Spat (K : Type) where
  var : Var
  method : Method := .default
  ref : Option (Arg K) := none
  gradient : Option (Arg K) := none
  gradient1 : Option (Arg K) := none
  gradient2 : Option (Arg K) := none
  threshold : Option (Arg K) := none

/-- The dictionary stored by `correct_station_data` (forcing.py:341-402). -/
structure Corr (K : Type) where
  var : Var
  mult : Bool := true
  factor : Arg K

/-- A stored operation. -/
inductive Op (K : Type) where
  | correct (c : Corr K)
  | station (o : Spat K)
  | grid (v : Var) (cols : List (List K))
  | pet (used : List Var) (f : ℕ → List (List K) → List K)

/-- The units (elevations, areas) and the months (1 to 12) of the times of the station data. -/
structure Site (K : Type) where
  elevs : List K
  areas : List K
  months : List ℕ

/-- `data1D` (a series per variable), `data2D` (per variable, the series of each unit) and `_is_initialized`. -/
structure State (K : Type) where
  station : List (Var × List K)
  spatial : List (Var × List (List K))
  applied : Bool

variable {K : Type}

/-- `data_name.index(variable)` followed by `data[idx]`: the first entry of that name. -/
def look {α : Type} (v : Var) : List (Var × α) → Option α
  | [] => none
  | (w, a) :: l => if w = v then some a else look v l

/-- `data[data_name.index(variable)] = a`. -/
def put {α : Type} (v : Var) (a : α) : List (Var × α) → List (Var × α)
  | [] => []
  | (w, b) :: l => if w = v then (w, a) :: l else (w, b) :: put v a l

/-- Replacement of a variable or addition at the end (forcing.py:1148-1156, 1324-1330). -/
def store {α : Type} (v : Var) (a : α) (l : List (Var × α)) : List (Var × α) :=
  if (look v l).isSome then put v a l else l ++ [(v, a)]

/-- Substitution of a `param:` reference (forcing.py:894-908). -/
def Arg.value (ps : Option (Pars K)) : Arg K → Except String (Option (Val K))
  | .val v => .ok (some v)
  | .param n =>
    match ps with
    | none => .error "A parameters object must be provided"
    | some p => p.get n

/-- Is the reference one of the parameters that may change (forcing.py:906-908)? -/
def Arg.changing (ps : Option (Pars K)) : Arg K → Bool
  | .val _ => false
  | .param n =>
    match ps with
    | none => false
    | some p => decide (n ∈ p.allow)

/-- An option that may be absent (`kwargs.get(key, None)`). -/
def optValue (ps : Option (Pars K)) : Option (Arg K) → Except String (Option (Val K))
  | none => .ok none
  | some a => a.value ps

def optChanging (ps : Option (Pars K)) : Option (Arg K) → Bool
  | none => false
  | some a => a.changing ps

/-- The options of a spatialisation once resolved. -/
structure Opts (K : Type) where
  ref : Option (Val K)
  gradient : Option (Val K)
  gradient2 : Option (Val K)
  threshold : Option (Val K)

/-- forcing.py:894-908 (every option is resolved, even when the operation is not applied in the end) and 1026-1032 (`gradient_1`
replaces a missing `gradient`). -/
def Spat.resolve (ps : Option (Pars K)) (o : Spat K) : Except String (Opts K) := do
  let r ← optValue ps o.ref
  let g ← optValue ps o.gradient
  let g1 ← optValue ps o.gradient1
  let g2 ← optValue ps o.gradient2
  let th ← optValue ps o.threshold
  .ok ⟨r, match g with | none => g1 | some x => some x, g2, th⟩

/-- Does the operation have an option that may change (forcing.py:906-911)? -/
def Spat.changing (ps : Option (Pars K)) (o : Spat K) : Bool :=
  optChanging ps o.ref || optChanging ps o.gradient || optChanging ps o.gradient1 || optChanging ps o.gradient2 ||
    optChanging ps o.threshold

/-- The default method of a variable (forcing.py:1007-1021). -/
def Method.actual (v : Var) : Method → Except String Method
  | .default =>
    match v with
    | .t => .ok .additive
    | .p => .ok .multiplicative
    | .pet => .ok .constant
    | _ => .error "Unknown default method"
  | m => .ok m

/-- The check of the length of a list of gradients (forcing.py:1034-1042). -/
def gradientLength (g : Option (Val K)) : Bool :=
  match g with
  | some (.list xs) => decide (xs.length = 1) || decide (xs.length = 12)
  | _ => true

/-- A number given as an option (arithmetic with `None` raises; a list as an elevation is not modelled and refused). -/
def number (v : Option (Val K)) : Except String K :=
  match v with
  | some (.num _ x) => .ok x
  | _ => .error "not a number"

/-- The gradient of each time for the additive and multiplicative methods (forcing.py:1058-1085, 1095-1120): a `float` or
a list of one value, or twelve monthly values; anything else, an `int` included, is refused. -/
def monthly [Zero K] (months : List ℕ) (g : Option (Val K)) : Except String (List K) :=
  match g with
  | some (.num false x) => .ok (months.map fun _ => x)
  | some (.list xs) =>
    if xs.length = 1 then .ok (months.map fun _ => xs.getD 0 0)
    else if xs.length = 12 then .ok (months.map fun m => xs.getD (m - 1) 0)
    else .error "Wrong gradient format"
  | _ => .error "Wrong gradient format"

/-- The gradient of each time for the threshold method: numpy arithmetic (forcing.py:1122-1141), a number, a list of one
value, or a list that happens to have as many values as there are times. -/
def spread [Zero K] (n : ℕ) (g : Option (Val K)) : Except String (List K) :=
  match g with
  | some (.num _ x) => .ok (List.replicate n x)
  | some (.list xs) =>
    if xs.length = 1 then .ok (List.replicate n (xs.getD 0 0))
    else if xs.length = n then .ok xs
    else .error "shapes cannot be broadcast"
  | none => .error "unsupported operand"

section
variable [Field K] [LinearOrder K]

/-- The series of a unit (forcing.py:1044-1146). -/
def column (m : Method) (months : List ℕ) (o : Opts K) (raw : List K) (z : K) : Except String (List K) :=
  match m with
  | .default => .error "Unknown method"
  | .constant => .ok raw
  | .additive => do
    let r ← number o.ref
    let g ← monthly months o.gradient
    .ok (List.zipWith (fun x g => x + g * (z - r) / 100) raw g)
  | .multiplicative => do
    let r ← number o.ref
    let g ← monthly months o.gradient
    .ok (List.zipWith (fun x g => x * (1 + g * (z - r) / 100)) raw g)
  | .threshold => do
    let th ← number o.threshold
    let r ← number o.ref
    if z < th then
      let g ← spread raw.length o.gradient
      .ok (List.zipWith (fun x g => x * (1 + g * (z - r) / 100)) raw g)
    else if r > th then
      let g2 ← spread raw.length o.gradient2
      .ok (List.zipWith (fun x g => x * (1 + g * (z - r) / 100)) raw g2)
    else
      let g ← spread raw.length o.gradient
      let g2 ← spread raw.length o.gradient2
      let below := List.zipWith (fun x g => x * (1 + g * (th - r) / 100)) raw g
      .ok (List.zipWith (fun x g => x * (1 + g * (z - th) / 100)) below g2)

/-- `unit_values[unit_values < 0] = 0` for the variables that cannot be negative (forcing.py:1144-1146). -/
def clip (v : Var) (x : K) : K := if v.canBeNegative then x else if x < 0 then 0 else x

/-- The table of a spatialisation: the series of each unit (forcing.py:976-1146). -/
def columns (site : Site K) (v : Var) (m : Method) (o : Opts K) (raw : List K) : Except String (List (List K)) := do
  let m ← m.actual v
  if gradientLength o.gradient then
    let cols ← site.elevs.mapM (column m site.months o raw)
    .ok (cols.map fun c => c.map (clip v))
  else .error "The gradient should have a length of 1 or 12"

/-- `_apply_spatialization_from_station_data` (forcing.py:976-1156). -/
def spatialize (site : Site K) (s : State K) (o : Spat K) (opts : Opts K) : Except String (State K) :=
  match look o.var s.station with
  | none => .error "variable is not in list"
  | some raw => do
    let cols ← columns site o.var o.method opts raw
    .ok { s with spatial := store o.var cols s.spatial }

/-- `_apply_prior_correction` (forcing.py:928-974). -/
def correct (s : State K) (c : Corr K) (f : Option (Val K)) : Except String (State K) :=
  match look c.var s.station with
  | none => .error "variable is not in list"
  | some raw => do
    let k ← number f
    .ok { s with station := put c.var (raw.map fun x => if c.mult then x * k else x + k) s.station }

/-- A stored operation, on its turn: the corrections (type 0), the stations (1), the grids (2), PET (3)
(forcing.py:848-926, 976, 1158-1260, 1262-1330). -/
def stepOp (site : Site K) (ps : Option (Pars K)) (all : Bool) (type : ℕ) (s : State K) : Op K → Except String (State K)
  | .correct c =>
    if type = 0 then do
      let f ← c.factor.value ps
      if all || c.factor.changing ps then correct s c f else .ok s
    else .ok s
  | .station o =>
    if type = 1 then do
      let opts ← o.resolve ps
      if all || o.changing ps then spatialize site s o opts else .ok s
    else .ok s
  | .grid v cols =>
    if type = 2 then
      if all then .ok { s with spatial := s.spatial ++ [(v, cols)] } else .ok s
    else .ok s
  | .pet used f =>
    if type = 3 then
      if all then
        match used.mapM (fun v => look v s.spatial) with
        | none => .error "variable not available"
        | some tables =>
          let cols := (List.range site.elevs.length).map fun i => f i (tables.map fun tb => tb.getD i [])
          .ok { s with spatial := store .pet cols s.spatial }
      else .ok s
    else .ok s

/-- `_apply_operations_of_type` (forcing.py:848-926). -/
def ofType (site : Site K) (ps : Option (Pars K)) (all : Bool) (ops : List (Op K)) (s : State K) (type : ℕ) :
    Except String (State K) :=
  ops.foldlM (stepOp site ps all type) s

/-- `apply_operations` (forcing.py:644-692). -/
def apply (site : Site K) (ps : Option (Pars K)) (all : Bool) (ops : List (Op K)) (s : State K) :
    Except String (State K) := do
  let s ← ofType site ps all ops s 0
  let s ← ofType site ps all ops s 1
  let s ← ofType site ps all ops s 2
  let s ← ofType site ps all ops s 3
  .ok { s with applied := true }

/-- What `Model.run` does with a forcing (models/model.py:300-302). -/
def forRun (site : Site K) (ps : Pars K) (ops : List (Op K)) (s : State K) : Except String (State K) :=
  if s.applied then .ok s else apply site (some ps) true ops s

/-- `get_total_precipitation` (forcing.py:830-846). -/
def totalPrecipitation (site : Site K) (s : State K) : Option K :=
  (look .p s.spatial).map fun cols =>
    (List.zipWith (fun c a => c.sum * a / site.areas.sum) cols site.areas).sum

/-- The names `Model.set_forcing` hands over (models/model.py:374-384; `str` of a member of the enumeration is its name in
lower case). -/
def Var.name : Var → String
  | .p => "p" | .t => "t" | .tMin => "t_min" | .tMax => "t_max" | .tDew => "t_dew_point" | .pet => "pet"
  | .rh => "rh" | .rhMin => "rh_min" | .rhMax => "rh_max" | .rNet => "r_net" | .rSolar => "r_solar"
  | .sd => "sd" | .wind => "wind" | .pressure => "pressure"

/-- The names `TimeSeries::MatchVariableType` accepts (core/src/base/TimeSeries.cpp:132-157, compared without case). -/
def coreNames : List String :=
  ["precipitation", "p", "temperature", "t", "temperature_min", "t_min", "temperature_max", "t_max", "solar_radiation",
   "r_solar", "r", "pet", "etp", "custom_1", "custom_2", "custom_3"]

/-- `Model.set_forcing` gets through the names of the table (models/model.py:374-384). -/
def handedOver (s : State K) : Bool := s.spatial.all fun e => decide (e.1.name ∈ coreNames)

end

end HB.ForcingOps
