import Mathlib.Algebra.Order.Field.Basic

/-!
# Parameter sets

Model of the Python class `ParameterSet` (python/src/hydrobricks/parameters.py:778-1447, 2106-2345) and of its use for a
calibration run (trainer.py:966-1003).

Simplifications: numbers are exact and never NaN; upper and lower case are those of ASCII; the table of parameters is a list;
priors, units and the display functions are left out; comparing a number with a list is a type error (comparing two lists, which
Python does in dictionary order when only a maximum is declared as a list, too); the list given to `set_values` is not shared
with the caller.
-/

namespace HB.PSet

inductive Err
  | notFound | outOfRange | alias | minMax | type | index
  /-- the constraints could not be satisfied -/
  | unsatisfied
deriving DecidableEq

/-- A number, or one number per month or class. -/
inductive Val (K : Type)
  | num (x : K)
  | list (xs : List K)
deriving DecidableEq

/-- The argument `aliases`: nothing, one text or a list. -/
inductive Aliases
  | none
  | text (s : String)
  | names (l : List String)

/-- What iterating over the aliases gives: the letters of a text. -/
def Aliases.iter : Aliases → List String
  | .none => []
  | .text s => s.toList.map fun c => String.ofList [c]
  | .names l => l

/-- What `explode("aliases")` gives: a text stays whole. -/
def Aliases.exploded : Aliases → List String
  | .none => []
  | .text s => [s]
  | .names l => l

/-- A row of the table (parameters.py:789-803). -/
structure Param (K : Type) where
  component : String
  name : String
  aliases : Aliases
  value : Option (Val K)
  lo : Option (Val K)
  hi : Option (Val K)
  /-- `to_transformed`, `to_real` -/
  transform : Option ((K → K) × (K → K))

structure ParamSet (K : Type) where
  params : List (Param K)
  /-- first parameter, operator, second parameter -/
  constraints : List (String × String × String)

/-- `str.lower`. -/
def lower (s : String) : String := String.ofList (s.toList.map Char.toLower)

/-- The row answers to a name (parameters.py:2331-2336). -/
def Param.answers {K : Type} (p : Param K) (name : String) : Bool :=
  (p.aliases.iter.map lower).contains (lower name) || lower name == lower (p.component ++ ":" ++ p.name)

/-- `_get_parameter_index` (parameters.py:2292-2345): the first row. -/
def ParamSet.find {K : Type} (S : ParamSet K) (name : String) : Option ℕ := S.params.findIdx? fun p => p.answers name

section
variable {K : Type} [Field K] [LinearOrder K]

/-- `_check_min_max_consistency` (parameters.py:2106-2154). -/
def checkMinMax : Option (Val K) → Option (Val K) → Except Err Unit
  | none, _ => .ok ()
  | _, none => .ok ()
  | some (.num l), some (.num h) => if h < l then .error .minMax else .ok ()
  | some (.list ls), some (.list hs) =>
    if ls.length ≠ hs.length then .error .minMax
    else if (ls.zip hs).any fun p => decide (p.2 < p.1) then .error .minMax else .ok ()
  | _, _ => .error .minMax

/-- `_check_aliases_uniqueness` (parameters.py:2156-2186). -/
def ParamSet.checkAliases (S : ParamSet K) (a : Aliases) : Except Err Unit :=
  let existing := (S.params.flatMap fun p => p.aliases.exploded).map lower
  if a.iter.any fun x => existing.contains (lower x) then .error .alias else .ok ()

/-- `define_parameter` (parameters.py:832-896). -/
def ParamSet.define (S : ParamSet K) (component name : String) (aliases : Aliases) (lo hi default : Option (Val K))
    (mandatory : Bool) : Except Err (ParamSet K) :=
  (S.checkAliases aliases).bind fun _ => (checkMinMax lo hi).bind fun _ =>
  .ok { S with params := S.params ++ [⟨component, name, aliases, if mandatory then none else default, lo, hi, none⟩] }

/-- `add_data_parameter` (parameters.py:1320-1365). -/
def ParamSet.addData (S : ParamSet K) (name : String) (value lo hi : Option (Val K)) : Except Err (ParamSet K) :=
  (S.checkAliases (.names [name])).bind fun _ => (checkMinMax lo hi).bind fun _ =>
  .ok { S with params := S.params ++ [⟨"data", name, .names [name], value, lo, hi, none⟩] }

/-- `add_aliases` (parameters.py:898-918), with a list: the names are not checked; adding to a text is a type error. -/
def ParamSet.addAliases (S : ParamSet K) (parameter : String) (l : List String) : Except Err (ParamSet K) :=
  match S.find parameter with
  | none => .error .notFound
  | some j => match S.params[j]? with
    | none => .error .notFound
    | some p => match p.aliases with
      | .none => .ok { S with params := S.params.set j { p with aliases := .names l } }
      | .names m => .ok { S with params := S.params.set j { p with aliases := .names (m ++ l) } }
      | .text _ => .error .type

/-- `change_range` (parameters.py:920-946). -/
def ParamSet.changeRange (S : ParamSet K) (parameter : String) (lo hi : Option (Val K)) : Except Err (ParamSet K) :=
  match S.find parameter with
  | none => .error .notFound
  | some j => match S.params[j]? with
    | none => .error .notFound
    | some p => .ok { S with params := S.params.set j { p with lo := lo <|> p.lo, hi := hi <|> p.hi } }

/-- `set_transform` (parameters.py:948-988). -/
def ParamSet.setTransform (S : ParamSet K) (parameter : String) (f : (K → K) × (K → K)) : Except Err (ParamSet K) :=
  match S.find parameter with
  | none => .error .notFound
  | some j => match S.params[j]? with
    | none => .error .notFound
    | some p => match p.lo, p.value with
      | some (.list _), _ => .error .type
      | _, some (.list _) => .error .type
      | _, _ => .ok { S with params := S.params.set j { p with transform := some f } }

/-- `define_constraint` (parameters.py:1030-1050). -/
def ParamSet.constrain (S : ParamSet K) (a op b : String) : ParamSet K := { S with constraints := S.constraints ++ [(a, op, b)] }

/-- `remove_constraint` (parameters.py:1052-1078): the first one. -/
def ParamSet.unconstrain (S : ParamSet K) (a op b : String) : ParamSet K :=
  { S with constraints := S.constraints.eraseP fun c => a == c.1 && op == c.2.1 && b == c.2.2 }

/-- The number is above the maximum. -/
def above (v : Val K) : Option (Val K) → Except Err Bool
  | none => .ok false
  | some (.num h) => match v with
    | .num x => .ok (decide (h < x))
    | .list _ => .error .type
  | some (.list _) => .error .type

/-- The number is below the minimum. -/
def below (v : Val K) : Option (Val K) → Except Err Bool
  | none => .ok false
  | some (.num l) => match v with
    | .num x => .ok (decide (x < l))
    | .list _ => .error .type
  | some (.list _) => .error .type

/-- The loop over a list in `_check_value_range` (parameters.py:2244-2268): positions beyond the shortest list are not looked
at. -/
def checkList (adapt : Bool) : List K → List K → List K → Except Err (List K)
  | l :: ls, h :: hs, x :: xs =>
    if h < x ∧ adapt = false then .error .outOfRange
    else if x < l ∧ adapt = false then .error .outOfRange
    else (checkList adapt ls hs xs).map fun r => (if x < l then l else if h < x then h else x) :: r
  | _, _, xs => .ok xs

/-- `_check_value_range` (parameters.py:2188-2269). -/
def checkRange (adapt : Bool) (lo hi : Option (Val K)) (v : Val K) : Except Err (Val K) :=
  match lo with
  | some (.list ls) => match hi, v with
    | some (.list hs), .list xs => (checkList adapt ls hs xs).map .list
    | _, _ => .error .type
  | _ => (above v hi).bind fun a =>
    if a then if adapt then (match hi with
      | some h => .ok h
      | none => .ok v) else .error .outOfRange
    else (below v lo).bind fun b =>
      if b then if adapt then (match lo with
        | some l => .ok l
        | none => .ok v) else .error .outOfRange
      else .ok v

/-- The real value of a given one (parameters.py:1180-1184). -/
def real (transformed : Bool) (p : Param K) (v : Val K) : Except Err (Val K) :=
  if transformed then match p.transform with
    | none => .ok v
    | some f => match v with
      | .num x => .ok (.num (f.2 x))
      | .list _ => .error .type
  else .ok v

/-- One turn of the loop of `set_values` (parameters.py:1177-1190). -/
def ParamSet.setOne (S : ParamSet K) (check adapt transformed : Bool) (key : String) (v : Val K) : Except Err (ParamSet K) :=
  match S.find key with
  | none => .error .notFound
  | some j => match S.params[j]? with
    | none => .error .notFound
    | some p => (real transformed p v).bind fun w =>
      (if check then checkRange adapt p.lo p.hi w else .ok w).bind fun w' =>
      .ok { S with params := S.params.set j { p with value := some w' } }

/-- `set_values` (parameters.py:1152-1190): the table afterwards, and the exception if there was one. -/
def ParamSet.setValues (S : ParamSet K) (check adapt transformed : Bool) : List (String × Val K) → ParamSet K × Option Err
  | [] => (S, none)
  | (k, v) :: r => match S.setOne check adapt transformed k v with
    | .error e => (S, some e)
    | .ok S' => S'.setValues check adapt transformed r

/-- `get` (parameters.py:1229-1244). -/
def ParamSet.get (S : ParamSet K) (name : String) : Except Err (Option (Val K)) :=
  match (S.find name).bind fun j => S.params[j]? with
  | none => .error .notFound
  | some p => .ok p.value

/-- `get_transformed` (parameters.py:1246-1266). -/
def ParamSet.getTransformed (S : ParamSet K) (name : String) : Except Err (Option (Val K)) :=
  match (S.find name).bind fun j => S.params[j]? with
  | none => .error .notFound
  | some p => match p.transform, p.value with
    | none, v => .ok v
    | some f, some (.num x) => .ok (some (.num (f.1 x)))
    | some _, _ => .error .type

/-- The comparison of a constraint (parameters.py:1102-1115): an operator that is not known is not checked. -/
def holds (op : String) (x y : K) : Bool :=
  if op = ">" ∨ op = "gt" then !decide (x ≤ y)
  else if op = ">=" ∨ op = "ge" then !decide (x < y)
  else if op = "<" ∨ op = "lt" then !decide (y ≤ x)
  else if op = "<=" ∨ op = "le" then !decide (y < x)
  else true

/-- One constraint of `constraints_satisfied` (parameters.py:1089-1115). -/
def ParamSet.satisfies (S : ParamSet K) (c : String × String × String) : Except Err Bool :=
  if (S.find c.1).isNone ∨ (S.find c.2.2).isNone then .ok true
  else match S.get c.1, S.get c.2.2 with
    | .ok (some (.num x)), .ok (some (.num y)) => .ok (holds c.2.1 x y)
    | .ok none, .ok (some (.num _)) | .ok (some (.num _)), .ok none | .ok none, .ok none =>
      -- Python compares with None: an error for the operators that are known
      if c.2.1 ∈ [">", "gt", ">=", "ge", "<", "lt", "<=", "le"] then .error .type else .ok true
    | _, _ => .error .type

/-- `constraints_satisfied` (parameters.py:1080-1117). -/
def ParamSet.constraintsOk (S : ParamSet K) : List (String × String × String) → Except Err Bool
  | [] => .ok true
  | c :: r => (S.satisfies c).bind fun b => if b then S.constraintsOk r else .ok false

/-- The loop over a list in `range_satisfied` (parameters.py:1143-1148). -/
def listOk : List K → List K → List K → Bool
  | l :: ls, h :: hs, x :: xs => !decide (h < x) && !decide (x < l) && listOk ls hs xs
  | _, _, _ => true

/-- One row of `range_satisfied` (parameters.py:1128-1148). -/
def Param.rangeOk (p : Param K) : Except Err Bool :=
  match p.value with
  | none => .ok false
  | some v => match p.lo with
    | some (.list ls) => match p.hi, v with
      | some (.list hs), .list xs => .ok (listOk ls hs xs)
      | _, _ => .error .type
    | _ => (above v p.hi).bind fun a => if a then .ok false else (below v p.lo).bind fun b => .ok (!b)

/-- `range_satisfied` (parameters.py:1119-1150). -/
def rangesOk : List (Param K) → Except Err Bool
  | [] => .ok true
  | p :: r => p.rangeOk.bind fun b => if b then rangesOk r else .ok false

/-- `random.uniform(a, b)` from a draw between 0 and 1. -/
def uniform (a b r : K) : K := a + (b - a) * r

/-- The loop over a list in `set_random_values` (parameters.py:1419-1422), from position `i`: the value must be long enough. -/
def drawList (rnd : ℕ → K) : ℕ → List K → List K → List K → Except Err (List K)
  | i, l :: ls, h :: hs, _ :: xs => (drawList rnd (i + 1) ls hs xs).map fun r => uniform l h (rnd i) :: r
  | _, _ :: _, _ :: _, [] => .error .index
  | _, _, _, xs => .ok xs

/-- The value drawn for a row (parameters.py:1412-1426). -/
def drawValue (rnd : ℕ → K) (p : Param K) : Except Err (Val K) :=
  match p.lo, p.hi with
  | some (.num l), some (.num h) => .ok (.num (uniform l h (rnd 0)))
  | some (.list ls), some (.list hs) => match p.value with
    | none => (drawList rnd 0 ls hs (ls.map fun _ => 0)).map .list
    | some (.list xs) => (drawList rnd 0 ls hs xs).map .list
    | some (.num _) => .error .type
  | _, _ => .error .type

/-- One turn of the inner loop of `set_random_values` (parameters.py:1411-1433). -/
def ParamSet.drawOne (S : ParamSet K) (rnd : ℕ → K) (key : String) : Except Err (ParamSet K) :=
  match S.find key with
  | none => .error .notFound
  | some j => match S.params[j]? with
    | none => .error .notFound
    | some p => (drawValue rnd p).bind fun w => .ok { S with params := S.params.set j { p with value := some w } }

/-- One try: all keys in turn, `rnd k` being the draws for the `k`-th. -/
def ParamSet.drawAll (S : ParamSet K) (rnd : ℕ → ℕ → K) : ℕ → List String → ParamSet K × Option Err
  | _, [] => (S, none)
  | k, key :: r => match S.drawOne (rnd k) key with
    | .error e => (S, some e)
    | .ok S' => S'.drawAll rnd (k + 1) r

/-- The outer loop of `set_random_values` (parameters.py:1410-1443) at turn `i` with `fuel` turns left; `rnd i` are the draws
of turn `i`. -/
def ParamSet.randomLoop (S : ParamSet K) (rnd : ℕ → ℕ → ℕ → K) (keys : List String) : ℕ → ℕ → ParamSet K × Option Err
  | _, 0 => (S, none)
  | i, fuel + 1 => match S.drawAll (rnd i) 0 keys with
    | (S', some e) => (S', some e)
    | (S', none) => match S'.constraintsOk S'.constraints with
      | .error e => (S', some e)
      | .ok true => (S', none)
      | .ok false => if 1000 ≤ i then (S', some .unsatisfied) else S'.randomLoop rnd keys (i + 1) fuel

/-- `set_random_values` (parameters.py:1384-1445). -/
def ParamSet.setRandom (S : ParamSet K) (rnd : ℕ → ℕ → ℕ → K) (keys : List String) : ParamSet K × Option Err :=
  S.randomLoop rnd keys 0 1100

/-- The beginning of a calibration run (trainer.py:983-1003): `some` = the models are run with these parameters, `none` = the run
is skipped. -/
def ParamSet.calibrationRun (S : ParamSet K) (sample : List (String × Val K)) : Except Err (Option (ParamSet K)) :=
  match S.setValues false false true sample with
  | (_, some e) => .error e
  | (S', none) => (S'.constraintsOk S'.constraints).bind fun b =>
    if b then (rangesOk S'.params).bind fun c => .ok (if c then some S' else none) else .ok none

/-- `get_model_parameters` (parameters.py:1309-1318) and the loop of `_set_parameter_values` (model.py:1327-1333): what is given
to the settings of the model. -/
def ParamSet.given (S : ParamSet K) : List (String × String × Option (Val K)) :=
  (S.params.filter fun p => p.component != "data").map fun p => (p.component, p.name, p.value)

end
end HB.PSet
