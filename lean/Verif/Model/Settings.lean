import Mathlib.Data.List.Basic
import Mathlib.Data.List.Infix

/-!
# Model settings: structure variants and their parameters

Model of the part of `SettingsModel` (core/src/base/SettingsModel.h:22-67) that holds the structure variants, and of
`SetParameterValue` with the selection functions it uses.  Parameter values are of any type `V` (floats in the code).
Not modelled: parents of surface components, forcings, outputs and modifiers, which these functions never touch.
-/

set_option linter.unusedSectionVars false

namespace HB

/-- `ProcessSettings` (SettingsModel.h:31-38). -/
structure ProcSet (V : Type) where
  name : String
  type : String
  params : List (String × V)
  logs : List String
  deriving DecidableEq, Repr

/-- `BrickSettings` (SettingsModel.h:49-58). -/
structure BrickSet (V : Type) where
  name : String
  type : String
  params : List (String × V)
  procs : List (ProcSet V)
  logs : List String
  deriving DecidableEq, Repr

/-- `SplitterSettings` (SettingsModel.h:40-47). -/
structure SplitSet (V : Type) where
  name : String
  type : String
  params : List (String × V)
  logs : List String
  deriving DecidableEq, Repr

/-- `ModelStructure` (SettingsModel.h:60-69). -/
structure Variant (V : Type) where
  id : ℤ
  logs : List String
  unitBricks : List (BrickSet V)
  basinBricks : List (BrickSet V)
  coverIdx : List ℕ
  unitSplits : List (SplitSet V)
  basinSplits : List (SplitSet V)
  deriving DecidableEq, Repr

/-- `SettingsModel::_modelStructures` and the position of `_selectedStructure`. -/
structure Settings (V : Type) where
  variants : List (Variant V)
  sel : ℕ
  deriving DecidableEq, Repr

/-- Outcome of a call that may throw: the settings are left as they are at the throw. -/
inductive SetOut (S : Type) where
  | ret (b : Bool) (s : S)
  | thrown (s : S)
  deriving DecidableEq, Repr

/-- Change the first element satisfying `p` (the loops with `return` of SettingsModel.cpp:127-132, 236-241, 346-351,
683-707, 746-755, 772-794). -/
def updFirst {α : Type} (p : α → Bool) (f : α → α) : List α → List α
  | [] => []
  | a :: l => if p a then f a :: l else a :: updFirst p f l

section
variable {V : Type}

/-- Loop of `BrickHasParameter` (SettingsModel.cpp:143-152) and of `SelectProcessWithParameter`. -/
def hasParam (n : String) (l : List (String × V)) : Bool := l.any fun e => e.1 == n

/-- `parameter.SetValue(value)` on the first parameter of that name (SettingsModel.cpp:127-132, 236-241, 346-351). -/
def setFirst (n : String) (v : V) (l : List (String × V)) : List (String × V) :=
  updFirst (fun e => e.1 == n) (fun e => (e.1, v)) l

/-- SettingsModel.cpp:971-976: the brick's own parameter if there is one (`BrickHasParameter`, `SetBrickParameterValue`
119-136), else that of the first process with one (`SelectProcessWithParameter` 746-758, `SetProcessParameterValue`
228-245); `none`: thrown. -/
def BrickSet.setParam (n : String) (v : V) (b : BrickSet V) : Option (BrickSet V) :=
  if hasParam n b.params then some { b with params := setFirst n v b.params }
  else if b.procs.any (fun p => hasParam n p.params) then
    some { b with procs := updFirst (fun p => hasParam n p.params) (fun p => { p with params := setFirst n v p.params }) b.procs }
  else none

/-- Select the first brick named `c` and set its parameter; `none`: no such brick (`SelectHydroUnitBrick`,
SettingsModel.cpp:709-714) or no such parameter, both thrown. -/
def setInBricks (c n : String) (v : V) (l : List (BrickSet V)) : Option (List (BrickSet V)) :=
  match (l.find? fun b => b.name == c).bind (BrickSet.setParam n v) with
  | none => none
  | some _ => some (updFirst (fun b => b.name == c) (fun b => (b.setParam n v).getD b) l)

/-- Select the first splitter named `c` and `SetSplitterParameterValue` (SettingsModel.cpp:338-355). -/
def setInSplits (c n : String) (v : V) (l : List (SplitSet V)) : Option (List (SplitSet V)) :=
  match (l.find? fun s => s.name == c) with
  | none => none
  | some s =>
    if hasParam n s.params then
      some (updFirst (fun s => s.name == c) (fun s => { s with params := setFirst n v s.params }) l)
    else none

/-- `BrickTypeFromString` restricted to the question asked at SettingsModel.cpp:992-995 (BrickTypes.cpp:7-19). -/
def isLandCoverType (t : String) : Bool :=
  t == "generic_land_cover" || t == "ground" || t == "generic" || t == "open" || t == "glacier"

/-- The lambda `typeMatches` (SettingsModel.cpp:988-997). -/
def typeMatches (type brickType : String) : Bool :=
  brickType == type || (type == "land_cover" && isLandCoverType brickType)

/-- The two loops of SettingsModel.cpp:1000-1023 for the given brick names, in order; both select among the hydro unit
bricks.  The flag tells whether the end was reached without throwing. -/
def typeLoop (n : String) (v : V) : List String → List (BrickSet V) → Bool × List (BrickSet V)
  | [], bs => (true, bs)
  | c :: cs, bs =>
    match setInBricks c n v bs with
    | none => (false, bs)
    | some bs' => typeLoop n v cs bs'

/-- `component.find("type:") != npos` (SettingsModel.cpp:981). -/
def hasType (c : String) : Bool := decide ("type:".toList <:+: c.toList)

/-- `component.substr(component.find(':') + 1)` (SettingsModel.cpp:982). -/
def typeOf (c : String) : String := String.ofList ((c.toList.dropWhile (fun ch => ch != ':')).drop 1)

/-- `SetParameterValueInSelectedStructure` (SettingsModel.cpp:968-1032). -/
def Variant.setParam (c n : String) (v : V) (s : Variant V) : SetOut (Variant V) :=
  if s.unitBricks.any (fun b => b.name == c) then
    match setInBricks c n v s.unitBricks with
    | some bs => .ret true { s with unitBricks := bs }
    | none => .thrown s
  else if s.basinBricks.any (fun b => b.name == c) then
    match setInBricks c n v s.basinBricks with
    | some bs => .ret true { s with basinBricks := bs }
    | none => .thrown s
  else if s.unitSplits.any (fun b => b.name == c) then
    match setInSplits c n v s.unitSplits with
    | some bs => .ret true { s with unitSplits := bs }
    | none => .thrown s
  else if s.basinSplits.any (fun b => b.name == c) then
    match setInSplits c n v s.basinSplits with
    | some bs => .ret true { s with basinSplits := bs }
    | none => .thrown s
  else if hasType c then
    let names := ((s.unitBricks ++ s.basinBricks).filter fun b => typeMatches (typeOf c) b.type).map fun b => b.name
    let r := typeLoop n v names s.unitBricks
    if r.1 then .ret true { s with unitBricks := r.2 } else .thrown { s with unitBricks := r.2 }
  else .ret false s

/-- The loop over the variants (SettingsModel.cpp:950-958): result, `foundAny`, and the position of the variant at which
something was thrown, if any. -/
def loopVariants (c n : String) (v : V) : ℕ → List (Variant V) → List (Variant V) × Bool × Option ℕ
  | _, [] => ([], false, none)
  | i, s :: ss =>
    match s.setParam c n v with
    | .thrown s' => (s' :: ss, false, some i)
    | .ret b s' =>
      let r := loopVariants c n v (i + 1) ss
      (s' :: r.1, b || r.2.1, r.2.2)

/-- `SettingsModel::SelectStructure` (SettingsModel.cpp:653-667): position of the first variant with that id, if any. -/
def selectId (id : ℤ) (l : List (Variant V)) : Option ℕ := l.findIdx? fun s => s.id == id

/-- `SetParameterValue` for one component (SettingsModel.cpp:945-966).  After a throw the selection stays on the variant
where it happened. -/
def setOne (c n : String) (v : V) (S : Settings V) : SetOut (Settings V) :=
  let prev := (S.variants[S.sel]?).map fun s => s.id
  let r := loopVariants c n v 0 S.variants
  match r.2.2 with
  | some i => .thrown { variants := r.1, sel := i }
  | none => .ret r.2.1 { variants := r.1, sel := ((prev.bind fun id => selectId id r.1).getD (r.1.length - 1)) }

/-- Leading and trailing blanks removed (SettingsModel.cpp:931-932). -/
def trimBlanks (l : List Char) : List Char :=
  (((l.dropWhile fun ch => ch == ' ').reverse).dropWhile fun ch => ch == ' ').reverse

/-- The components of a comma-separated list (SettingsModel.cpp:926-935). -/
def tokens (c : String) : List String :=
  (((c.toList.splitOn ',').map trimBlanks).filter fun t => !t.isEmpty).map String.ofList

/-- The loop over the list (SettingsModel.cpp:936-942). -/
def setList (n : String) (v : V) : List String → Settings V → SetOut (Settings V)
  | [], S => .ret true S
  | c :: cs, S =>
    match setOne c n v S with
    | .thrown S' => .thrown S'
    | .ret false S' => .ret false S'
    | .ret true S' => setList n v cs S'

/-- `SettingsModel::SetParameterValue` (SettingsModel.cpp:923-966). -/
def setParameterValue (c n : String) (v : V) (S : Settings V) : SetOut (Settings V) :=
  if ',' ∈ c.toList then setList n v (tokens c) S else setOne c n v S

end

end HB
