import Verif.Model.LandCover
import Verif.Model.UnitProps
import Verif.Model.Series

/-!
# Setting up the basin

Model of `SettingsBasin` (SettingsBasin.cpp:11-66, 143-150), `SubBasin::BuildBasin`, `AssignFractions`, `IsValid`,
`AddHydroUnit`, `GetHydroUnitById` (SubBasin.cpp:28-100, 128-143, 176-182, 201-208), of the property access of a hydro
unit (HydroUnit.cpp:116-160) and of the total of a forcing over the basin (TimeSeriesDistributed.cpp:45-67).

Not modelled: `SettingsBasin::Parse` (NetCDF).  The list of surface components of a unit has no writer in the code, so
its loop (SubBasin.cpp:84-95) never runs and is left out.
-/

namespace HB.Basin

/-- Outcome of a set-up call: done, refused (error result or exception), or undefined behaviour (null pointer or index
out of range, the asserts being compiled out). -/
inductive Out (α : Type) | ok (a : α) | refused | undef
  deriving DecidableEq, Repr

/-- Sequencing. -/
def Out.bind {α β : Type} (x : Out α) (f : α → Out β) : Out β :=
  match x with | .ok a => f a | .refused => .refused | .undef => .undef

/-- `LandCoverSettings` (SettingsBasin.h:7-11). -/
structure CoverDecl (K : Type) where
  name : String
  type : String
  fraction : K
  deriving DecidableEq, Repr

/-- `HydroUnitPropertyDouble` (SettingsBasin.h:19-23). -/
structure PropD (K : Type) where
  name : String
  value : K
  unit : String
  deriving DecidableEq, Repr

/-- `HydroUnitPropertyString` (SettingsBasin.h:25-28). -/
structure PropS where
  name : String
  value : String
  deriving DecidableEq, Repr

/-- `HydroUnitSettings` (SettingsBasin.h:30-38). -/
structure UnitDecl (K : Type) where
  id : ℤ
  area : K
  elevation : K
  covers : List (CoverDecl K)
  propsD : List (PropD K)
  propsS : List PropS
  deriving DecidableEq, Repr

/-- `LateralConnectionSettings` (SettingsBasin.h:40-45). -/
structure LatDecl (K : Type) where
  giver : ℤ
  receiver : ℤ
  fraction : K
  type : String
  deriving DecidableEq, Repr

/-- The members of `SettingsBasin` (SettingsBasin.h:203-206); the selected unit is a position (`_selectedHydroUnit`). -/
structure Decl (K : Type) where
  units : List (UnitDecl K)
  laterals : List (LatDecl K)
  selected : Option ℕ
  deriving DecidableEq, Repr

/-- A new `SettingsBasin` (SettingsBasin.cpp:6-7). -/
def Decl.empty {K : Type} : Decl K := ⟨[], [], none⟩

/-- The calls of `SettingsBasin`. -/
inductive Cmd (K : Type)
  | unit (id : ℤ) (area elevation : K)
  | cover (name type : String) (fraction : K)
  | propD (name : String) (value : K) (unit : String)
  | propS (name value : String)
  | lateral (giver receiver : ℤ) (fraction : K) (type : String)
  | clear
  | select (index : ℕ)
  deriving DecidableEq, Repr

/-- A call on the selected unit (the asserts of SettingsBasin.cpp:21, 31, 41 are compiled out: without a selected unit
the null pointer is dereferenced). -/
def Decl.onSelected {K : Type} (d : Decl K) (f : UnitDecl K → UnitDecl K) : Out (Decl K) :=
  match d.selected with
  | none => .undef
  | some i => if i < d.units.length then .ok { d with units := d.units.modify i f } else .undef

/-- One call (SettingsBasin.cpp:11-66). -/
def Decl.step {K : Type} (d : Decl K) : Cmd K → Out (Decl K)
  | .unit id area elevation =>
    .ok { d with units := d.units ++ [⟨id, area, elevation, [], [], []⟩], selected := some d.units.length }
  | .cover n t f => d.onSelected fun u => { u with covers := u.covers ++ [⟨n, t, f⟩] }
  | .propD n v un => d.onSelected fun u => { u with propsD := u.propsD ++ [⟨n, v, un⟩] }
  | .propS n v => d.onSelected fun u => { u with propsS := u.propsS ++ [⟨n, v⟩] }
  | .lateral g r f t => .ok { d with laterals := d.laterals ++ [⟨g, r, f, t⟩] }
  | .clear => .ok { d with units := [], selected := none }
  | .select i => if i < d.units.length then .ok { d with selected := some i } else .undef

/-- A sequence of calls. -/
def Decl.run {K : Type} (d : Decl K) : List (Cmd K) → Out (Decl K)
  | [] => .ok d
  | c :: l => (d.step c).bind fun d' => d'.run l

/-- A property of a built unit (HydroUnitProperty.cpp:5-17): string properties have a NaN value (`none`) and no unit. -/
structure Property (K : Type) where
  name : String
  value : Option K
  unit : String
  text : String
  deriving DecidableEq, Repr

/-- A built hydro unit, as far as the basin settings determine it. -/
structure BUnit (K : Type) where
  id : ℤ
  area : K
  props : List (Property K)
  laterals : List (LatConn K)
  deriving DecidableEq, Repr

/-- A built sub-basin: the units in order and `_area`. -/
structure Basin (K : Type) where
  units : List (BUnit K)
  area : K
  deriving DecidableEq, Repr

/-- `HydroUnit::SetProperties` (HydroUnit.cpp:116-130). -/
def properties {K : Type} (u : UnitDecl K) : List (Property K) :=
  u.propsD.map (fun p => ⟨p.name, some p.value, p.unit, ""⟩) ++ u.propsS.map (fun p => ⟨p.name, none, "", p.value⟩)

/-- `_hydroUnitMap` (SubBasin.cpp:176-182, 201-208): the last unit added with that id. -/
def Basin.find {K : Type} (b : Basin K) (id : ℤ) : Option ℕ :=
  let rec go : List (BUnit K) → ℕ → Option ℕ → Option ℕ
    | [], _, acc => acc
    | u :: l, i, acc => go l (i + 1) (if u.id = id then some i else acc)
  go b.units 0 none

section
variable {K : Type} [Field K] [LinearOrder K] [IsStrictOrderedRing K]

/-- `SubBasin::AddHydroUnit` for one declared unit (SubBasin.cpp:33-40, 176-182). -/
def Basin.addUnit (b : Basin K) (u : UnitDecl K) : Basin K :=
  ⟨b.units ++ [⟨u.id, u.area, properties u, []⟩], b.area + u.area⟩

/-- One declared connection (SubBasin.cpp:44-53): unknown ids are only logged; a bad fraction throws. -/
def Basin.addConn (b : Basin K) (l : LatDecl K) : Out (Basin K) :=
  match b.find l.giver, b.find l.receiver with
  | some g, some r =>
    match b.units[g]? with
    | none => .undef
    | some u =>
      match addLateral u.laterals r l.fraction l.type with
      | none => .refused
      | some ls => .ok { b with units := b.units.set g { u with laterals := ls } }
  | _, _ => .ok b

/-- The connections one after the other (SubBasin.cpp:44-53). -/
def Basin.addConns (b : Basin K) : List (LatDecl K) → Out (Basin K)
  | [] => .ok b
  | l :: ls => (b.addConn l).bind fun b' => b'.addConns ls

/-- `SubBasin::Initialize` / `BuildBasin` (SubBasin.cpp:18-54). -/
def build (d : Decl K) : Out (Basin K) := (d.units.foldl Basin.addUnit ⟨[], 0⟩).addConns d.laterals

end

/-- `HydroUnit::GetPropertyDouble` (HydroUnit.cpp:137-145): `none` = exception, `some none` = NaN.  A string property has
the value NaN, whatever the conversion. -/
noncomputable def BUnit.getDouble (u : BUnit ℝ) (name unit : String) : Option (Option ℝ) :=
  (u.props.find? fun p => p.name == name).map fun p => p.value.bind fun v => propValue p.unit v unit

/-- `HydroUnit::GetPropertyString` (HydroUnit.cpp:151-159). -/
def BUnit.getString {K : Type} (u : BUnit K) (name : String) : Option String :=
  (u.props.find? fun p => p.name == name).map (·.text)

section
variable {K : Type} [Field K] [LinearOrder K] [IsStrictOrderedRing K]

/-- The extents of a unit: its covers (`hu`), the initial extents (`_initialAreaFraction`), the names of its bricks that
are not land covers, and whether its bricks and splitters are valid (HydroUnit.cpp:286-291, not modelled here). -/
structure Ground (K : Type) where
  hu : HU K
  init : String → K
  others : List String
  partsOk : Bool

/-- A unit as it leaves `BuildModelStructure`: every cover has the extent 1 (LandCover.cpp:6-10). -/
def Ground.fresh (covers others : List String) (partsOk : Bool) : Ground K :=
  ⟨⟨covers, fun _ => 1, fun _ _ => none⟩, fun _ => 1, others, partsOk⟩

/-- One declared cover (SubBasin.cpp:68-82): skipped if the unit has no brick of that name; a brick of that name that is
not a land cover is a failed `dynamic_cast`, dereferenced. -/
def Ground.assign (g : Ground K) (c : CoverDecl K) : Out (Ground K) :=
  if c.name ∈ g.hu.covers then
    .ok { g with hu := g.hu.setFrac c.name c.fraction, init := Function.update g.init c.name c.fraction }
  else if c.name ∈ g.others then .undef
  else .ok g

/-- The covers of one unit (SubBasin.cpp:68-82). -/
def Ground.assignAll (g : Ground K) : List (CoverDecl K) → Out (Ground K)
  | [] => .ok g
  | c :: l => (g.assign c).bind fun g' => g'.assignAll l

/-- `SubBasin::AssignFractions` (SubBasin.cpp:57-100). -/
def assignFractions : List (UnitDecl K) → List (Ground K) → Out (List (Ground K))
  | u :: us, g :: gs =>
    (g.assignAll u.covers).bind fun g' => (assignFractions us gs).bind fun gs' => .ok (g' :: gs')
  | [], gs => .ok gs
  | _ :: _, [] => .undef

/-- `HydroUnit::IsValid` (HydroUnit.cpp:285-324), which also corrects the extents. -/
def Ground.validate (area : K) (g : Ground K) : Bool × Ground K :=
  if g.partsOk = false then (false, g)
  else if area ≤ 0 then (false, g)
  else (g.hu.validate.1, { g with hu := g.hu.validate.2 })

/-- Units one after the other, until the first invalid one (SubBasin.cpp:133-135). -/
def validateAll : List (K × Ground K) → Bool × List (K × Ground K)
  | [] => (true, [])
  | (a, g) :: l =>
    if (g.validate a).1 then ((validateAll l).1, (a, (g.validate a).2) :: (validateAll l).2)
    else (false, (a, (g.validate a).2) :: l)

/-- Assignment of the extents and validation, as in `ModelHydro::Initialize` (ModelHydro.cpp:60-66; SubBasin.cpp:128-143;
the sub-basin's own bricks and splitters are summed up by `basinPartsOk`).  `grounds` are the units of the model as built. -/
def initialise (d : Decl K) (grounds : List (Ground K)) (basinPartsOk : Bool) : Out (List (Ground K)) :=
  (assignFractions d.units grounds).bind fun gs =>
    if gs = [] then .refused
    else
      let r := validateAll ((d.units.map (·.area)).zip gs)
      if r.1 && basinPartsOk then .ok (r.2.map (·.2)) else .refused

/-- `HydroUnit::RestoreInitialAreaFractions` (SubBasin.cpp:122-126, LandCover.h): also part of `Reset`
(LandCover.cpp:13-19). -/
def Ground.restore (g : Ground K) : Ground K := { g with hu := { g.hu with frac := g.init } }

/-- `TimeSeriesDistributed::GetTotal` (TimeSeriesDistributed.cpp:45-56) with `GetTotalArea` (SettingsBasin.cpp:143-150);
`none` = exception (a unit without data). -/
def seriesTotal (d : Decl K) (s : DSeries K) : Option K :=
  let areaTotal := (d.units.map (·.area)).foldl (· + ·) 0
  d.units.foldlM (fun total u => (s.dataFor u.id).map fun r => total + r.values.foldl (· + ·) 0 * u.area / areaTotal) 0

end

end HB.Basin
