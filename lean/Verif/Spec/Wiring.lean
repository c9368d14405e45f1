import Verif.Model.Wiring
import Verif.Spec.Names

/-!
# What a declared structure means

Independent of the builder: which component a target name denotes, which structures are well formed.
-/

namespace HB.Spec

open HB.Names HB.Wire

variable {K : Type}

/-- The positions recorded for land covers and surface components are those of distinct declared bricks. -/
def Indexed (s : Struct) : Prop := (s.surfaces ++ s.covers).Nodup ∧ ∀ i ∈ s.surfaces ++ s.covers, i < s.unitBricks.length

/-- No name is used twice among the unit bricks, nor among the unit splitters. -/
def DistinctUnit (s : Struct) : Prop :=
  Indexed s ∧ (s.unitBricks.map (·.name)).Nodup ∧ (s.unitSplits.map (·.name)).Nodup

/-- No name is used twice within a unit or within the sub-basin (a unit may reuse a sub-basin name). -/
def Distinct (inp : Input K) : Prop :=
  (∀ un ∈ inp.units, DistinctUnit un.str) ∧ (inp.basin.basinBricks.map (·.name)).Nodup ∧
    (inp.basin.basinSplits.map (·.name)).Nodup

/-- The brick a name denotes for a component of unit `u`: the unit's own, else the sub-basin's. -/
inductive BrickNamed (inp : Input K) (u : ℕ) (un : UnitIn K) (t : String) : Comp → Brick → Prop
  | own {i b} : un.str.unitBricks[i]? = some b → b.name = t → BrickNamed inp u un t (.unitBrick u i) b
  | basin {i b} : (∀ b' ∈ un.str.unitBricks, b'.name ≠ t) → inp.basin.basinBricks[i]? = some b → b.name = t →
      BrickNamed inp u un t (.basinBrick i) b

/-- The splitter a name denotes for a component of unit `u`. -/
inductive SplitNamed (inp : Input K) (u : ℕ) (un : UnitIn K) (t : String) : Comp → Prop
  | own {i s} : un.str.unitSplits[i]? = some s → s.name = t → SplitNamed inp u un t (.unitSplit u i)
  | basin {i s} : (∀ s' ∈ un.str.unitSplits, s'.name ≠ t) → inp.basin.basinSplits[i]? = some s → s.name = t →
      SplitNamed inp u un t (.basinSplit i)

/-- The destination a target name denotes for a component of unit `u`: the outlet, else a brick, else a splitter. -/
inductive Denotes (inp : Input K) (u : ℕ) (un : UnitIn K) (t : String) : Dest → Prop
  | outlet : t = "outlet" → Denotes inp u un t .outlet
  | brick {c b} : t ≠ "outlet" → BrickNamed inp u un t c b → Denotes inp u un t (.comp c)
  | split {c} : t ≠ "outlet" → (∀ c b, ¬ BrickNamed inp u un t c b) → SplitNamed inp u un t c → Denotes inp u un t (.comp c)

/-- The destination a target name denotes for a component of the sub-basin. -/
inductive DenotesBasin (inp : Input K) (t : String) : Dest → Prop
  | outlet : t = "outlet" → DenotesBasin inp t .outlet
  | brick {i b} : t ≠ "outlet" → inp.basin.basinBricks[i]? = some b → b.name = t → DenotesBasin inp t (.comp (.basinBrick i))
  | split {i s} : t ≠ "outlet" → (∀ b ∈ inp.basin.basinBricks, b.name ≠ t) → inp.basin.basinSplits[i]? = some s →
      s.name = t → DenotesBasin inp t (.comp (.basinSplit i))

/-- The destination lies outside the unit: the amount is spread over the whole basin area. -/
def LeavesUnit : Dest → Prop
  | .outlet => True
  | .comp (.basinBrick _) => True
  | .comp (.basinSplit _) => True
  | _ => False

/-- Names of the processes that release water to the atmosphere. -/
def atmosphereNames : List String :=
  ["et:socont", "et:gr4j", "et:hbv", "et:open_water", "et:linear", "et:power_law", "et:exponential", "interception:gr4j",
   "sublimation:constant", "sublimation:pet"]

/-- Names of the processes that need the state of the brick they feed. -/
def infiltrationNames : List String := ["infiltration:socont", "infiltration:gr4j", "infiltration:hbv"]

/-- Names of the lateral transport processes. -/
def lateralNames : List String :=
  ["transport:snow_slide", "transport:snow_redistribution_frey", "transport:snow_redistribution_frey_dynamic"]

/-- Names of the brick types that hold snow, ice, and of those attached to a fraction of the unit. -/
def fractionTypes : List String :=
  ["generic_land_cover", "ground", "generic", "open", "glacier", "snowpack", "interception_storage"]

/-- The contents a brick type takes in. -/
def Takes (type : String) (c : Content) : Prop :=
  c = .water ∨ (c = .snow ∧ type = "snowpack") ∨ (c = .ice ∧ type = "glacier")

/-- The flux `f` made for output `o` of a process of brick `b` of unit `u`: it goes where the name says, carries the declared
content, is spread over the basin area when it leaves the unit, and is weighted by the extent of `b` exactly when `b` covers
a fraction of the unit and the destination does not. -/
structure Wired [Field K] (inp : Input K) (u : ℕ) (un : UnitIn K) (b : Brick) (o : Out) (f : Flux K) : Prop where
  dest : Denotes inp u un o.target f.dst
  content : f.content = o.content
  leaving : LeavesUnit f.dst → f.unitFrac = un.area / (inp.units.map (·.area)).sum
  staying : ¬ LeavesUnit f.dst → f.unitFrac = 1
  weighted : f.weighted = true ↔
    b.type ∈ fractionTypes ∧ ∀ c b', f.dst = .comp c → BrickNamed inp u un o.target c b' → b'.type ∉ fractionTypes
  inst : f.inst = true ↔ o.inst = true ∧ ∃ c b', f.dst = .comp c ∧ BrickNamed inp u un o.target c b'
  static : f.static = true ↔
    LeavesUnit f.dst ∨ (∀ c b', ¬ BrickNamed inp u un o.target c b') ∨ o.static = true
  share : f.share = 1

/-- The flux `f` made for output `o` of a splitter of unit `u`: never weighted by an extent, and not limited by what it feeds. -/
structure WiredSplit [Field K] (inp : Input K) (u : ℕ) (un : UnitIn K) (o : Out) (f : Flux K) : Prop where
  dest : Denotes inp u un o.target f.dst
  content : f.content = o.content
  leaving : LeavesUnit f.dst → f.unitFrac = un.area / (inp.units.map (·.area)).sum
  staying : ¬ LeavesUnit f.dst → f.unitFrac = 1
  weighted : f.weighted = false
  inst : f.inst = false
  static : f.dst ≠ .outlet → f.static = true
  share : f.share = 1

/-- A flux to the atmosphere: water, expressed over the area of the brick it leaves. -/
structure ToAir [Field K] (f : Flux K) : Prop where
  dest : f.dst = .atmosphere
  content : f.content = .water
  unweighted : f.unitFrac = 1 ∧ f.weighted = false
  inst : f.inst = false

/-- The flux `f` made for output `o` of a component of the sub-basin: never weighted. -/
structure WiredBasin [Field K] (inp : Input K) (o : Out) (f : Flux K) : Prop where
  dest : DenotesBasin inp o.target f.dst
  content : f.content = o.content
  inst : f.inst = true → o.inst = true ∧ ∃ i, f.dst = .comp (.basinBrick i)
  whole : f.unitFrac = 1 ∧ f.share = 1 ∧ f.weighted = false

/-- The snowpacks of a unit, by position. -/
def snowpacksOf (s : Struct) : List ℕ :=
  (List.range s.unitBricks.length).filter fun i => decide ((s.unitBricks[i]?.map (·.type)) = some "snowpack")

/-- The kind of stores a brick type has besides water. -/
def kindOf (type : String) : Category := if type = "snowpack" then .snowpack else if type = "glacier" then .glacier else .other

/-- The brick type is known, and each process is a known one working on a store the brick has. -/
def BrickOK (b : Brick) : Prop :=
  (∃ c, b.type ∈ brickNames c) ∧
    ∀ p ∈ b.procs, ∃ pc st, p.type ∈ processNames pc ∧ storeFor pc (kindOf b.type) = some st

/-- A lateral output can be made: every connection leads to an existing unit, snow is moved, by a lateral process. -/
def LateralOK (inp : Input K) (un : UnitIn K) (p : Proc) (o : Out) : Prop :=
  ∀ cn ∈ un.lateral, ∃ r, inp.units[cn.1]? = some r ∧ o.content = .snow ∧ (snowpacksOf r.str ≠ [] → p.type ∈ lateralNames)

/-- The target exists and takes the content. -/
def NamedOK (inp : Input K) (u : ℕ) (un : UnitIn K) (o : Out) : Prop :=
  (∃ c b, BrickNamed inp u un o.target c b ∧ Takes b.type o.content) ∨
    ((∀ c b, ¬ BrickNamed inp u un o.target c b) ∧ ∃ c, SplitNamed inp u un o.target c)

/-- The target exists in the sub-basin and takes the content. -/
def BasinOutOK (inp : Input K) (o : Out) : Prop :=
  o.target = "outlet" ∨ (∃ b ∈ inp.basin.basinBricks, b.name = o.target ∧ Takes b.type o.content) ∨
    ((∀ b ∈ inp.basin.basinBricks, b.name ≠ o.target) ∧ ∃ s ∈ inp.basin.basinSplits, s.name = o.target)

/-- The declared structure of a unit can be built. -/
structure UnitWF (inp : Input K) (u : ℕ) (un : UnitIn K) : Prop where
  bricks : ∀ b ∈ un.str.unitBricks, BrickOK b
  splits : ∀ s ∈ un.str.unitSplits, ∃ c, s.type ∈ splitterNames c
  parents : ∀ i ∈ un.str.surfaces, ∀ b, un.str.unitBricks[i]? = some b →
    b.parent = "" ∨ ∃ b' ∈ un.str.unitBricks, b'.name = b.parent
  outs : ∀ b ∈ un.str.unitBricks, ∀ p ∈ b.procs, p.type ∉ atmosphereNames → ∀ o ∈ p.outs,
    o.target = "outlet" ∨ (o.target = "lateral" ∧ LateralOK inp un p o) ∨ (o.target ≠ "lateral" ∧ NamedOK inp u un o)
  splitOuts : ∀ s ∈ un.str.unitSplits, ∀ o ∈ s.outs, o.target = "outlet" ∨ NamedOK inp u un o
  linked : ∀ b ∈ un.str.unitBricks, ∀ p ∈ b.procs, p.type ∈ infiltrationNames →
    ∃ o c b', p.outs = [o] ∧ BrickNamed inp u un o.target c b'
  fanned : ∀ b ∈ un.str.unitBricks, ∀ p ∈ b.procs, p.type = "capillary:hbv" →
    ∀ o ∈ p.outs, ∃ c b', BrickNamed inp u un o.target c b'

/-- The declared structure can be built. -/
structure WellFormed (inp : Input K) : Prop where
  units : ∀ u un, inp.units[u]? = some un → UnitWF inp u un
  bricks : ∀ b ∈ inp.basin.basinBricks, BrickOK b
  splits : ∀ s ∈ inp.basin.basinSplits, ∃ c, s.type ∈ splitterNames c
  outs : ∀ b ∈ inp.basin.basinBricks, ∀ p ∈ b.procs, p.type ∉ atmosphereNames → ∀ o ∈ p.outs, BasinOutOK inp o
  splitOuts : ∀ s ∈ inp.basin.basinSplits, ∀ o ∈ s.outs, BasinOutOK inp o
  linked : ∀ b ∈ inp.basin.basinBricks, ∀ p ∈ b.procs, p.type ∈ infiltrationNames →
    ∃ o, p.outs = [o] ∧ ∃ b' ∈ inp.basin.basinBricks, b'.name = o.target
  noCapillary : ∀ b ∈ inp.basin.basinBricks, ∀ p ∈ b.procs, p.type ≠ "capillary:hbv"

end HB.Spec
