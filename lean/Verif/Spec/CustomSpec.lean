import Verif.Model.CustomSpec

/-! # What a declared structure must look like

Only the type of the values, the lookup in a mapping (`get`) and the types of the generator's descriptions are those of the model.
-/

namespace HB.Spec.Custom

open HB.Custom (Val get)

def Field (d : List (String × Val)) (k : String) (v : Val) : Prop := get d k = some v
def Absent (d : List (String × Val)) (k : String) : Prop := get d k = none
/-- Nothing there, or something that counts as nothing. -/
def Missing (d : List (String × Val)) (k : String) : Prop :=
  Absent d k ∨ Field d k .null ∨ Field d k (.bool false) ∨ Field d k (.num 0) ∨ Field d k (.str "") ∨ Field d k (.list []) ∨ Field d k (.dict [])
def KnownKeys (d : List (String × Val)) (known : List String) : Prop := ∀ p ∈ d, p.1 ∈ known
def Flag (d : List (String × Val)) (k : String) : Prop := Absent d k ∨ ∃ b, Field d k (.bool b)
def Begins (kind p : String) : Prop := p.toList <+: kind.toList

/-- A target, a list of targets, or a kind of process that needs none. -/
def TargetOk (d : List (String × Val)) (kind : String) : Prop :=
  (∃ t, Field d "target" (.str t) ∧ Absent d "targets") ∨
  (∃ ts : List String, Field d "targets" (.list (ts.map .str)) ∧ Absent d "target") ∨
  (Absent d "target" ∧ Absent d "targets" ∧ (Begins kind "et:" ∨ Begins kind "interception:" ∨ Begins kind "sublimation:"))

def ProcessOk (p : Val) : Prop :=
  ∃ d kind, p = .dict d ∧ KnownKeys d ["kind", "target", "targets", "log", "instantaneous"] ∧ Field d "kind" (.str kind) ∧ TargetOk d kind ∧
    Flag d "log" ∧ Flag d "instantaneous"

def BrickOk (b : Val) : Prop :=
  ∃ d kind, b = .dict d ∧ KnownKeys d ["kind", "attach_to", "computed_directly", "parameters", "processes"] ∧ Field d "kind" (.str kind) ∧
    (kind = "land_cover" ∨ Absent d "attach_to" ∨ Field d "attach_to" (.str "hydro_unit") ∨ Field d "attach_to" (.str "sub_basin")) ∧
    Flag d "computed_directly" ∧
    (Absent d "parameters" ∨ ∃ ps, Field d "parameters" (.dict ps) ∧ ∀ q ∈ ps, ∃ x, q.2 = .num x) ∧
    (Absent d "processes" ∨ ∃ ps, Field d "processes" (.dict ps) ∧ ∀ q ∈ ps, ProcessOk q.2)

def optionNames : List String :=
  ["with_snow", "snow_melt_process", "snow_ice_transformation", "snow_redistribution", "snow_water_retention_process", "snow_refreezing_process",
   "snow_sublimation_process", "rain_to_snowpack", "forest_interception"]

def AliasOk (v : Val) : Prop := (∃ s, v = .str s) ∨ ∃ ss : List String, v = .list (ss.map .str)

def ConstraintOk (v : Val) : Prop := ∃ a o b, v = .list [.str a, .str o, .str b] ∧ o ∈ ["<", "<=", ">", ">="]

/-- The whole structure. -/
def StructureOk (s : List (String × Val)) : Prop :=
  KnownKeys s ["name", "allowed_land_cover_types", "options", "bricks", "aliases", "constraints"] ∧
  (Absent s "name" ∨ ∃ n, Field s "name" (.str n)) ∧
  (Absent s "allowed_land_cover_types" ∨ Field s "allowed_land_cover_types" .null ∨
    ∃ ts : List String, Field s "allowed_land_cover_types" (.list (ts.map .str))) ∧
  (Missing s "options" ∨ ∃ o, Field s "options" (.dict o) ∧ KnownKeys o optionNames) ∧
  (∃ bs, Field s "bricks" (.dict bs) ∧ bs ≠ [] ∧ ∀ b ∈ bs, BrickOk b.2) ∧
  (Missing s "aliases" ∨ ∃ a, Field s "aliases" (.dict a) ∧ ∀ q ∈ a, AliasOk q.2) ∧
  (Missing s "constraints" ∨ ∃ cs, Field s "constraints" (.list cs) ∧ ∀ c ∈ cs, ConstraintOk c)

/-- The description of a process says what is declared. -/
def SameProcess (p : String × Val) (it : Wire.PItem) : Prop :=
  it.name = p.1 ∧ ∃ d, p.2 = .dict d ∧ Field d "kind" (.str it.kind) ∧ (it.inst = true ↔ Field d "instantaneous" (.bool true)) ∧
    ((∃ t, Field d "target" (.str t) ∧ it.targets = [t]) ∨
     Field d "targets" (.list (it.targets.map .str)) ∨
     (Absent d "target" ∧ Absent d "targets" ∧ it.targets = []))

/-- The description of a brick says what is declared; a brick without a place goes to the hydro units. -/
def SameBrick (b : String × Val) (it : Wire.Item) : Prop :=
  it.key = b.1 ∧ ∃ d, b.2 = .dict d ∧ Field d "kind" (.str it.kind) ∧
    ((it.kind = "land_cover" ∧ it.place = .cover) ∨
     (it.kind ≠ "land_cover" ∧ (Absent d "attach_to" ∨ Field d "attach_to" (.str "hydro_unit")) ∧ it.place = .unit) ∨
     (it.kind ≠ "land_cover" ∧ Field d "attach_to" (.str "sub_basin") ∧ it.place = .basin)) ∧
    (it.direct = true ↔ Field d "computed_directly" (.bool true)) ∧
    ∃ ps, ((Absent d "processes" ∧ ps = []) ∨ Field d "processes" (.dict ps)) ∧ List.Forall₂ SameProcess ps it.procs

end HB.Spec.Custom
