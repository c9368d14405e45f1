import Verif.Model.ProjectFile

/-! # What a project file may say about the forcing (C95) -/

namespace HB.Project.Spec

open Custom (Val get)

/-- Absent, null or of the form `P`. -/
def Optional (d : Dict) (k : String) (P : Val → Prop) : Prop := ∀ v, get d k = some v → v = .null ∨ P v

def IsNum (v : Val) : Prop := ∃ x, v = .num x
def IsStr (v : Val) : Prop := ∃ s, v = .str s

/-- A reference to the data parameter with this name. -/
def RefTo (n : String) (v : Val) : Prop := n.toList ≠ [] ∧ (∀ c ∈ n.toList, c.isAlphanum = true ∨ c = '_') ∧ ∃ s : String, s.toList = "param:".toList ++ n.toList ∧ v = .str s

/-- A number or a reference. -/
def IsRef (v : Val) : Prop := IsNum v ∨ ∃ n, RefTo n v

def Keys (d : Dict) (ks : List String) : Prop := ∀ p ∈ d, p.1 ∈ ks

/-- The mapping under a key, empty when there is none. -/
def Section (d : Dict) (k : String) (t : Dict) : Prop := get d k = some (.dict t) ∨ (t = [] ∧ ∀ v, get d k = some v → Custom.truthy v = false)

/-- The column of the dates. -/
def TimeColumn (d : Dict) (c : String) : Prop :=
  (c ≠ "" ∧ ∃ t, get d "time" = some (.dict t) ∧ get t "column" = some (.str c)) ∨
  (c = "date" ∧ ∀ t s, get d "time" = some (.dict t) → get t "column" = some (.str s) → s = "")

/-- The format of the dates. -/
def TimeFormat (d : Dict) (f : String) : Prop :=
  (f ≠ "" ∧ ∃ t, get d "time" = some (.dict t) ∧ get t "format" = some (.str f)) ∨
  (f = "%Y-%m-%d" ∧ ∀ t s, get d "time" = some (.dict t) → get t "format" = some (.str s) → s = "")

/-- The station section. -/
structure GoodStation (files : Files) (d : Dict) : Prop where
  /-- there is a file, which has all columns -/
  given : get d "file" ≠ none
  file : ∀ v, get d "file" = some v → v = .null ∨ ∃ n available, v = .str n ∧ files n = some (some available) ∧ (∃ c ∈ available, TimeColumn d c) ∧
    ∀ cs, get d "columns" = some (.dict cs) → ∀ p ∈ cs, ∃ c ∈ available, p.2 = .str c
  time : Optional d "time" fun v => ∃ t, v = .dict t ∧ Keys t ["column", "format"] ∧ Optional t "column" IsStr ∧ Optional t "format" IsStr
  columns : ∃ cs, cs ≠ [] ∧ get d "columns" = some (.dict cs)
  elevation : Optional d "ref_elevation" IsNum
  temperature : ∃ t, Section d "temperature" t ∧ Keys t ["gradient"] ∧ Optional t "gradient" IsRef
  precipitation : ∃ t, Section d "precipitation" t ∧ Keys t ["correction_factor", "gradient"] ∧ Optional t "correction_factor" IsRef ∧ Optional t "gradient" IsRef
  /-- gradients with the elevation need the elevation of the station -/
  needed : ((∃ cs v, get d "columns" = some (.dict cs) ∧ get cs "temperature" = some v) ∨ (∃ t v, Section d "precipitation" t ∧ get t "gradient" = some v ∧ IsRef v)) →
    ∃ x, get d "ref_elevation" = some (.num x)

/-- The station gives this variable. -/
def FromStation (d : Dict) (v : String) : Prop := ∃ cs, get d "columns" = some (.dict cs) ∧ v ∈ cs.map (·.1)

/-- Is there a station? -/
def HasStation (d : Dict) : Prop := get d "file" ≠ none ∨ get d "columns" ≠ none

/-- The data parameters. -/
def GoodDataParams (config : Dict) : Prop :=
  Optional config "data_parameters" fun v => ∃ ps, v = .dict ps ∧ ∀ p ∈ ps, IsNum p.2 ∨
    ∃ d, p.2 = .dict d ∧ Keys d ["value", "min", "max"] ∧ get d "value" ≠ none ∧ Optional d "value" IsNum ∧ Optional d "min" IsNum ∧ Optional d "max" IsNum

/-- The references of the station section. -/
def Refers (d : Dict) (n : String) : Prop :=
  ∃ t v, RefTo n v ∧ ((Section d "temperature" t ∧ get t "gradient" = some v) ∨ (Section d "precipitation" t ∧ (get t "gradient" = some v ∨ get t "correction_factor" = some v)))

/-- The sections about the forcing are in order. -/
structure Good (files : Files) (gridded : List String) (catchment : Bool) (config d : Dict) : Prop where
  section_ : get config "forcing" = some (.dict d)
  keys : Keys d forcingKeys
  station : HasStation d → GoodStation files d
  some_ : HasStation d ∨ gridded ≠ []
  once : ∀ v, FromStation d v → v ∉ gridded
  precipitation : FromStation d "precipitation" ∨ "precipitation" ∈ gridded
  pet : ∃ t, Section d "pet" t ∧ Keys t ["method", "latitude"] ∧ Optional t "method" IsStr ∧ Optional t "latitude" IsNum ∧
    ((FromStation d "pet" ∨ "pet" ∈ gridded) ∨
      ((FromStation d "temperature" ∨ "temperature" ∈ gridded) ∧ ((∃ x, get t "latitude" = some (.num x)) ∨ catchment = true)))
  params : GoodDataParams config
  references : HasStation d → ∀ n, Refers d n → ∃ ps, get config "data_parameters" = some (.dict ps) ∧ n ∈ ps.map (·.1)

end HB.Project.Spec
