import Mathlib.Data.List.Sort
import Mathlib.Data.List.Dedup

/-!
# Graph of a model structure (Python side)

`StructureGraph.from_settings` (python/src/hydrobricks/structure.py:117-238).

Simplifications.  The metadata of the model (name, solver) are left out.  Optional keys of the exported structure are given with their defaults.  Dictionaries
are lists of nodes in the order of insertion.
-/

namespace HB.StructGraph

/-- One output of a process or splitter in the export. -/
structure Out where
  target : String
  fluxType : String := "water"
  instantaneous : Bool := false
deriving DecidableEq

/-- One process in the export. -/
structure Proc where
  name : String
  kind : String
  forcing : List String := []
  outputs : List Out := []
deriving DecidableEq

/-- A brick (with processes) or a splitter (with outputs) in the export. -/
structure Comp where
  name : String
  kind : String := ""
  level : String := ""
  isLandCover : Bool := false
  direct : Bool := false
  forcing : List String := []
  processes : List Proc := []
  outputs : List Out := []
deriving DecidableEq

/-- One structure variant. -/
structure Variant where
  id : ℤ
  unitBricks : List Comp
  basinBricks : List Comp
  unitSplitters : List Comp
  basinSplitters : List Comp
deriving DecidableEq

/-- `Node` (47-67). -/
structure Node where
  name : String
  role : String
  kind : String := ""
  level : String := ""
  isLandCover : Bool := false
  direct : Bool := false
  forcing : List String := []
deriving DecidableEq

/-- `Edge` (70-89). -/
structure Edge where
  source : String
  target : String
  process : String := ""
  kind : String := ""
  fluxType : String := "water"
  instantaneous : Bool := false
deriving DecidableEq

/-- The dictionary of nodes, the set of links of the forcing and the edges while building. -/
structure State where
  nodes : List Node := []
  links : List (String × String) := []
  edges : List Edge := []

/-- `name in nodes`. -/
def has (nodes : List Node) (name : String) : Bool := nodes.any fun n => decide (n.name = name)

/-- `nodes[name] = node`. -/
def setNode (nodes : List Node) (n : Node) : List Node :=
  if has nodes n.name then nodes.map fun m => if m.name = n.name then n else m else nodes ++ [n]

/-- `nodes.setdefault(name, node)`. -/
def setDefault (nodes : List Node) (n : Node) : List Node := if has nodes n.name then nodes else nodes ++ [n]

/-- The role of a sink (158-162). -/
def sinkRole (name : String) : String := if name = "outlet" then "outlet" else if name = "atmosphere" then "atmosphere" else "brick"

/-- `ensure_sink` (156-163). -/
def ensureSink (s : State) (name : String) : State := { s with nodes := setDefault s.nodes { name := name, role := sinkRole name } }

/-- `add_forcing` (165-170). -/
def addForcing (withForcing : Bool) (component : String) (forcing : List String) (s : State) : State :=
  if withForcing then
    forcing.foldl (fun s f => { s with nodes := setDefault s.nodes { name := f, role := "forcing" }, links := (f, component) :: s.links }) s
  else s

/-- The node of a component (174-182). -/
def nodeOf (role : String) (c : Comp) : Node := ⟨c.name, role, c.kind, c.level, c.isLandCover, c.direct, c.forcing⟩

/-- `add_component` (172-183). -/
def addComponent (withForcing : Bool) (role : String) (s : State) (c : Comp) : State :=
  addForcing withForcing c.name c.forcing { s with nodes := setNode s.nodes (nodeOf role c) }

/-- One output (208-219, 227-236). -/
def addOut (source process kind : String) (s : State) (o : Out) : State :=
  let s := ensureSink s o.target
  { s with edges := s.edges ++ [⟨source, o.target, process, kind, o.fluxType, o.instantaneous⟩] }

/-- One process of a brick (195-219). -/
def addProcess (withForcing : Bool) (brick : String) (s : State) (p : Proc) : State :=
  let s := addForcing withForcing brick p.forcing s
  if p.outputs = [] then
    let s := ensureSink s "atmosphere"
    { s with edges := s.edges ++ [{ source := brick, target := "atmosphere", process := p.name, kind := p.kind }] }
  else p.outputs.foldl (addOut brick p.name p.kind) s

/-- The processes of a brick. -/
def addBrick (withForcing : Bool) (s : State) (c : Comp) : State := c.processes.foldl (addProcess withForcing c.name) s

/-- The outputs of a splitter (222-236). -/
def addSplitter (withForcing : Bool) (s : State) (c : Comp) : State :=
  c.outputs.foldl (addOut c.name "" c.kind) (addForcing withForcing c.name c.forcing s)

/-- Order of pairs of strings. -/
def before (a b : String × String) : Bool := decide (a.1 < b.1) || (decide (a.1 = b.1) && decide (a.2 ≤ b.2))

/-- The state after all nodes and fluxes (185-236). -/
def build (withForcing : Bool) (v : Variant) : State :=
  let s := (v.unitBricks ++ v.basinBricks).foldl (addComponent withForcing "brick") {}
  let s := (v.unitSplitters ++ v.basinSplitters).foldl (addComponent withForcing "splitter") s
  let s := (v.unitBricks ++ v.basinBricks).foldl (addBrick withForcing) s
  (v.unitSplitters ++ v.basinSplitters).foldl (addSplitter withForcing) s

/-- The edges of the forcing (239-240), from the set of links. -/
def forcingEdges (links : List (String × String)) : List Edge :=
  (links.dedup.insertionSort fun a b => before a b).map fun l => { source := l.1, target := l.2, kind := "forcing", fluxType := l.1 }

/-- `from_settings` (117-250); `none`: the variant is not known. -/
def fromSettings (structures : List Variant) (id : ℤ) (withForcing : Bool) : Option (List Node × List Edge) :=
  (structures.find? fun v => decide (v.id = id)).map fun v =>
    let s := build withForcing v
    (s.nodes, s.edges ++ forcingEdges s.links)

end HB.StructGraph
