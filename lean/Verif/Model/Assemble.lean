import Verif.Model.Network
import Verif.Model.Wiring
import Mathlib.Data.Nat.Pairing

/-!
# From the built model to the time step

Model of what `Processor` makes of the built model (`Processor::ConnectToElementsToSolve`, Processor.cpp:60-110; the order of
`ProcessTimeStep`, 237-276): the network of `Model/Network.lean` is assembled from the components and fluxes created by
`ModelBuilder` (`Model/Wiring.lean`).  Containers, processes and splitters get numbers; a flux is numbered by its position in
the list of attached output fluxes.

`ext u i` is the area fraction held by the `i`-th brick of unit `u` if it is a land cover (LandCover.h:42; 1 when nothing is
declared, LandCover.cpp:8; C49/C61 say how it is filled).
Not modelled: forcings attached directly to bricks (ModelBuilder.cpp:692-704), the shares of lateral fluxes (C18 treats them),
fractions declared for surface components (C12).
-/

namespace HB.Asm

open HB.Names HB.Wire

/-- Numbering of the containers of a brick. -/
def storeCode : Store → ℕ
  | .water => 0
  | .snow => 1
  | .ice => 2

/-- Numbering of the bricks (splitters have no container). -/
def compCode : Comp → ℕ
  | .unitBrick u i => Nat.pair (u + 1) i
  | .basinBrick i => Nat.pair 0 i
  | _ => 0

/-- Number of a container. -/
def contId (c : Comp) (s : Store) : ℕ := 3 * compCode c + storeCode s

/-- The containers of a brick class in the order of `UpdateContentFromInputs` and `Finalize`; `true`: the inputs are booked in
the static change (Brick.cpp:166-172, Snowpack.cpp:59-68, 109-117, Glacier.cpp:60-63, 112-115). -/
def storesOf : BrickClass → List (Store × Bool)
  | .snowpack => [(.snow, true), (.water, false)]
  | .glacier => [(.ice, false), (.water, false)]
  | _ => [(.water, false)]

/-- The container a content type enters (`AttachFluxIn`: Brick.cpp:86-93, Snowpack.cpp:23-33, Glacier.cpp:35-45). -/
def storeOfContent : Content → Store
  | .snow => .snow
  | .ice => .ice
  | _ => .water

/-- The class `Brick::Factory` makes (Brick.cpp:20-45); the default is never reached for a built model. -/
def clsOf (b : Wire.Brick) : BrickClass :=
  match buildBrick b.type with
  | .ok c => c
  | _ => .storage

/-- The container `Process::Factory` gives to the process (Process.cpp:81-403); the default is never reached for a built
model. -/
def procStore (b : Wire.Brick) (p : Wire.Proc) : Store :=
  match buildProcess p.type (categoryOf (clsOf b)) with
  | .ok r => r.2.1
  | _ => .water

/-- Is the class a land cover? -/
def isCover : BrickClass → Bool
  | .genericLandCover | .glacier => true
  | _ => false

variable {K : Type}

/-- The output fluxes of process `j` of a component, in order of attachment (`_outputs`). -/
def ids (n : Wire.Net K) (c : Comp) (j : ℕ) : List ℕ :=
  (n.outs.zipIdx.filter fun e => decide (e.1.src = c ∧ e.1.proc = j)).map (·.2)

/-- The processes of a brick, in order. -/
def procsOf (n : Wire.Net K) (c : Comp) (b : Wire.Brick) : List HB.Proc :=
  b.procs.zipIdx.map fun pj => ⟨Nat.pair (compCode c) pj.2, contId c (procStore b pj.1), ids n c pj.2⟩

/-- A brick as the processor sees it. -/
def mkBrick (n : Wire.Net K) (c : Comp) (b : Wire.Brick) (null : Bool) : HB.Brick :=
  ⟨(storesOf (clsOf b)).map fun s => (contId c s.1, s.2), procsOf n c b, null⟩

/-- The bricks of a unit in order of creation, with their position (`unit->GetBrick(iBrick)`). -/
def unitBricks (s : Struct) : List (ℕ × Wire.Brick) :=
  (creationOrder s).filterMap fun i => s.unitBricks[i]?.map fun b => (i, b)

/-- `!brick->NeedsSolver()`: land covers and surface components (LandCover.cpp:10, SurfaceComponent.cpp:9) and bricks declared
computed directly (ModelBuilder.cpp:215-217). -/
def isDirect (b : Wire.Brick) : Bool := canHaveFraction (clsOf b) || b.direct

section
variable [Field K] [LinearOrder K]

/-- `brick->IsNull()` of a unit brick (LandCover.h:91-93, SurfaceComponent.cpp:31-39, Brick.h:170). -/
def isNull (m : Wire.Model K) (ext : ℕ → ℕ → K) (u : ℕ) (s : Struct) (ib : ℕ × Wire.Brick) : Bool :=
  match clsOf ib.2 with
  | .genericLandCover | .glacier => nearlyZero (ext u ib.1) prec
  | .snowpack | .interceptionStorage =>
    if s.surfaces.contains ib.1 && ib.2.parent != "" then
      match (m.built.units[u]?.bind fun bu => bu.find ib.2.parent) with
      | some k => nearlyZero (ext u k) prec
      | none => false
    else false
  | .storage => false

/-- The fraction of the unit a flux is weighted by (LandCover.cpp:27-37): the extent of the land cover it leaves.  The outputs
of a surface component keep 1: `SurfaceComponent::SetAreaFraction` is only called for declared surface fractions. -/
def landFrac (inp : Input K) (ext : ℕ → ℕ → K) : Comp → K
  | .unitBrick u i =>
    match inp.units[u]?.bind fun un => un.str.unitBricks[i]? with
    | some b => if isCover (clsOf b) then ext u i else 1
    | none => 1
  | _ => 1

/-- What the time step knows about a flux (Flux.h; `_fractionTotal` = unit fraction × land cover fraction). -/
def fluxSpec (inp : Input K) (ext : ℕ → ℕ → K) (f : Wire.Flux K) : FluxSpec K where
  target := match f.dst with
    | .comp (.unitBrick u i) => .cont (contId (.unitBrick u i) (storeOfContent f.content))
    | .comp (.basinBrick i) => .cont (contId (.basinBrick i) (storeOfContent f.content))
    | _ => .outside
  inst := f.inst
  static := f.static
  frac := f.unitFrac * if f.weighted then landFrac inp ext f.src else 1

/-- A hydro unit in the direct phase (Processor.cpp:243-264). -/
def mkUnit (m : Wire.Model K) (ext : ℕ → ℕ → K) (un : UnitIn K) (u : ℕ) : HUnit where
  splitters := un.str.unitSplits.zipIdx.map fun sk => (Nat.pair u sk.2, ids m.net (.unitSplit u sk.2) 0)
  direct := ((unitBricks un.str).filter fun ib => isDirect ib.2).map fun ib =>
    mkBrick m.net (.unitBrick u ib.1) ib.2 (isNull m ext u un.str ib)

/-- `_iterableBricks` (Processor.cpp:69-109): the solved bricks of the units, then all bricks of the sub-basin. -/
def mkSolver (inp : Input K) (m : Wire.Model K) : List HB.Brick :=
  (inp.units.zipIdx.flatMap fun uu => ((unitBricks uu.1.str).filter fun ib => !isDirect ib.2).map fun ib =>
      mkBrick m.net (.unitBrick uu.2 ib.1) ib.2 false) ++
    inp.basin.basinBricks.zipIdx.map fun bi => mkBrick m.net (.basinBrick bi.2) bi.1 false

/-- All bricks of the settings. -/
def allBricks (inp : Input K) : List (Comp × Wire.Brick) :=
  (inp.units.zipIdx.flatMap fun uu => uu.1.str.unitBricks.zipIdx.map fun bi => (.unitBrick uu.2 bi.2, bi.1)) ++
    inp.basin.basinBricks.zipIdx.map fun bi => (.basinBrick bi.2, bi.1)

/-- `GetWaterContainer()->LinkOverflow(process)` (ModelBuilder.cpp:130-132, 234-236): the last overflow process counts. -/
def overflowOf (inp : Input K) (n : Wire.Net K) (c : ℕ) : Option ℕ :=
  ((allBricks inp).flatMap fun cb => cb.2.procs.zipIdx.filterMap fun pj =>
    if pj.1.type = "overflow" then (ids n cb.1 pj.2).head?.map fun f => (contId cb.1 .water, f) else none).reverse.lookup c

/-- The network the processor runs. -/
def asm (inp : Input K) (m : Wire.Model K) (ext : ℕ → ℕ → K) : HB.Net K where
  flux := fun k => match m.net.outs[k]? with
    | some f => fluxSpec inp ext f
    | none => ⟨.outside, false, false, 1⟩
  fluxes := List.range m.net.outs.length
  units := inp.units.zipIdx.map fun uu => mkUnit m ext uu.1 uu.2
  solver := mkSolver inp m
  ovf := overflowOf inp m.net
  outlet := (m.net.outs.zipIdx.filter fun e => decide (e.1.dst = .outlet)).map (·.2)

end

end HB.Asm
