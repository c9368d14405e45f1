import Verif.Model.Predefined
import Verif.Model.Valid
import Verif.Model.Assemble
import Verif.Model.Basin
import Verif.Model.Structures
import Verif.Model.DateText
import Verif.Model.Run

/-!
# Setting up a model

Model of `ModelHydro::InitializeWithBasin` and `ModelHydro::Initialize` (ModelHydro.cpp:22-79): the basin is created
(`SubBasin::Initialize`), each unit gets its structure variant (`AssignHydroUnitStructures`), the settings are checked
(`SettingsModel::IsValid`, SettingsModel.cpp:1046-1071), the structure is built, the clock is started and checked
(`TimeMachine::IsValid`, TimeMachine.cpp:102-127), the spin-up is converted into steps, the solver is created and the topology
checked (`Processor::Initialize`, Processor.cpp:15-56), the extents are assigned and the sub-basin is checked.  It composes the
models of these parts (Model/Basin, Structures, Wiring, Valid, DateText, Names, Topology).

Simplifications: the checks of bricks and splitters are made right after building and not with the extents, which only changes
which failure comes first; the logger (C49) is left out.
-/

set_option linter.unusedSectionVars false

namespace HB.Setup

open HB.Names HB.Wire HB.Basin

/-- What a user gives: the structures the Python model describes, the name of the solver, the period, the spin-up in days, the
basin. -/
structure Settings (K : Type) where
  variants : List Wire.Variant
  solver : String
  timer : DateText.TimerSettings
  spinupDays : ℤ
  basin : Basin.Decl K

/-- A structure variant as written by the Python model (`generateOne`), with its description. -/
structure Written where
  desc : Wire.Variant
  str : Struct

/-- The structures written one after the other (models/model.py:1024-1078). -/
def write : List Wire.Variant → Except Wire.Err (List Written)
  | [] => .ok []
  | v :: l => do
    let a ← generateOne v
    let r ← write l
    .ok (⟨v, a.str⟩ :: r)

/-- `GetSelectedStructureLandCoverNames` (SettingsModel.cpp:862-871) as a set (ModelBuilder.cpp:43-48). -/
def coverSet (s : Struct) : Finset String := (s.covers.filterMap fun i => (s.unitBricks[i]?).map (·.name)).toFinset

section
variable {K : Type} [Field K] [LinearOrder K] [IsStrictOrderedRing K]

/-- The structure variant of a declared unit (ModelBuilder.cpp:50-95, `SelectStructure(unit->GetStructureId())` 157-159). -/
def chosen (ws : List Written) (u : UnitDecl K) : Option Written :=
  ws[assignId (ws.map fun w => coverSet w.str) (presentCovers (u.covers.map fun c => (c.name, c.fraction))) - 1]?

/-- The properties a component reads from its unit (ProcessRunoffSocont.cpp, ProcessLateralSnow*.cpp:33/65,
ProcessMeltDegreeDayAspect.cpp:36, SplitterSnowRainCemaNeige.cpp:51) and the forcings listed for its splitters.  Simplifications:
elevations are taken in metres (C51 treats conversions) and a textual elevation counts as missing. -/
def extras (w : Written) (b : BUnit K) : UnitX K where
  brickF := fun _ => []
  procF := fun _ _ => []
  splitF := genForcings w.desc.base.withSnow w.desc.base.splitter
  slope := b.props.any fun p => p.name == "slope"
  aspect := b.getString "aspect_class"
  elevation := (b.props.find? fun p => p.name == "elevation").bind (·.value)

/-- A unit ready to be built: structure, area and connections (SubBasin.cpp:33-53). -/
def unitIn (w : Written) (b : BUnit K) : UnitIn K := ⟨w.str, b.area, b.laterals.map fun l => (l.receiver, l.fraction)⟩

/-- What `BuildModelStructure` works on (ModelBuilder.cpp:99-107, 150-160): the sub-basin from the first structure, each unit from
its own. -/
def input (first : Written) (sel : List (Written × BUnit K)) : InputX K where
  base := ⟨first.str, sel.map fun e => unitIn e.1 e.2⟩
  ext := fun u => match sel[u]? with | some e => extras e.1 e.2 | none => ⟨fun _ => [], fun _ _ => [], fun _ => [], false, none, none⟩

/-- `ValidateFluxTopology` (Processor.cpp:29-56) on the built model: a brick handed to the solver (all sub-basin bricks are) feeds a
brick computed directly. -/
def badTopology (inp : Input K) (m : Wire.Model K) : Bool :=
  m.net.outs.any fun f =>
    (match f.src with
      | .unitBrick u i => (inp.units[u]?.bind fun un => un.str.unitBricks[i]?).elim false fun b => !Asm.isDirect b
      | .basinBrick _ => true
      | _ => false) &&
    (match f.dst with
      | .comp (.unitBrick u i) => (inp.units[u]?.bind fun un => un.str.unitBricks[i]?).elim false fun b => Asm.isDirect b
      | .comp (.basinBrick i) => (inp.basin.basinBricks[i]?).elim false fun b => Asm.isDirect b
      | _ => false)

/-- `SettingsModel::IsValid` (SettingsModel.cpp:1046-1071). -/
def settingsValid (S : Settings K) : Bool :=
  S.solver != "" && S.timer.start != "" && S.timer.stop != "" && decide (0 < S.timer.timeStep) && !S.variants.isEmpty

/-- `TimeMachine::IsValid` (TimeMachine.cpp:102-127). -/
def timerValid (t : K × K × K) (step : ℤ) : Bool :=
  decide (0 < t.1) && decide (0 < t.2.1) && decide (t.1 ≤ t.2.1) && decide (0 < step) && decide (0 < t.2.2)

/-- The covers of a unit as built, in order, and its other bricks (HydroUnit.cpp:167-182). -/
def groundOf (s : Struct) : Ground K :=
  Ground.fresh ((s.covers.filterMap fun i => s.unitBricks[i]?).map (·.name))
    (((s.unitBricks.zipIdx.filter fun e => !(s.covers.contains e.2)).map (·.1)).map (·.name)) true

/-- A model set up: what was built, the forcings each unit needs, the extents, the period and the solver. -/
structure Model (K : Type) where
  input : InputX K
  model : Wire.Model K
  forcings : List (List Var)
  grounds : List (Ground K)
  start : K
  stop : K
  dt : K
  rows : ℕ
  spin : ℕ
  solver : SolverClass

/-- The network of the model is the one `BuildModelStructure` makes of its input, with the forcings it lists (C57, C62). -/
def Built (M : Model K) : Prop := prepare M.input = .ok (M.model, M.forcings)

/-- The extents of the components of the built network: a land cover has the share of its name (LandCover.cpp, `GetAreaFraction`;
HydroUnit.cpp:60-79). -/
def Model.extent (M : Model K) (u i : ℕ) : K :=
  match M.input.base.units[u]?, M.grounds[u]? with
  | some un, some g => (un.str.unitBricks[i]?).elim 0 fun b => g.hu.frac b.name
  | _, _ => 0

/-- The exceptions and error results of a part. -/
def ofExcept {α : Type} : Except Wire.Err α → Basin.Out α
  | .ok a => .ok a
  | .error .thrown => .refused
  | .error .undefined => .undef

/-- An optional value, `none` being an exception. -/
def ofOption {α : Type} : Option α → Basin.Out α
  | some a => .ok a
  | none => .refused

/-- The variants of all units. -/
def chooseAll (ws : List Written) : List (UnitDecl K) → List (BUnit K) → Option (List (Written × BUnit K))
  | u :: us, b :: bs =>
    match chosen ws u, chooseAll ws us bs with
    | some w, some r => some ((w, b) :: r)
    | _, _ => none
  | _, _ => some []

/-- `ModelHydro::Initialize` (ModelHydro.cpp:36-79), the units having their structures. -/
def initModel [FloorRing K] (rnd : K → K) (S : Settings K) (xi : InputX K) : Basin.Out (Model K) :=
  if settingsValid S then
    (ofExcept (prepare xi)).bind fun mf =>
    (ofOption (DateText.initTimer S.timer)).bind fun t =>
    if timerValid t S.timer.timeStep then
      match solverFactory S.solver with
      | .ok sc =>
        if badTopology xi.base mf.1 then .refused
        else
          (initialise S.basin (xi.base.units.map fun un => groundOf un.str) true).bind fun gs =>
            .ok { input := xi, model := mf.1, forcings := mf.2, grounds := gs, start := t.1, stop := t.2.1, dt := t.2.2,
                  rows := stepCount rnd t.1 t.2.1 t.2.2, spin := spinSteps rnd t.1 t.2.1 t.2.2 (S.spinupDays : K), solver := sc }
      | _ => .refused
    else .refused
  else .refused

/-- `Model.setup` of the Python package down to `ModelHydro::InitializeWithBasin` (models/model.py:118-226, ModelHydro.cpp:22-34). -/
def setup [FloorRing K] (rnd : K → K) (S : Settings K) : Basin.Out (Model K) :=
  (ofExcept (write S.variants)).bind fun ws =>
  (Basin.build S.basin).bind fun b =>
  match ws.head?, chooseAll ws S.basin.units b.units with
  | some first, some sel => initModel rnd S (input first sel)
  | _, _ => .refused

end

end HB.Setup
