import Verif.Spec.BaseStructure
import Verif.Model.Assemble

/-!
# Water balance of a declared model

Which bricks there are, over which area their depths are expressed, which declared structures send water forward only, and what
is stored, entering and leaving, told from the declared structure and the land-cover extents.
-/

namespace HB.Spec

open HB.Names HB.Wire

variable {K : Type}

/-- Types of the surface components. -/
def surfaceTypes : List String := ["snowpack", "interception_storage"]

/-- The declared brick behind a component. -/
def brickOf (inp : Input K) : Comp → Option Wire.Brick
  | .unitBrick u i => inp.units[u]?.bind fun un => un.str.unitBricks[i]?
  | .basinBrick i => inp.basin.basinBricks[i]?
  | _ => none

/-- The position of the land cover a surface component lies on. -/
def parentOf (s : Struct) (i : ℕ) : Option ℕ :=
  if i ∈ s.surfaces then
    s.unitBricks[i]?.bind fun b => if b.parent = "" then none else s.unitBricks.findIdx? fun b' => b'.name = b.parent
  else none

section
variable [Field K]

/-- The fraction of the unit covered by a brick: a land cover has its own, a surface component that of the land cover it lies
on, everything else the whole. -/
def extent (inp : Input K) (ext : ℕ → ℕ → K) : Comp → K
  | .unitBrick u i =>
    match inp.units[u]? with
    | none => 1
    | some un =>
      match un.str.unitBricks[i]? with
      | none => 1
      | some b =>
        if b.type ∈ coverTypes then ext u i
        else if b.type ∈ surfaceTypes then
          match parentOf un.str i with
          | some k => ext u k
          | none => 1
        else 1
  | _ => 1

/-- The area of the basin. -/
def basinArea (inp : Input K) : K := (inp.units.map (·.area)).sum

/-- The area over which the depths of a component are expressed. -/
def areaOf (inp : Input K) (ext : ℕ → ℕ → K) : Comp → K
  | .unitBrick u i => (inp.units[u]?.elim 0 (·.area)) * extent inp ext (.unitBrick u i)
  | .unitSplit u _ => inp.units[u]?.elim 0 (·.area)
  | _ => basinArea inp

/-- The area over which a flux is expressed: that of its destination; a flux to the atmosphere keeps that of its source. -/
def fluxArea (inp : Input K) (ext : ℕ → ℕ → K) (f : Wire.Flux K) : K :=
  match f.dst with
  | .outlet => basinArea inp
  | .atmosphere => areaOf inp ext f.src
  | .comp c => areaOf inp ext c

end

/-- The stores of a type of brick. -/
def storesOfType (t : String) : List Store :=
  if t = "snowpack" then [.snow, .water] else if t = "glacier" then [.ice, .water] else [.water]

/-- The processes that work on the snow of a snowpack or on the ice of a glacier. -/
def snowIceNames : List String :=
  ["melt:degree_day", "melt:degree_day_aspect", "melt:temperature_index", "melt:cemaneige", "sublimation:constant",
   "sublimation:pet", "transformation:snow_ice_constant",
   "transform:snow_ice_constant", "transformation:snow_ice_swat", "transform:snow_ice_swat", "transport:snow_slide",
   "transport:snow_redistribution_frey", "transport:snow_redistribution_frey_dynamic"]

/-- The store a process draws from. -/
def drawsFrom (b : Wire.Brick) (p : Wire.Proc) : Store :=
  if p.type ∈ snowIceNames then (if b.type = "snowpack" then .snow else if b.type = "glacier" then .ice else .water) else .water

/-- The store a flux leaves; nothing for a splitter. -/
def sourceOf (inp : Input K) (f : Wire.Flux K) : Option (Comp × Store) :=
  (brickOf inp f.src).bind fun b => b.procs[f.proc]?.map fun p => (f.src, drawsFrom b p)

/-- The store a flux enters; nothing outside the bricks. -/
def targetOf (f : Wire.Flux K) : Option (Comp × Store) :=
  match f.dst with
  | .comp (.unitBrick u i) =>
    some (.unitBrick u i, if f.content = .snow then .snow else if f.content = .ice then .ice else .water)
  | .comp (.basinBrick i) =>
    some (.basinBrick i, if f.content = .snow then .snow else if f.content = .ice then .ice else .water)
  | _ => none

section
variable [Field K] [LinearOrder K]

/-- Does the brick exist? A brick without area is left out of the time step. -/
def Exists (inp : Input K) (ext : ℕ → ℕ → K) (c : Comp) : Prop := prec < |extent inp ext c|

instance (inp : Input K) (ext : ℕ → ℕ → K) (c : Comp) : Decidable (Exists inp ext c) := by unfold Exists; infer_instance

/-- The stores of the bricks that exist. -/
def stores (inp : Input K) (ext : ℕ → ℕ → K) : List (Comp × Store) :=
  ((Asm.allBricks inp).filter fun cb => decide (Exists inp ext cb.1)).flatMap fun cb =>
    (storesOfType cb.2.type).map fun s => (cb.1, s)

/-- The stores whose water is counted: those that are not inexhaustible. -/
def system (inp : Input K) (ext : ℕ → ℕ → K) (s0 : Phys K) : List (Comp × Store) :=
  (stores inp ext).filter fun x => !(s0.cont (Asm.contId x.1 x.2)).infinite

/-- The store is one of the system. -/
def inside (l : List (Comp × Store)) (x : Option (Comp × Store)) : Bool := x.elim false fun y => decide (y ∈ l)

/-- Volume stored. -/
def volume (inp : Input K) (ext : ℕ → ℕ → K) (l : List (Comp × Store)) (ph : Phys K) : K :=
  (l.map fun x => areaOf inp ext x.1 *
    ((ph.cont (Asm.contId x.1 x.2)).content + (ph.cont (Asm.contId x.1 x.2)).dyn + (ph.cont (Asm.contId x.1 x.2)).stat)).sum

/-- Volume received from other aquifers by processes with a groundwater exchange. -/
def exchangedVolume (inp : Input K) (ext : ℕ → ℕ → K) (l : List (Comp × Store)) (ph : Phys K) : K :=
  (l.map fun x => areaOf inp ext x.1 * ph.exch (Asm.contId x.1 x.2)).sum

/-- Sum over the fluxes of the model that satisfy `P` of the recorded volume. -/
def volumeOf (inp : Input K) (ext : ℕ → ℕ → K) (m : Wire.Model K) (P : Wire.Flux K → Bool) (ph : Phys K) : K :=
  (m.net.outs.zipIdx.map fun e => if P e.1 then fluxArea inp ext e.1 * ph.amt e.2 else 0).sum

/-- Volume coming in: into the system from elsewhere, or from elsewhere straight to the outlet. -/
def inflow (inp : Input K) (ext : ℕ → ℕ → K) (m : Wire.Model K) (l : List (Comp × Store)) (ph : Phys K) : K :=
  volumeOf inp ext m (fun f => !inside l (sourceOf inp f) && (inside l (targetOf f) || decide (f.dst = .outlet))) ph

/-- Volume going out elsewhere than to the outlet: to the atmosphere, to a splitter, to a brick without area or to an
inexhaustible store. -/
def losses (inp : Input K) (ext : ℕ → ℕ → K) (m : Wire.Model K) (l : List (Comp × Store)) (ph : Phys K) : K :=
  volumeOf inp ext m (fun f => inside l (sourceOf inp f) && !inside l (targetOf f) && !decide (f.dst = .outlet)) ph

/-- Area of the stores. -/
def totalArea (inp : Input K) (ext : ℕ → ℕ → K) (l : List (Comp × Store)) : K := (l.map fun x => areaOf inp ext x.1).sum

end

/-- Is the brick of a unit handled before the solver? -/
def Direct (b : Wire.Brick) : Prop := b.type ∈ fractionTypes ∨ b.direct = true

instance (b : Wire.Brick) : Decidable (Direct b) := by unfold Direct; infer_instance

/-- When the brick of a unit is handled: first the bricks computed directly, then the solved ones; in each group surface
components come first, then land covers, then the others, as declared. -/
def turn (s : Struct) (i : ℕ) : ℕ × ℕ × ℕ :=
  ((s.unitBricks[i]?.elim 0 fun b => if Direct b then 0 else 1),
    if i ∈ s.surfaces then 0 else if i ∈ s.covers then 1 else 2,
    if i ∈ s.surfaces then s.surfaces.idxOf i else if i ∈ s.covers then s.covers.idxOf i else i)

/-- Lexicographic order. -/
def earlier (a b : ℕ × ℕ × ℕ) : Prop := a.1 < b.1 ∨ (a.1 = b.1 ∧ (a.2.1 < b.2.1 ∨ (a.2.1 = b.2.1 ∧ a.2.2 < b.2.2)))

instance (a b : ℕ × ℕ × ℕ) : Decidable (earlier a b) := by unfold earlier; infer_instance

/-- The first brick is handled before the second in every time step. -/
def Before (inp : Input K) : Comp → Comp → Prop
  | .unitBrick _ _, .basinBrick _ => True
  | .basinBrick i, .basinBrick j => i < j
  | .unitBrick u i, .unitBrick v j => u = v ∧ ∃ un : UnitIn K, inp.units[u]? = some un ∧ earlier (turn un.str i) (turn un.str j)
  | _, _ => False

/-- `o` is a declared output of the `i`-th brick `b` of unit `u` (outputs declared for a process to the atmosphere are ignored). -/
def UnitOutput (inp : Input K) (u : ℕ) (un : UnitIn K) (i : ℕ) (b : Wire.Brick) (o : Out) : Prop :=
  inp.units[u]? = some un ∧ un.str.unitBricks[i]? = some b ∧ ∃ p ∈ b.procs, p.type ∉ atmosphereNames ∧ o ∈ p.outs

/-- `o` is a declared output of the `i`-th brick `b` of the sub-basin. -/
def BasinOutput (inp : Input K) (i : ℕ) (b : Wire.Brick) (o : Out) : Prop :=
  inp.basin.basinBricks[i]? = some b ∧ ∃ p ∈ b.procs, p.type ∉ atmosphereNames ∧ o ∈ p.outs

/-- Water is only sent forward: no lateral transport, and every output of a unit brick that is not instantaneous and every output
of a sub-basin brick goes to a brick handled later in the time step (or out of the bricks). -/
structure Forward (inp : Input K) : Prop where
  noLateral : ∀ u un i b o, UnitOutput inp u un i b o → o.target ≠ "lateral"
  units : ∀ u un i b o, UnitOutput inp u un i b o → o.inst = false → o.target ≠ "outlet" →
    ∀ c b', BrickNamed inp u un o.target c b' → Before inp (.unitBrick u i) c
  basin : ∀ i b o, BasinOutput inp i b o → o.target ≠ "outlet" →
    ∀ (j : ℕ) (b' : Wire.Brick), inp.basin.basinBricks[j]? = some b' → b'.name = o.target → i < j

/-- The areas fit: units have an area, extents are fractions, surface components lie on land covers, a land cover or surface
component is fed only by bricks of the same extent, and surface components covering only a part of their unit feed nothing
else. -/
structure AreasFit [Field K] [LinearOrder K] (inp : Input K) (ext : ℕ → ℕ → K) : Prop where
  positive : ∀ un ∈ inp.units, 0 < un.area
  fraction : ∀ (u : ℕ) (un : UnitIn K), inp.units[u]? = some un → ∀ (i : ℕ) (b : Wire.Brick), un.str.unitBricks[i]? = some b →
    b.type ∈ coverTypes → 0 ≤ ext u i ∧ ext u i ≤ 1
  parents : ∀ (u : ℕ) (un : UnitIn K), inp.units[u]? = some un → ∀ i k, parentOf un.str i = some k →
    ∃ b : Wire.Brick, un.str.unitBricks[k]? = some b ∧ b.type ∈ coverTypes
  agree : ∀ u un i b o, UnitOutput inp u un i b o → o.target ≠ "outlet" → ∀ c b', BrickNamed inp u un o.target c b' →
    b'.type ∈ fractionTypes → extent inp ext (.unitBrick u i) = extent inp ext c
  surface : ∀ u un i b o, UnitOutput inp u un i b o → b.type ∈ surfaceTypes →
    (o.target = "outlet" ∨ ∀ c b', BrickNamed inp u un o.target c b' → b'.type ∉ fractionTypes) →
    extent inp ext (.unitBrick u i) = 1

/-- What the solvers with intermediate stages need: solved bricks send nothing instantaneously, and the sub-basin has no
snowpack. -/
structure Stageable (inp : Input K) : Prop where
  units : ∀ u un i b o, UnitOutput inp u un i b o → ¬ Direct b → o.inst = false
  basin : ∀ i b o, BasinOutput inp i b o → o.inst = false
  noSnow : ∀ b ∈ inp.basin.basinBricks, b.type ≠ "snowpack"

/-- Is the component handled in a time step? Splitters of units and bricks that exist are. -/
def Handled [Field K] [LinearOrder K] (inp : Input K) (ext : ℕ → ℕ → K) : Comp → Prop
  | .unitSplit _ _ => True
  | .basinSplit _ => False
  | c => Exists inp ext c

/-- A state between time steps: no change is pending, and nothing is in the fluxes of components that are not handled. -/
structure Fresh [Field K] [LinearOrder K] (inp : Input K) (ext : ℕ → ℕ → K) (m : Wire.Model K) (ph : Phys K) : Prop where
  still : ∀ x ∈ stores inp ext, (ph.cont (Asm.contId x.1 x.2)).dyn = 0
  idle : ∀ (k : ℕ) (f : Wire.Flux K), m.net.outs[k]? = some f → ¬ Handled inp ext f.src → ph.amt k = 0

end HB.Spec
