import Verif.Model.Num

/-!
# Water container

Model of `core/src/containers/WaterContainer.{h,cpp}`.  Pointers to change rates are list entries:
`none` is a null pointer.  The parent brick's processes are represented by the list of the output
fluxes of the processes drawing from this container (in process order), which is exactly what the
loop at WaterContainer.cpp:66-92 collects.
-/

namespace HB

/-- Exceptions thrown by the modelled code (the C++ exception classes carry only messages). -/
inductive Err
  | rateTooHigh          -- RuntimeError, WaterContainer.cpp:83-86
  | overflowUnlinked     -- ShouldNotHappen, WaterContainer.cpp:158-160
  | forcingIntoLimited   -- ModelConfigError, WaterContainer.cpp:163-166
  | infiniteStorage      -- ModelConfigError, WaterContainer.h:110-112, 209-211
  | badFluxType          -- ModelConfigError, FluxToBrickInstantaneous.cpp:35-37
  | topology             -- ModelConfigError, Processor.cpp:42-48
  deriving DecidableEq, Repr

/-- State of a `WaterContainer` (WaterContainer.h: members; constructor WaterContainer.cpp:6-15).
`cap = none` is a null capacity pointer.  The capacity parameter is a `float` in the code; it is
read as an exact number here. -/
structure Cont (K : Type*) where
  content : K
  dyn : K
  stat : K
  init : K
  cap : Option K := none
  infinite : Bool := false
  allowNeg : Bool := false
  deriving Repr, DecidableEq

/-- How an attached input flux enters `ApplyConstraints` (WaterContainer.cpp:98-119). -/
inductive Inflow (K : Type*)
  | inst (realAmount : K)    -- instantaneous flux: GetRealAmount()
  | amount (a : K)           -- forcing or static flux: GetAmount()
  | rate (r : Option K)      -- change-rate pointer; none = nullptr
  deriving Repr, DecidableEq

variable {K : Type*} [Field K] [LinearOrder K] [IsStrictOrderedRing K]

namespace Cont

/-- `GetContentWithChanges` (WaterContainer.h:151-157) for a finite storage (`none` = INFINITY). -/
def withChanges (c : Cont K) : Option K :=
  if c.infinite then none else some (c.content + c.dyn + c.stat)

/-- `GetContentWithDynamicChanges` (WaterContainer.h:164-170). -/
def withDyn (c : Cont K) : Option K :=
  if c.infinite then none else some (c.content + c.dyn)

/-- `GetContentWithoutChanges` (WaterContainer.h:177-183). -/
def withoutChanges (c : Cont K) : Option K :=
  if c.infinite then none else some c.content

/-- `UpdateContent` (WaterContainer.h:208-214): throws for an infinite storage. -/
def updateContent (c : Cont K) (v : K) : Except Err (Cont K) :=
  if c.infinite then .error .infiniteStorage else .ok { c with content := v }

/-- `SetMaximumCapacity` (WaterContainer.h:109-114): throws for an infinite storage. -/
def setCapacity (c : Cont K) (v : K) : Except Err (Cont K) :=
  if c.infinite then .error .infiniteStorage else .ok { c with cap := some v }

/-- `SubtractAmountFromDynamicContentChange` (WaterContainer.cpp:40-43). -/
def subDyn (c : Cont K) (x : K) : Cont K :=
  if c.infinite then c else { c with dyn := c.dyn - x }

/-- `AddAmountToDynamicContentChange` (WaterContainer.cpp:45-48). -/
def addDyn (c : Cont K) (x : K) : Cont K :=
  if c.infinite then c else { c with dyn := c.dyn + x }

/-- `AddAmountToStaticContentChange` (WaterContainer.cpp:50-53). -/
def addStat (c : Cont K) (x : K) : Cont K :=
  if c.infinite then c else { c with stat := c.stat + x }

/-- `Finalize` (WaterContainer.cpp:196-215); the log message is not modelled. -/
def finalize (c : Cont K) : Cont K :=
  if c.infinite then c else
  let t := c.content + (c.dyn + c.stat)
  if c.allowNeg then { c with content := t, dyn := 0, stat := 0 }
  else if nearlyZero t prec then { c with content := 0, dyn := 0, stat := 0 }
  else if lessThan t 0 prec then { c with content := 0, dyn := 0, stat := 0 }
  else { c with content := t, dyn := 0, stat := 0 }

/-- `Reset` (WaterContainer.cpp:217-221). -/
def reset (c : Cont K) : Cont K := { c with content := c.init, dyn := 0, stat := 0 }

/-- `SaveAsInitialState` (WaterContainer.cpp:223-225). -/
def save (c : Cont K) : Cont K := { c with init := c.content }

/-- `SetInitialState` (WaterContainer.h:199-201). -/
def setInit (c : Cont K) (v : K) : Cont K := { c with init := v }

/-- `GetTargetFillingRatio` (WaterContainer.cpp:244-247); `none` when there is no capacity (null
dereference) or the storage is infinite. -/
def fillingRatio (c : Cont K) : Option K :=
  match c.withChanges, c.cap with
  | some x, some cap => some (max 0 (min 1 (x / cap)))
  | _, _ => none

end Cont

/-- The limit of a single negative rate: `if (*changeRate < 0) *changeRate = 0`
(WaterContainer.cpp:81-82, 115-117). -/
def clip (r : K) : K := if r < 0 then 0 else r

/-- Sum of the linked (non-null) rates (WaterContainer.cpp:88-90, 119-121). -/
def sumRates (l : List (Option K)) : K := (l.map (·.getD 0)).sum

/-- Rates of the inflows that are limited through change-rate pointers. -/
def Inflow.rateOf : Inflow K → K
  | .rate (some r) => r
  | _ => 0

/-- Amounts of the inflows that are not limited (WaterContainer.cpp:99-106). -/
def Inflow.staticOf : Inflow K → K
  | .inst a => a
  | .amount a => a
  | .rate _ => 0

/-- First pass over the incoming fluxes: negative rates are set to zero (WaterContainer.cpp:98-121). -/
def Inflow.clip : Inflow K → Inflow K
  | .rate (some r) => .rate (some (HB.clip r))
  | x => x

/-- One proportional reduction of an outgoing rate (WaterContainer.cpp:131-145). -/
def limitOut (diff change outputs : K) (r : K) : K :=
  if nearlyZero r epsD then r
  else if nearlyEqual diff change prec then 0
  else r + diff * |r / outputs|

/-- One proportional reduction of an incoming rate (WaterContainer.cpp:168-176). -/
def limitIn (diff inputs : K) (r : K) : K :=
  if nearlyZero r epsD then r else r - diff * |r / inputs|

/-- The proportional reduction applied to an inflow entry. -/
def Inflow.limit (diff inputs : K) : Inflow K → Inflow K
  | .rate (some r) => .rate (some (limitIn diff inputs r))
  | x => x

/-- `WaterContainer::ApplyConstraints` (WaterContainer.cpp:55-177).

`outs`: change-rate slots of the output fluxes of the processes attached to this container;
`ovf`: position in `outs` of the first output flux of the linked overflow process, if any;
`ins`: the attached input fluxes.  Returns the updated slots.

Simplification: a flux that is at once an output and an input of the same container (self loop) would
share one slot in the code; here the two lists are separate.  The overflow process is taken to draw
from this container (ModelBuilder.cpp:131, 235 links it so). -/
def applyConstraints (c : Cont K) (dt : K) (outs : List (Option K)) (ovf : Option Nat)
    (ins : List (Inflow K)) : Except Err (List (Option K) × List (Inflow K)) :=
  if c.infinite then .ok (outs, ins) else
  if outs.any (fun o => match o with | some r => decide (r > 10000) | none => false) then
    .error .rateTooHigh
  else
  let outs := outs.map (Option.map clip)
  let outputs := sumRates outs
  let ins := ins.map Inflow.clip
  let inputs := (ins.map Inflow.rateOf).sum
  let inStat := (ins.map Inflow.staticOf).sum
  let change := inputs - outputs
  let content := c.content + c.dyn
  let outs :=
    if !c.allowNeg && decide (change < 0) && decide (content + inStat + change * dt < 0) then
      let diff := (content + inStat + change * dt) / dt
      outs.map (Option.map (limitOut diff change outputs))
    else outs
  match c.cap with
  | none => .ok (outs, ins)
  | some cap =>
    if content + inStat + change * dt > cap then
      let diff := (content + inStat + change * dt - cap) / dt
      match ovf with
      | some i =>
        match outs[i]? with
        | some (some _) => .ok (outs.set i (some diff), ins)
        | _ => .error .overflowUnlinked
      | none =>
        if content + inStat > cap then .error .forcingIntoLimited
        else .ok (outs, ins.map (Inflow.limit diff inputs))
    else .ok (outs, ins)

end HB
