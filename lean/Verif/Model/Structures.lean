import Verif.Model.Settings
import Mathlib.Data.Finset.Card
import Mathlib.Data.Rat.Defs
import Mathlib.Algebra.Order.Field.Basic
import Mathlib.Algebra.Order.Ring.Abs
import Mathlib.Tactic.NormNum
import Mathlib.Tactic.Ring

/-!
# Structure variants: creation, assignment to hydro units, log labels and log connections

Model of `SettingsModel::AddStructure`, `ModelBuilder::AssignHydroUnitStructures`, the log label lists and
`ModelBuilder::ConnectLoggerToValues`.
-/

set_option linter.unusedSectionVars false

namespace HB

section
variable {V : Type}

/-- The constructor of `SettingsModel` (SettingsModel.cpp:12-23). -/
def initSettings : Settings V :=
  { variants := [⟨1, [], [], [], [], [], []⟩], sel := 0 }

/-- `SettingsModel::AddStructure` (SettingsModel.cpp:636-651): the new settings and the returned id. -/
def Settings.addStructure (S : Settings V) : Settings V × ℤ :=
  let newId := S.variants.foldl (fun m s => max m (s.id + 1)) 1
  ({ variants := S.variants ++ [⟨newId, [], [], [], [], [], []⟩], sel := S.variants.length }, newId)

/-- `GetSelectedStructureLandCoverNames` (SettingsModel.cpp:862-871); indices come from `AddLandCoverBrick` (85-94) and
are therefore in range. -/
def Variant.coverNames (s : Variant V) : List String :=
  s.coverIdx.filterMap fun i => (s.unitBricks[i]?).map fun b => b.name

end

section
variable {K : Type} [Field K] [LinearOrder K] [IsStrictOrderedRing K]

/-- Land covers present in a unit (ModelBuilder.cpp:54-60); `PRECISION` is 1e-8 (NumericConstants.h:34). -/
def presentCovers (l : List (String × K)) : Finset String :=
  ((l.filter fun e => decide (¬ |e.2| ≤ 1 / 100000000)).map Prod.fst).toFinset

end

/-- Loop variables of ModelBuilder.cpp:76-79. -/
structure Scan where
  smallest : Option (ℕ × ℕ)
  largest : ℕ
  largestSize : ℕ

/-- One iteration (ModelBuilder.cpp:81-90) for variant `id` with covers `cs`. -/
def Scan.step (present : Finset String) (sc : Scan) (id : ℕ) (cs : Finset String) : Scan :=
  let sc := if cs.card > sc.largestSize then { sc with largest := id, largestSize := cs.card } else sc
  if present ⊆ cs ∧ (∀ p ∈ sc.smallest, cs.card < p.2) then { sc with smallest := some (id, cs.card) } else sc

/-- The loop over ids `id, id+1, …` (ModelBuilder.cpp:80-91).  `smallest = none` stands for `smallestSuperset = -1` with
the size at its maximum. -/
def scanFrom (present : Finset String) : ℕ → Scan → List (Finset String) → Scan
  | _, sc, [] => sc
  | id, sc, cs :: l => scanFrom present (id + 1) (sc.step present id cs) l

/-- `AssignHydroUnitStructures` for one unit (ModelBuilder.cpp:36-97): `covers` are the land cover sets of the variants
with ids 1, 2, …  (see `c48_ids`). -/
def assignId (covers : List (Finset String)) (present : Finset String) : ℕ :=
  if covers.length ≤ 1 then 1
  else
    match covers.findIdx? fun cs => decide (cs = present) with
    | some i => i + 1
    | none =>
      let sc := scanFrom present 1 ⟨none, 1, 0⟩ covers
      match sc.smallest with
      | some p => p.1
      | none => sc.largest

/-! ## Log labels -/

section
variable {V : Type}

/-- Log items of a list of bricks with the thing they point to: brick name, position of the process, item. -/
inductive LogSrc where
  /-- `GetBaseValuePointer` or `GetValuePointer` of the brick -/
  | brick (name item : String)
  /-- `GetValuePointer` of the process at that position in the brick -/
  | proc (brick : String) (pos : ℕ) (item : String)
  /-- `GetValuePointer` of the splitter at that position -/
  | split (pos : ℕ) (item : String)
  /-- `SubBasin::GetValuePointer` -/
  | generic (item : String)
  deriving DecidableEq, Repr

/-- Labels and sources of a brick (SettingsModel.cpp:823-832 with ModelBuilder.cpp:823-858; 888-897 with 737-775). -/
def BrickSet.logItems (b : BrickSet V) : List (String × LogSrc) :=
  (b.logs.map fun item => (b.name ++ ":" ++ item, .brick b.name item)) ++
  (b.procs.zipIdx.map fun p => p.1.logs.map fun item => (b.name ++ ":" ++ p.1.name ++ ":" ++ item, .proc b.name p.2 item)).flatten

/-- Labels and sources of splitters (SettingsModel.cpp:833-837 with ModelBuilder.cpp:861-875; 898-902 with 777-792). -/
def splitLogItems (l : List (SplitSet V)) : List (String × LogSrc) :=
  (l.zipIdx.map fun s => s.1.logs.map fun item => (s.1.name ++ ":" ++ item, LogSrc.split s.2 item)).flatten

/-- Log items of the hydro units of a variant, in the order both functions go through them. -/
def Variant.unitLog (s : Variant V) : List (String × LogSrc) :=
  (s.unitBricks.map BrickSet.logItems).flatten ++ splitLogItems s.unitSplits

/-- Log items of the sub-basin of a variant, in the order both functions go through them. -/
def Variant.basinLog (s : Variant V) : List (String × LogSrc) :=
  (s.basinBricks.map BrickSet.logItems).flatten ++ splitLogItems s.basinSplits ++ s.logs.map fun item => (item, .generic item)

/-- The lambda `add` with the set `seen` (SettingsModel.cpp:814-820, 879-885). -/
def firstSeen (l : List String) : List String := l.foldl (fun acc x => if x ∈ acc then acc else acc ++ [x]) []

/-- `GetHydroUnitLogLabels` (SettingsModel.cpp:808-841). -/
def Settings.unitLabels (S : Settings V) : List String :=
  firstSeen ((S.variants.map fun s => s.unitLog.map Prod.fst).flatten)

/-- `GetSubBasinLogLabels` (SettingsModel.cpp:873-909). -/
def Settings.basinLabels (S : Settings V) : List String :=
  firstSeen ((S.variants.map fun s => s.basinLog.map Prod.fst).flatten)

/-- Column of a label: `labelIndex` (ModelBuilder.cpp:809-813); `none` is the `std::out_of_range` of `at`. -/
def labelIndex (labels : List String) (x : String) : Option ℕ :=
  if x ∈ labels then some (labels.idxOf x) else none

/-- Value pointers of one hydro unit (ModelBuilder.cpp:816-876): column by column, `none` for a null pointer.  `items` are
the log items of its variant.  The outer `none`: thrown. -/
def connectUnit (labels : List String) (items : List (String × LogSrc)) : Option (List (Option LogSrc)) :=
  items.foldlM (fun cols e => (labelIndex labels e.1).map fun j => cols.set j (some e.2))
    (List.replicate labels.length none)

/-- Value pointers of the sub-basin (ModelBuilder.cpp:734-804): the items of the first variant by position.  Writing past
the end of `_subBasinValuesPt` (Logger.cpp:52-55) is `none`. -/
def connectBasin (labels : List String) (items : List (String × LogSrc)) : Option (List (Option LogSrc)) :=
  if items.length ≤ labels.length then
    some (items.map (fun e => some e.2) ++ List.replicate (labels.length - items.length) none)
  else none

/-- `Logger::Record` for the sub-basin (Logger.cpp:96-99): a null pointer is dereferenced (`none`). -/
def recordBasin {X : Type} (value : LogSrc → X) (cols : List (Option LogSrc)) : Option (List X) :=
  cols.mapM fun c => c.map value

/-- `Logger::Record` for a hydro unit (Logger.cpp:101-109): columns without a pointer keep NaN (`none`). -/
def recordUnit {X : Type} (value : LogSrc → X) (cols : List (Option LogSrc)) : List (Option X) :=
  cols.map fun c => c.map value

end

end HB
