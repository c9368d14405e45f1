import Verif.Model.Calendar

/-!
# Scheduling of actions

Model of `ActionsManager` (ActionsManager.cpp:16-102) and of the date handling of `Action` (Action.cpp:18-69,
ActionLandCoverChange.cpp:8-17).  The effect of an action item is not modelled here: the model records which item of
which action is applied at which date (`log`).  `Apply` returning false aborts the run (`RuntimeError`); the model is
that of the runs where it succeeds.
-/

namespace HB

/-! ## Dated items -/

/-- `Action::GetIndexForInsertion` (Action.cpp:59-69): index of the first stored date that is not before `date`. -/
def insertionIndex {K : Type} [LinearOrder K] (dates : List K) (date : K) : ℕ :=
  (dates.takeWhile fun e => !decide (date ≤ e)).length

/-- `ActionLandCoverChange::AddChange` (ActionLandCoverChange.cpp:8-17): date and change inserted at that index (the
parallel vectors are one list of pairs here). -/
def addChange {K P : Type} [LinearOrder K] (l : List (K × P)) (date : K) (p : P) : List (K × P) :=
  l.insertIdx (insertionIndex (l.map Prod.fst) date) (date, p)

/-- One application: model date, action, item number of that action (`_cursor`). -/
structure ActEntry (K : Type) where
  time : K
  action : ℕ
  item : ℕ
  deriving DecidableEq, Repr

/-- `ActionsManager`: `_sporadicActionDates` and `_sporadicActionIndices` (one list of pairs, both vectors are always
updated at the same index), number of actions, `_cursorManager`, the actions' `_cursor`s. -/
structure ActMgr (K : Type) where
  items : List (K × ℕ) := []
  count : ℕ := 0
  cursor : ℕ := 0
  acur : ℕ → ℕ := fun _ => 0
  log : List (ActEntry K) := []

section
variable {K : Type} [LinearOrder K]

/-- Reset of the search index (ActionsManager.cpp:46-49). `none`: read outside the vector. -/
def startIndex (l : List (K × ℕ)) (i : ℕ) (date : K) : Option ℕ :=
  if l.isEmpty then some i else (l[i]?).map fun e => if e.1 > date then 0 else i

/-- One date of a new action (ActionsManager.cpp:45-59): reset of the index if needed, search, insertion.  `none`:
read outside the vector. -/
def insertDate (a : ℕ) (s : List (K × ℕ) × ℕ) (date : K) : Option (List (K × ℕ) × ℕ) :=
  (startIndex s.1 s.2 date).map fun i =>
    let i' := i + ((s.1.drop i).takeWhile fun e => !decide (date ≤ e.1)).length
    (s.1.insertIdx i' (date, a), i')

/-- All dates of the new action (ActionsManager.cpp:44-60). -/
def insertDates (a : ℕ) : List K → List (K × ℕ) × ℕ → Option (List (K × ℕ) × ℕ)
  | [], s => some s
  | d :: ds, s => match insertDate a s d with
    | none => none
    | some s' => insertDates a ds s'

/-- `ActionsManager::AddAction` for a dated action (ActionsManager.cpp:24-64). -/
def ActMgr.addAction (m : ActMgr K) (dates : List K) : Option (ActMgr K) :=
  (insertDates m.count dates (m.items, 0)).map fun s => { m with items := s.1, count := m.count + 1 }

/-- Registration of several actions. -/
def ActMgr.addActions (m : ActMgr K) : List (List K) → Option (ActMgr K)
  | [] => some m
  | ds :: l => match m.addAction ds with
    | none => none
    | some m' => m'.addActions l

/-- Loop of `DateUpdate` over the items from the cursor on (ActionsManager.cpp:96-102). -/
def ActMgr.applyDue (date : K) : List (K × ℕ) → ActMgr K → ActMgr K
  | [], m => m
  | (d, a) :: rest, m =>
    if d ≤ date then
      applyDue date rest { m with
        cursor := m.cursor + 1
        acur := Function.update m.acur a (m.acur a + 1)
        log := m.log ++ [⟨date, a, m.acur a⟩] }
    else m

/-- `ActionsManager::DateUpdate`, dated part (ActionsManager.cpp:90-102). -/
def ActMgr.dateUpdate (m : ActMgr K) (date : K) : ActMgr K := ActMgr.applyDue date (m.items.drop m.cursor) m

/-- Successive clock dates. -/
def ActMgr.updates (m : ActMgr K) (dates : List K) : ActMgr K := dates.foldl ActMgr.dateUpdate m

/-- `ActionsManager::Reset` (ActionsManager.cpp:16-22), then a new run (empty log). -/
def ActMgr.reset (m : ActMgr K) : ActMgr K := { m with cursor := 0, acur := fun _ => 0, log := [] }

end

/-! ## Recurring actions -/

/-- `constants::daysInMonth` (GlobVars.h:11). -/
def daysInMonth : List ℤ := [31, 28, 31, 30, 31, 30, 31, 31, 30, 31, 30, 31]

/-- `AddRecursiveDate` (Action.cpp:18-32): the month is replaced by 1 when invalid, the day clamped. -/
def addRecursiveDate (l : List (ℤ × ℤ)) (month day : ℤ) : List (ℤ × ℤ) :=
  let month := if month < 1 ∨ month > 12 then 1 else month
  let day := min day (daysInMonth.getD (month - 1).toNat 0)
  let day := max day 1
  l ++ [(month, day)]

/-- `ApplyIfRecursive` (Action.cpp:42-57), `_recursiveMonths` and `_recursiveDays` being the components of the list:
does the action fire at this calendar date?  (Every month of the list is combined with every day of the list.) -/
def firesOn (l : List (ℤ × ℤ)) (month day : ℤ) : Bool :=
  (l.map Prod.fst).any fun m => m == month && (l.map Prod.snd).any fun d => d == day

/-- Recurring part of `DateUpdate` (ActionsManager.cpp:80-88): at which model dates the action fires. -/
def firesAt {K : Type} [Field K] [LinearOrder K] [IsStrictOrderedRing K] [FloorRing K] (l : List (ℤ × ℤ)) (date : K) : Bool :=
  firesOn l (fromMJD date).month (fromMJD date).day

end HB
