import Verif.Model.ParamsFrom
import Verif.Props.Settings
import Mathlib.Data.Rat.Defs
import Mathlib.Algebra.Order.Field.Rat
import Mathlib.Tactic.NormNum

/-! # C59: parameter values reach every component of a built model -/

set_option linter.unusedSectionVars false

namespace HB.Par
open HB.Names

section
variable {V : Type}

/-- **C59 (update = rebuild).** Take any settings (distinct variant ids with a variant 1, distinct names of the unit bricks of
a variant), any hydro units whose structure ids exist, and the model built from them.  Calling `UpdateParameters` with any
settings object of the same shape (same components and parameter names, any values) succeeds and gives exactly the model that
building from those settings would give - provided no glacier goes from infinite to finite ice (`c59_infinite_latched`). -/
theorem c59_update_is_rebuild (zero : V → Bool) (surf : ℕ → List ℕ) (o o' : ℕ) (S S' : Settings V) (us : List (ℤ × String)) (m : Built)
    (ht : Tidy surf S) (hk : ∀ u ∈ us, ∃ s ∈ S.variants, s.id = u.1) (hS : SameShape S S')
    (hi : ∀ v p, infOf zero S v p = true → infOf zero S' v p = true) (hb : build zero surf o S us = some m) :
    (build zero surf o' S' us).isSome ∧ update zero o' S' m = build zero surf o' S' us := by
  obtain ⟨h1, h2⟩ := (build_iff ht hk).1 hb
  obtain ⟨m', e1, e2, e3⟩ := update_from (zero := zero) o' hS ht h2
  have hinf : (fun v p => infOf zero S v p || infOf zero S' v p) = infOf zero S' := by
    funext v p
    have := hi v p
    cases h : infOf zero S v p <;> cases h' : infOf zero S' v p <;> simp_all
  rw [hinf] at e3
  have hk' : ∀ u ∈ us, ∃ s ∈ S'.variants, s.id = u.1 := by
    intro u hu
    obtain ⟨v, s, hv, hid⟩ := exists_at (hk u hu)
    obtain ⟨s', hs', hss⟩ := hS.at hv
    exact ⟨s', List.mem_of_getElem? hs', by rw [← hss.id]; exact hid⟩
  have := (build_iff (o := o') (zero := zero) (hS.tidy ht) hk').2 ⟨e2.trans h1, e3⟩
  rw [e1, this]
  exact ⟨rfl, rfl⟩

/-- What the user does to a built model between two runs: set a parameter (by component name, type or list), or update. -/
inductive Op (V : Type) where
  | set (component name : String) (x : V)
  | update

/-- The settings object and the model after a call; a failing `SetParameterValue` leaves the settings as they are when it
fails. -/
def Op.run (zero : V → Bool) (o : ℕ) (st : Settings V × Built) : Op V → Option (Settings V × Built)
  | .set c n x => some (left (setParameterValue c n x st.1), st.2)
  | .update => (Par.update zero o st.1 st.2).map fun m => (st.1, m)

/-- A sequence of calls. -/
def runOps (zero : V → Bool) (o : ℕ) : List (Op V) → Settings V × Built → Option (Settings V × Built)
  | [], st => some st
  | op :: ops, st => (op.run zero o st).bind (runOps zero o ops)

/-- The contents of the settings object at each update of a sequence of calls. -/
def atUpdates : List (Op V) → Settings V → List (Settings V)
  | [], _ => []
  | .set c n x :: ops, S => atUpdates ops (left (setParameterValue c n x S))
  | .update :: ops, S => S :: atUpdates ops S

theorem runOps_from {zero : V → Bool} {surf : ℕ → List ℕ} {o : ℕ} : ∀ (ops : List (Op V)) (S T : Settings V) (m : Built) (inf : ℕ → Place → Bool),
    Tidy surf T → SameShape T S → ModelFrom surf inf o T m →
    ∃ S' m', runOps zero o ops (S, m) = some (S', m') ∧
      (m'.units.map fun u => (u.structureId, u.aspect)) = (m.units.map fun u => (u.structureId, u.aspect)) ∧
      ∃ T', Tidy surf T' ∧ SameShape T' S' ∧
        ModelFrom surf (fun v p => inf v p || (atUpdates ops S).any fun U => infOf zero U v p) o T' m' := by
  intro ops
  induction ops with
  | nil => intro S T m inf ht hS hm; exact ⟨S, m, rfl, rfl, T, ht, hS, by simpa [atUpdates] using hm⟩
  | cons op ops ih =>
    intro S T m inf ht hS hm
    cases op with
    | set c n x =>
      exact ih (left (setParameterValue c n x S)) T m inf ht (hS.trans (sameShape_set c n x S)) hm
    | update =>
      obtain ⟨m1, e1, e2, e3⟩ := update_from (zero := zero) o hS ht hm
      obtain ⟨S', m', f1, f2, T', f3, f4, f5⟩ := ih S S m1 _ (hS.tidy ht) (SameShape.refl S) e3
      refine ⟨S', m', ?_, f2.trans e2, T', f3, f4, ?_⟩
      · simp only [runOps, Op.run, e1, Option.map_some, Option.bind_some]
        exact f1
      · simpa [atUpdates, Bool.or_assoc] using f5

/-- **C59 (every history).** Build a model and then make any sequence of parameter settings - successful or failing - and
updates, in any order.  No update fails, the units keep their structure variant, and at the end every brick, process and
splitter of every unit and of the sub-basin uses exactly the values its own settings hold at that moment, updated or not. -/
theorem c59_values_after_any_history (zero : V → Bool) (surf : ℕ → List ℕ) (o : ℕ) (S : Settings V) (us : List (ℤ × String)) (m : Built)
    (ht : Tidy surf S) (hk : ∀ u ∈ us, ∃ s ∈ S.variants, s.id = u.1) (hb : build zero surf o S us = some m) (ops : List (Op V)) :
    ∃ S' m', runOps zero o ops (S, m) = some (S', m') ∧ (m'.units.map fun u => (u.structureId, u.aspect)) = us ∧
      ∀ (one : V) (mem : ℕ → Settings V), mem o = S' → Reads one mem m' S' := by
  obtain ⟨h1, h2⟩ := (build_iff ht hk).1 hb
  obtain ⟨S', m', e1, e2, T', e3, e4, e5⟩ := runOps_from (zero := zero) ops S S m _ ht (SameShape.refl S) h2
  refine ⟨S', m', e1, e2.trans h1, ?_⟩
  intro one mem hmem
  have := e5.reads e3 one mem (hmem ▸ e4)
  rwa [hmem] at this

/-- **C59 (infinite ice).** After any such history, a brick of a unit has infinite ice exactly if it is a glacier whose settings
asked for it when the model was built or at one of the updates. -/
theorem c59_infinite_ice (zero : V → Bool) (surf : ℕ → List ℕ) (o : ℕ) (S : Settings V) (us : List (ℤ × String)) (m : Built)
    (ht : Tidy surf S) (hk : ∀ u ∈ us, ∃ s ∈ S.variants, s.id = u.1) (hb : build zero surf o S us = some m) (ops : List (Op V)) :
    ∃ S' m', runOps zero o ops (S, m) = some (S', m') ∧
      ∀ u ∈ m'.units, ∀ b ∈ u.bricks, ∃ v i : ℕ, (∃ s : Variant V, S.variants[v]? = some s ∧ s.id = u.structureId ∧
          ∃ x : BrickSet V, s.unitBricks[i]? = some x ∧ x.name = b.name) ∧
        (b.infinite = true ↔ ∃ U ∈ S :: atUpdates ops S, ∃ s : Variant V, U.variants[v]? = some s ∧
          ∃ x : BrickSet V, s.unitBricks[i]? = some x ∧
          brickMap.lookup x.type = some .glacier ∧ ∃ e : String × V, x.params.find? (fun e => e.1 == "infinite_storage") = some e ∧ zero e.2 = false) := by
  obtain ⟨h1, h2⟩ := (build_iff ht hk).1 hb
  obtain ⟨S', m', e1, e2, T', e3, e4, e5⟩ := runOps_from (zero := zero) ops S S m _ ht (SameShape.refl S) h2
  have hsh : SameShape T' S := by
    have : ∀ (ops : List (Op V)) (S S' : Settings V) (m m' : Built), runOps zero o ops (S, m) = some (S', m') → SameShape S S' := by
      intro ops
      induction ops with
      | nil => intro S S' m m' h; simp only [runOps, Option.some.injEq, Prod.mk.injEq] at h; rw [h.1]; exact .refl _
      | cons op ops ih =>
        intro S S' m m' h
        cases op with
        | set c n x => exact (sameShape_set c n x S).trans (ih _ _ _ _ h)
        | update =>
          simp only [runOps, Op.run, Option.bind_eq_some_iff, Option.map_eq_some_iff] at h
          obtain ⟨st, ⟨m1, _, rfl⟩, h⟩ := h
          exact ih _ _ _ _ h
    exact e4.trans (this ops S S' m m' e1).symm
  refine ⟨S', m', e1, ?_⟩
  intro u hu b hbm
  obtain ⟨v, s, hv, hid, ⟨g, hg, hgi⟩, _⟩ := e5.units u hu
  rw [hg] at hbm
  obtain ⟨i, hi, rfl⟩ := List.mem_map.1 hbm
  have hx := List.getElem?_eq_getElem ((order_mem (e3.places v s hv).2 i).1 hi)
  obtain ⟨n1, _, _, n4, _⟩ := (brickFrom_iff _ _ _ _ _).1 (hgi i _ hx)
  obtain ⟨s0, hs0, hss⟩ := hsh.at hv
  obtain ⟨x0, hx0, he⟩ := map_at hss.unitBricks hx
  refine ⟨v, i, ⟨s0, hs0, by rw [← hss.id, hid], x0, hx0, ?_⟩, ?_⟩
  · rw [n1]
    exact (congrArg Prod.fst he).symm
  · rw [n4]
    have key : ∀ U : Settings V, infOf zero U v (.unitBrick i) = true ↔ ∃ s : Variant V, U.variants[v]? = some s ∧
        ∃ x : BrickSet V, s.unitBricks[i]? = some x ∧ brickMap.lookup x.type = some .glacier ∧ ∃ e : String × V, x.params.find? (fun e => e.1 == "infinite_storage") = some e ∧ zero e.2 = false := by
      intro U
      unfold infOf
      cases hU : U.variants[v]? with
      | none => simp
      | some s =>
        simp only [Option.bind_some, brickAt, Option.some.injEq, exists_eq_left']
        cases hxi : s.unitBricks[i]? with
        | none => simp
        | some x =>
          simp only [Option.some.injEq, exists_eq_left', asksInfinite, Bool.and_eq_true, decide_eq_true_eq]
          refine and_congr Iff.rfl ?_
          unfold saysInfinite
          cases x.params.find? (fun e => e.1 == "infinite_storage") <;> simp
    simp only [Bool.or_eq_true, List.any_eq_true, List.mem_cons, exists_eq_or_imp, key]

/-- **C59 with C45 (one parameter, by component name).** Settings with distinct component and parameter names, and a component
name `c` all of whose bearers have a parameter `n`: after `SetParameterValue(c, n, x)` every component of the built model uses
the value `x` for the parameter `n` of the components named `c`, and its former values for all the others - whether or not
`UpdateParameters` is called as well. -/
theorem c59_set_by_name (zero : V → Bool) (surf : ℕ → List ℕ) (o : ℕ) (S : Settings V) (us : List (ℤ × String)) (m : Built)
    (ht : Tidy surf S) (hk : ∀ u ∈ us, ∃ s ∈ S.variants, s.id = u.1) (hb : build zero surf o S us = some m)
    (hw : S.WellFormed) (hd : S.Distinct) (c n : String) (x : V) (hc : ',' ∉ c.toList) (hty : ¬ "type:".toList <:+: c.toList)
    (hhas : S.Has c) (hall : ∀ s ∈ S.variants, ∀ k ∈ s.comps, k.1.name = c → n ∈ k.2) (withUpdate : Bool) :
    ∃ m', runOps zero o (.set c n x :: if withUpdate then [.update] else []) (S, m) =
        some (S.mapVals fun k p y => if k.name = c ∧ p = n then x else y, m') ∧
      ∀ (one : V) (mem : ℕ → Settings V), mem o = (S.mapVals fun k p y => if k.name = c ∧ p = n then x else y) →
        Reads one mem m' (S.mapVals fun k p y => if k.name = c ∧ p = n then x else y) := by
  have hset := (c45_by_name_partial c n x S hw hd hc hty).2.1 hhas hall
  obtain ⟨S', m', e1, _, e3⟩ := c59_values_after_any_history zero surf o S us m ht hk hb
    (.set c n x :: if withUpdate then [.update] else [])
  have hS' : S' = S.mapVals fun k p y => if k.name = c ∧ p = n then x else y := by
    cases withUpdate
    · simp only [runOps, Op.run, hset, left, Option.bind_some, Bool.false_eq_true, if_false, Option.some.injEq,
        Prod.mk.injEq] at e1
      exact e1.1.symm
    · simp only [runOps, Op.run, hset, left, Option.bind_some, if_true, Option.bind_eq_some_iff,
        Option.map_eq_some_iff, Option.some.injEq] at e1
      obtain ⟨st, ⟨m1, _, rfl⟩, e⟩ := e1
      exact (congrArg Prod.fst e).symm
  subst hS'
  exact ⟨m', e1, e3⟩

end

/-! ## Examples and findings -/

namespace Demo

/-- A variant with a glacier, its snowpack and a linear store, and a rain splitter. -/
def glacierVariant (k inf : ℚ) : Variant ℚ :=
  ⟨1, [], [⟨"glacier", "glacier", [("infinite_storage", inf)], [⟨"melt", "melt:degree_day", [("degree_day_factor", 3), ("melting_temperature", 0)], []⟩], []⟩,
           ⟨"glacier_snowpack", "snowpack", [], [⟨"melt", "melt:degree_day", [("degree_day_factor", 4), ("melting_temperature", 0)], []⟩], []⟩,
           ⟨"slow", "storage", [("capacity", 200)], [⟨"outflow", "outflow:linear", [("response_factor", k)], []⟩], []⟩],
    [⟨"lake", "storage", [], [⟨"outflow", "outflow:linear", [("response_factor", k)], []⟩], []⟩], [0],
    [⟨"snow_rain", "snow_rain:linear", [("transition_start", 0), ("transition_end", 2)], []⟩], []⟩

/-- A second variant, without the glacier. -/
def groundVariant (k : ℚ) : Variant ℚ :=
  ⟨2, [], [⟨"slow", "storage", [("capacity", 100)], [⟨"outflow", "outflow:linear", [("response_factor", k)], []⟩], []⟩], [], [],
    [⟨"rain", "rain", [], []⟩], []⟩

def demo (k inf : ℚ) : Settings ℚ := ⟨[glacierVariant k inf, groundVariant k], 0⟩
def demoSurf : ℕ → List ℕ := fun v => if v = 0 then [1] else []
def isZero (x : ℚ) : Bool := decide (x = 0)
def demoUnits : List (ℤ × String) := [(1, "N"), (2, "S")]

/-- What the processes of the bricks of each unit read. -/
def procValues (mem : ℕ → Settings ℚ) (bs : List BBrick) : List (Option ℚ) :=
  bs.flatMap fun b => b.procs.flatMap fun p => p.ptrs.map (read 1 mem)

theorem demo_tidy : Tidy demoSurf (demo (1/10) 1) := by
  refine ⟨by decide +kernel, ⟨glacierVariant (1/10) 1, by simp [demo], rfl⟩, ?_, ?_⟩
  · intro v s h
    match v, h with
    | 0, h => cases h; exact ⟨by decide +kernel, by decide +kernel⟩
    | 1, h => cases h; exact ⟨by decide +kernel, by decide +kernel⟩
    | n + 2, h => simp [demo] at h
  · intro s hs
    simp only [demo, List.mem_cons, List.not_mem_nil, or_false] at hs
    rcases hs with rfl | rfl <;> decide +kernel

/-- The demonstration model can be built, and the hypotheses of the theorems hold. -/
theorem demo_builds : (build isZero demoSurf 0 (demo (1/10) 1) demoUnits).isSome = true := by decide +kernel

example : ∀ u ∈ demoUnits, ∃ s ∈ (demo (1/10) 1).variants, s.id = u.1 := by
  intro u hu
  simp only [demoUnits, List.mem_cons, List.not_mem_nil, or_false] at hu
  rcases hu with rfl | rfl
  · exact ⟨glacierVariant (1/10) 1, by simp [demo], rfl⟩
  · exact ⟨groundVariant (1/10), by simp [demo], rfl⟩

/-- Setting the response factor of the store called `slow` to 1/4 reaches it in both variants, and only it. -/
theorem demo_set :
    ((build isZero demoSurf 0 (demo (1/10) 1) demoUnits).bind fun m =>
      (runOps isZero 0 [.set "slow" "response_factor" (1/4), .update] (demo (1/10) 1, m)).map fun r =>
        procValues (fun _ => r.1) r.2.basinBricks :: r.2.units.map fun u => procValues (fun _ => r.1) u.bricks) =
    some [[some (1/10)], [some 4, some 0, some 3, some 0, some (1/4)], [some (1/4)]] := by
  decide +kernel

/-- **C59 finding.** `infinite_storage` is read once and can only be switched on: after setting it to zero and updating, the
glacier still has infinite ice, unlike in a model built from the same settings. -/
theorem c59_infinite_latched :
    ((build isZero demoSurf 0 (demo (1/10) 1) demoUnits).bind fun m =>
      (runOps isZero 0 [.set "glacier" "infinite_storage" 0, .update] (demo (1/10) 1, m)).map fun r =>
        r.2.units.map fun u => u.bricks.map fun b => b.infinite) = some [[false, true, false], [false]] ∧
    ((build isZero demoSurf 0 (demo (1/10) 0) demoUnits).map fun m => m.units.map fun u => u.bricks.map fun b => b.infinite) =
      some [[false, false, false], [false]] := by
  constructor <;> decide +kernel

/-- **C59 finding.** Without an update, switching infinite ice on has no effect (all other values take effect at once). -/
theorem c59_infinite_needs_update :
    ((build isZero demoSurf 0 (demo (1/10) 0) demoUnits).bind fun m =>
      (runOps isZero 0 [.set "glacier" "infinite_storage" 1] (demo (1/10) 0, m)).map fun r =>
        r.2.units.map fun u => u.bricks.map fun b => b.infinite) = some [[false, false, false], [false]] := by
  decide +kernel

/-- Two stores of the same name. -/
def twins (a b : ℚ) : Settings ℚ :=
  ⟨[⟨1, [], [⟨"store", "storage", [("capacity", a)], [], []⟩, ⟨"store", "storage", [("capacity", b)], [], []⟩], [], [], [], []⟩], 0⟩

/-- **C59 finding.** With two bricks of the same name, updating from another settings object leaves the first brick on the old
object: it uses 1 instead of 10. -/
theorem c59_repeated_name_stale :
    ((build isZero (fun _ => []) 0 (twins 1 2) [(1, "")]).bind fun m => (update isZero 1 (twins 10 20) m).map fun m' =>
      m'.units.map fun u => u.bricks.map fun b => b.ptrs.map (read 1 fun o => if o = 0 then twins 1 2 else twins 10 20)) =
    some [[[some 1], [some 20]]] := by
  decide +kernel

/-- **C59 finding.** A unit with an unknown structure id is silently built with, and later updated from, the variant of the
unit before it. -/
theorem c59_unknown_structure :
    ((build isZero demoSurf 0 (demo (1/10) 1) [(2, ""), (7, "")]).map fun m => m.units.map fun u => u.bricks.map fun b => b.name) =
      some [["slow"], ["slow"]] ∧
    ((build isZero demoSurf 0 (demo (1/10) 1) [(7, "")]).map fun m => m.units.map fun u => u.bricks.map fun b => b.name) =
      some [["glacier_snowpack", "glacier", "slow"]] := by
  constructor <;> decide +kernel

end Demo

end HB.Par
