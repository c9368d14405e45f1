import Verif.Props.Predefined
import Verif.Props.AssembleExamples

/-!
# C64: models that meet the conditions, and options that do not work together
-/

namespace HB

set_option linter.unusedSectionVars false

open HB.Names HB.Wire HB.Asm

namespace PreDemo

/-- Enough to check for `GoodCovers`. -/
theorem good_of {cs : List PyCover}
    (h : (Spec.suffixes.flatMap (fun s => cs.map fun c => c.name ++ s) ++ Spec.reserved).Nodup ∧
      (∀ c ∈ cs, c.name ≠ "" ∧ ':' ∉ c.name.toList) ∧
      ∀ c ∈ cs, c.kind ∈ ["open", "ground", "generic", "generic_land_cover", "forest", "lake", "glacier"]) : Spec.GoodCovers cs := ⟨h.1, h.2.1, h.2.2⟩

theorem default_snow : Spec.GoodSnow {} := by
  refine ⟨by decide, by decide, by decide, by decide, by decide, ?_, by decide⟩
  intro p hp; cases hp

theorem hbv_snow : Spec.GoodSnow ({} : HbvOpts).snow := by
  refine ⟨by decide, by decide, by decide, by decide, by decide, ?_, by decide⟩
  intro p hp; cases hp

/-- The structure a variant writes. -/
def strOf (v : Variant) : Struct := match generateOne v with | .ok a => a.str | .error _ => {}

/-- The model with the given choice of variants and areas. -/
def inputOf (vs : List Variant) (units : List (ℕ × ℚ)) : Input ℚ :=
  ⟨(vs.head?.map strOf).getD {}, units.map fun u => ⟨(vs[u.1]?.map strOf).getD {}, u.2, []⟩⟩

theorem generate_of {v : Variant} (h : (match generateOne v with | .ok _ => true | .error _ => false) = true) :
    ∃ a, generateOne v = .ok a ∧ strOf v = a.str := by
  unfold strOf
  split at h
  · exact ⟨_, by assumption, rfl⟩
  · cases h

theorem from_of {vs : List Variant} {units : List (ℕ × ℚ)} (hne : vs ≠ [])
    (h : ∀ v ∈ vs, (match generateOne v with | .ok _ => true | .error _ => false) = true) (hu : ∀ u ∈ units, u.1 < vs.length) :
    Spec.FromModel vs (inputOf vs units) := by
  obtain ⟨v, l, rfl⟩ := List.exists_cons_of_ne_nil hne
  refine ⟨?_, ?_⟩
  · obtain ⟨a, ha, hs⟩ := generate_of (h v (List.mem_cons_self ..))
    exact ⟨v, a, rfl, ha, hs⟩
  · intro un hun
    obtain ⟨u, hm, rfl⟩ := List.mem_map.1 hun
    have hlt := hu u hm
    obtain ⟨a, ha, hs⟩ := generate_of (h _ (List.getElem_mem hlt))
    refine ⟨_, List.getElem_mem hlt, a, ha, ?_⟩
    dsimp only
    rw [List.getElem?_eq_getElem hlt]
    exact hs

/-- The built model. -/
def modelOf (inp : Input ℚ) : Wire.Model ℚ := match build inp with | .ok m => m | .error _ => ⟨⟨[], [], [], 0⟩, .empty, []⟩

theorem modelOf_eq {inp : Input ℚ} (h : ∃ m, build inp = .ok m) : build inp = .ok (modelOf inp) := by
  obtain ⟨m, hm⟩ := h
  unfold modelOf
  rw [hm]

/-- The land covers of a unit share it equally. -/
def share (inp : Input ℚ) (u _ : ℕ) : ℚ := (inp.units[u]?).elim 0 fun un => 1 / un.str.covers.length

theorem areas_of {inp : Input ℚ} (h : ∀ un ∈ inp.units, 0 < un.area) : Spec.AreasGiven inp (share inp) := by
  refine ⟨h, fun u un hu i _ => ?_⟩
  unfold share
  rw [hu]
  dsimp only [Option.elim]
  refine ⟨by positivity, ?_⟩
  rcases Nat.eq_zero_or_pos un.str.covers.length with h0 | h0
  · rw [h0]; norm_num
  · rw [div_le_one (by exact_mod_cast h0)]
    exact_mod_cast h0

/-- All stores hold 5. -/
def phys : Phys ℚ where
  cont := fun _ => ⟨5, 0, 0, 0, none, false, false⟩
  amt := fun _ => 0
  snap := fun _ => 0
  exch := fun _ => 0

/-- The initial state. -/
def start : Sys ℚ Unit := ⟨phys, fun _ => none, ()⟩

theorem fresh (inp : Input ℚ) (ext : ℕ → ℕ → ℚ) (m : Wire.Model ℚ) : Spec.Fresh inp ext m start.ph where
  still x _ := rfl
  idle _ _ _ _ := rfl

theorem onlyExchangers (inp : Input ℚ) : Spec.OnlyExchangersInject inp AsmDemo.laws := fun _ _ _ _ _ _ _ _ _ => rfl

/-- What a run gives: number of records, discharge, inflow, losses, change of volume, logs. -/
def outcome (inp : Input ℚ) (sch : Scheme ℚ Unit) (n : ℕ) : Option (ℕ × List ℚ × ℚ × ℚ × ℚ × ℕ) :=
  let m := modelOf inp
  let ext := share inp
  match runSteps (asm inp m ext) AsmDemo.laws sch 1 id n start with
  | .ok (recs, s') => some (recs.length, recs.map (outletDischarge (asm inp m ext)),
      (recs.map (Spec.inflow inp ext m (Spec.system inp ext phys))).sum,
      (recs.map (Spec.losses inp ext m (Spec.system inp ext phys))).sum,
      Spec.volume inp ext (Spec.system inp ext phys) s'.ph - Spec.volume inp ext (Spec.system inp ext phys) start.ph, s'.ph.logs)
  | .error _ => none

/-! ## Socont with a glacier -/

/-- Open land and a glacier. -/
def alpine : List PyCover := [⟨"open", "open"⟩, ⟨"glacier", "glacier"⟩]

theorem alpine_good : Spec.GoodCovers alpine := good_of (by decide +kernel)

/-- Two units, one with a glacier. -/
def socontIn : Input ℚ := inputOf (socont {} alpine) [(0, 3), (1, 1)]

theorem socont_from : Spec.FromModel (socont {} alpine) socontIn := from_of (by decide) (by decide +kernel) (by decide)

theorem socont_builds : build socontIn = .ok (modelOf socontIn) :=
  modelOf_eq ((c64_socont_builds alpine_good default_snow ⟨⟨"open", "open"⟩, by decide, by decide⟩ (fun _ => by decide)).2 _ socont_from
    (fun h => absurd rfl h))

/-- The theorem applies to it. -/
theorem socont_conserves (sch : Scheme ℚ Unit) : Spec.Conserves socontIn (modelOf socontIn) (share socontIn) AsmDemo.laws sch 1 id :=
  c64_socont_conserves alpine_good default_snow ⟨⟨"open", "open"⟩, by decide, by decide⟩ (fun _ => by decide) rfl socont_from socont_builds
    (areas_of (by decide +kernel)) _ sch 1 id

/-- Two steps: 16 come in, 4 · 4/5 leave at the outlet, 4/5 evaporate, 12 stay. -/
theorem socont_runs : outcome socontIn .euler 2 = some (2, [2 / 5, 2 / 5], 16, 4 / 5, 12, 0) := by decide +kernel

/-! ## HBV-96 with all kinds of covers -/

/-- Open land, forest, a lake and a glacier. -/
def mixed : List PyCover := [⟨"open", "open"⟩, ⟨"woods", "forest"⟩, ⟨"lake", "lake"⟩, ⟨"glacier", "glacier"⟩]

theorem mixed_good : Spec.GoodCovers mixed := good_of (by decide +kernel)

/-- Three units: without glacier, with glacier, a lake. -/
def hbvIn : Input ℚ := inputOf (hbv96 {} mixed) [(0, 3), (1, 1), (2, 2)]

theorem hbv_from : Spec.FromModel (hbv96 {} mixed) hbvIn := from_of (by decide) (by decide +kernel) (by decide +kernel)

theorem hbv_builds : build hbvIn = .ok (modelOf hbvIn) :=
  modelOf_eq ((c64_hbv_builds mixed_good hbv_snow ⟨⟨"open", "open"⟩, by decide, by decide, by decide⟩ (fun _ => by decide)).2 _ hbv_from
    (fun h => absurd rfl h))

theorem hbv_conserves (sch : Scheme ℚ Unit) : Spec.Conserves hbvIn (modelOf hbvIn) (share hbvIn) AsmDemo.laws sch 1 id :=
  c64_hbv_conserves mixed_good hbv_snow ⟨⟨"open", "open"⟩, by decide, by decide, by decide⟩ (fun _ => by decide) rfl hbv_from hbv_builds
    (areas_of (by decide +kernel)) _ sch 1 id

/-- Two steps: 20 come in, 6 · 3/5 leave at the outlet, 2 evaporate, 72/5 stay. -/
theorem hbv_runs : outcome hbvIn .euler 2 = some (2, [3 / 10, 3 / 10], 20, 2, 72 / 5, 0) := by decide +kernel

/-! ## GR4J with snow -/

/-- Open land. -/
def plainLand : List PyCover := [⟨"open", "open"⟩]

/-- With CemaNeige. -/
def snowy : GrOpts := { melt := some "melt:cemaneige" }

theorem plain_good : Spec.GoodCovers plainLand := good_of (by decide +kernel)

theorem snowy_good : Spec.GoodGr snowy := by
  refine ⟨?_, ?_, ?_, by decide⟩
  · intro p hp; cases hp; decide
  · intro p hp; cases hp
  · intro p hp; cases hp

/-- One unit. -/
def grIn : Input ℚ := inputOf (gr snowy plainLand) [(0, 2)]

theorem gr_from : Spec.FromModel (gr snowy plainLand) grIn := from_of (by decide) (by decide +kernel) (by decide)

theorem gr_builds : build grIn = .ok (modelOf grIn) := modelOf_eq ((c64_gr_builds plain_good snowy_good).2 _ gr_from (fun h => absurd rfl h))

theorem gr_conserves (sch : Scheme ℚ Unit) : Spec.Conserves grIn (modelOf grIn) (share grIn) AsmDemo.laws sch 1 id :=
  c64_gr_conserves plain_good snowy_good rfl gr_from gr_builds (areas_of (by decide +kernel)) _ sch 1 id

/-- Two steps: 8 come in, 2 · 1/5 leave at the outlet, 4/5 evaporate, 34/5 stay. -/
theorem gr_runs : outcome grIn .euler 2 = some (2, [1 / 10, 1 / 10], 8, 4 / 5, 34 / 5, 0) := by decide +kernel

/-! ## Options that do not work together -/

/-- With CemaNeige melt. -/
def cema : SocontOpts := { snow := { melt := "melt:cemaneige" } }

/-- **Finding.**  With the documented melt process `melt:cemaneige` and a glacier, Socont writes its structures without an error,
but a model with a glacierized unit cannot be built: no glacier takes that process.  (`IceMelts` excludes it above.) -/
theorem _root_.HB.c64_cemaneige_glacier : Spec.GoodCovers alpine ∧ Spec.GoodSnow cema.snow ∧
    Spec.FromModel (socont cema alpine) (inputOf (socont cema alpine) [(0, 3), (1, 1)]) ∧
    ¬ ∃ m, build (inputOf (socont cema alpine) [(0, 3), (1, 1)]) = .ok m := by
  refine ⟨alpine_good, ?_, from_of (by decide) (by decide +kernel) (by decide), ?_⟩
  · refine ⟨by decide, by decide, by decide, by decide, by decide, ?_, by decide⟩
    intro p hp; cases hp
  · rintro ⟨m, hm⟩
    have : (match build (inputOf (socont cema alpine) [(0, 3), (1, 1)]) with | .ok _ => true | .error _ => false) = false := by decide +kernel
    rw [hm] at this
    cases this

end PreDemo

end HB
