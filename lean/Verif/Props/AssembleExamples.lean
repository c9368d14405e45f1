import Verif.Props.Assemble

/-!
# C63: a model that meets the conditions, and one that does not

The conditions are checked by enumeration; the checkers are proved to imply the conditions.
-/

namespace HB

set_option linter.unusedSectionVars false

open HB.Names HB.Wire HB.Asm

namespace Asm

variable {K : Type}

/-- All declared outputs of unit bricks. -/
def unitOuts (inp : Input K) : List ((ℕ × UnitIn K) × (ℕ × Wire.Brick) × Out) :=
  inp.units.zipIdx.flatMap fun uu => uu.1.str.unitBricks.zipIdx.flatMap fun bi =>
    (bi.1.procs.filter fun p => decide (p.type ∉ Spec.atmosphereNames)).flatMap fun p => p.outs.map fun o => ((uu.2, uu.1), (bi.2, bi.1), o)

/-- All declared outputs of sub-basin bricks. -/
def basinOuts (inp : Input K) : List (ℕ × Out) :=
  inp.basin.basinBricks.zipIdx.flatMap fun bi =>
    (bi.1.procs.filter fun p => decide (p.type ∉ Spec.atmosphereNames)).flatMap fun p => p.outs.map fun o => (bi.2, o)

/-- Candidates for a brick name. -/
def named (inp : Input K) (u : ℕ) (un : UnitIn K) (t : String) : List (Comp × Wire.Brick) :=
  ((un.str.unitBricks.zipIdx.filter fun bi => decide (bi.1.name = t)).map fun bi => (Comp.unitBrick u bi.2, bi.1)) ++
    if un.str.unitBricks.any fun b => decide (b.name = t) then [] else
      (inp.basin.basinBricks.zipIdx.filter fun bi => decide (bi.1.name = t)).map fun bi => (Comp.basinBrick bi.2, bi.1)

theorem mem_unitOuts {inp : Input K} {u : ℕ} {un : UnitIn K} {i : ℕ} {b : Wire.Brick} {o : Out}
    (h : Spec.UnitOutput inp u un i b o) : ((u, un), (i, b), o) ∈ unitOuts inp := by
  obtain ⟨hu, hb, p, hp, hat, ho⟩ := h
  refine List.mem_flatMap.2 ⟨(un, u), List.mem_zipIdx_iff_getElem?.2 hu, List.mem_flatMap.2 ⟨(b, i),
    List.mem_zipIdx_iff_getElem?.2 hb, List.mem_flatMap.2 ⟨p, List.mem_filter.2 ⟨hp, decide_eq_true hat⟩, ?_⟩⟩⟩
  exact List.mem_map.2 ⟨o, ho, rfl⟩

theorem mem_basinOuts {inp : Input K} {i : ℕ} {b : Wire.Brick} {o : Out} (h : Spec.BasinOutput inp i b o) : (i, o) ∈ basinOuts inp := by
  obtain ⟨hb, p, hp, hat, ho⟩ := h
  exact List.mem_flatMap.2 ⟨(b, i), List.mem_zipIdx_iff_getElem?.2 hb,
    List.mem_flatMap.2 ⟨p, List.mem_filter.2 ⟨hp, decide_eq_true hat⟩, List.mem_map.2 ⟨o, ho, rfl⟩⟩⟩

theorem mem_named {inp : Input K} {u : ℕ} {un : UnitIn K} {t : String} {c : Comp} {b : Wire.Brick}
    (h : Spec.BrickNamed inp u un t c b) : (c, b) ∈ named inp u un t := by
  cases h with
  | own h1 h2 => exact List.mem_append_left _ (List.mem_map.2 ⟨(b, _),
      List.mem_filter.2 ⟨List.mem_zipIdx_iff_getElem?.2 h1, decide_eq_true h2⟩, rfl⟩)
  | basin h1 h2 h3 =>
    have : (un.str.unitBricks.any fun b => decide (b.name = t)) = false := by
      rw [List.any_eq_false]; intro b hb; simpa using h1 b hb
    refine List.mem_append_right _ ?_
    rw [if_neg (by simp [this])]
    exact List.mem_map.2 ⟨(b, _), List.mem_filter.2 ⟨List.mem_zipIdx_iff_getElem?.2 h2, decide_eq_true h3⟩, rfl⟩

/-- Checker for `Before`. -/
def beforeB (inp : Input K) : Comp → Comp → Bool
  | .unitBrick _ _, .basinBrick _ => true
  | .basinBrick i, .basinBrick j => decide (i < j)
  | .unitBrick u i, .unitBrick v j => decide (u = v) && (inp.units[u]?).elim false fun un =>
      decide (Spec.earlier (Spec.turn un.str i) (Spec.turn un.str j))
  | _, _ => false

theorem beforeB_iff {inp : Input K} {c c' : Comp} (h : beforeB inp c c' = true) : Spec.Before inp c c' := by
  cases c with
  | unitBrick u i =>
    cases c' with
    | unitBrick v j =>
      simp only [beforeB, Bool.and_eq_true, decide_eq_true_eq] at h
      obtain ⟨rfl, h⟩ := h
      cases hu : inp.units[u]? with
      | none => rw [hu] at h; cases h
      | some un => rw [hu] at h; exact ⟨rfl, un, hu, of_decide_eq_true h⟩
    | basinBrick j => trivial
    | unitSplit v j => cases h
    | basinSplit j => cases h
  | basinBrick i =>
    cases c' with
    | basinBrick j => exact of_decide_eq_true (p := i < j) h
    | unitBrick v j => cases h
    | unitSplit v j => cases h
    | basinSplit j => cases h
  | unitSplit u i => cases c' <;> cases h
  | basinSplit i => cases c' <;> cases h

/-- Enough to check for `Forward`. -/
theorem forward_of {inp : Input K}
    (h1 : ∀ x ∈ unitOuts inp, x.2.2.target ≠ "lateral" ∧ (x.2.2.inst = false → x.2.2.target ≠ "outlet" →
      ∀ y ∈ named inp x.1.1 x.1.2 x.2.2.target, beforeB inp (.unitBrick x.1.1 x.2.1.1) y.1 = true))
    (h2 : ∀ x ∈ basinOuts inp, x.2.target ≠ "outlet" →
      ∀ y ∈ inp.basin.basinBricks.zipIdx, y.1.name = x.2.target → x.1 < y.2) : Spec.Forward inp where
  noLateral u un i b o ho := (h1 _ (mem_unitOuts ho)).1
  units u un i b o ho hi ht c b' hb := beforeB_iff ((h1 _ (mem_unitOuts ho)).2 hi ht _ (mem_named hb))
  basin i b o ho ht j b' hj hn := h2 _ (mem_basinOuts ho) ht (b', j) (List.mem_zipIdx_iff_getElem?.2 hj) hn

/-- Enough to check for `AreasFit`. -/
theorem areasFit_of [Field K] [LinearOrder K] {inp : Input K} {ext : ℕ → ℕ → K}
    (h1 : ∀ un ∈ inp.units, 0 < un.area)
    (h2 : ∀ x ∈ inp.units.zipIdx, ∀ y ∈ x.1.str.unitBricks.zipIdx, y.1.type ∈ Spec.coverTypes → 0 ≤ ext x.2 y.2 ∧ ext x.2 y.2 ≤ 1)
    (h3 : ∀ x ∈ inp.units.zipIdx, ∀ i ∈ x.1.str.surfaces, (Spec.parentOf x.1.str i).elim true (fun k =>
      (x.1.str.unitBricks[k]?).elim false fun b => decide (b.type ∈ Spec.coverTypes)) = true)
    (h4 : ∀ x ∈ unitOuts inp, x.2.2.target ≠ "outlet" → ∀ y ∈ named inp x.1.1 x.1.2 x.2.2.target,
      y.2.type ∈ Spec.fractionTypes → Spec.extent inp ext (.unitBrick x.1.1 x.2.1.1) = Spec.extent inp ext y.1)
    (h5 : ∀ x ∈ unitOuts inp, x.2.1.2.type ∈ Spec.surfaceTypes → Spec.extent inp ext (.unitBrick x.1.1 x.2.1.1) ≠ 1 →
      x.2.2.target ≠ "outlet" ∧ ∃ y ∈ x.1.2.str.unitBricks.zipIdx, y.1.name = x.2.2.target ∧ y.1.type ∈ Spec.fractionTypes) :
    Spec.AreasFit inp ext where
  positive := h1
  fraction u un hu i b hb ht := h2 (un, u) (List.mem_zipIdx_iff_getElem?.2 hu) (b, i) (List.mem_zipIdx_iff_getElem?.2 hb) ht
  parents u un hu i k hk := by
    have hi : i ∈ un.str.surfaces := by
      unfold Spec.parentOf at hk
      by_contra hn
      rw [if_neg hn] at hk; cases hk
    have := h3 (un, u) (List.mem_zipIdx_iff_getElem?.2 hu) i hi
    simp only [hk, Option.elim] at this
    cases hb : un.str.unitBricks[k]? with
    | none => rw [hb] at this; cases this
    | some b => rw [hb] at this; exact ⟨b, rfl, of_decide_eq_true this⟩
  agree u un i b o ho ht c b' hb hf := h4 _ (mem_unitOuts ho) ht _ (mem_named hb) hf
  surface u un i b o ho hs hor := by
    by_contra hne
    obtain ⟨h6, y, hy, h7, h8⟩ := h5 _ (mem_unitOuts ho) hs hne
    rcases hor with hor | hor
    · exact h6 hor
    · exact hor (.unitBrick u y.2) y.1 (.own (mem_zipIdx' hy) h7) h8

end Asm

namespace AsmDemo

/-- Ground and glacier with snowpacks, a soil store in the unit and a river store in the sub-basin. -/
def auth : Except Wire.Err Auth := do
  let a ← genPrecipitation true "snow_rain:linear" {}
  let a ← addLandCover "ground" "ground" a
  let a ← addLandCover "ice" "glacier" a
  let a ← genSnowpacks "melt:degree_day" a
  let a ← selectBrick "ground" a
  let a ← addProcess "infiltration" "infiltration:socont" "soil" a
  let a ← addProcess "rest" "outflow:rest" "river" a
  let a ← selectBrick "ice" a
  let a ← addProcess "melt" "melt:degree_day" "outlet" a
  let a := addUnitBrick "soil" "storage" a
  let a ← addProcess "et" "et:socont" "" a
  addProcess "outflow" "outflow:linear" "river" a

/-- The structure written. -/
def str : Struct := match auth with | .ok a => a.str | .error _ => {}

/-- Two units. -/
def inp : Input ℚ :=
  ⟨{ basinBricks := [⟨"river", "storage", "", [⟨"out", "outflow:linear", [{ target := "outlet" }]⟩], false⟩] },
   [⟨str, 3, []⟩, ⟨str, 1, []⟩]⟩

/-- The first unit is three quarters ground, the second has no ice. -/
def ext (u i : ℕ) : ℚ := if u = 0 then (if i = 0 then 3 / 4 else 1 / 4) else (if i = 0 then 1 else 0)

theorem distinct : Spec.Distinct inp := by
  unfold Spec.Distinct Spec.DistinctUnit Spec.Indexed
  decide +kernel

/-- The built model. -/
def model : Wire.Model ℚ := match build inp with | .ok m => m | .error _ => ⟨⟨[], [], [], 0⟩, .empty, []⟩

theorem builds : build inp = .ok model := by
  obtain ⟨m, hm⟩ := WireDemo.isOk (x := build inp) (by decide +kernel)
  unfold model
  rw [hm]

theorem forward : Spec.Forward inp := forward_of (by decide +kernel) (by decide +kernel)

theorem areas : Spec.AreasFit inp ext :=
  areasFit_of (by decide +kernel) (by decide +kernel) (by decide +kernel) (by decide +kernel) (by decide +kernel)

theorem stageable : Spec.Stageable inp := by
  have h : ∀ x ∈ unitOuts inp, ¬ Spec.Direct x.2.1.2 → x.2.2.inst = false := by decide +kernel
  have h' : ∀ x ∈ basinOuts inp, x.2.inst = false := by decide +kernel
  exact ⟨fun u un i b o ho hd => h _ (mem_unitOuts ho) hd, fun i b o ho => h' _ (mem_basinOuts ho), by decide +kernel⟩

/-- Every process asks for a tenth, every splitter hands out one. -/
def laws : Laws ℚ Unit where
  rates _ _ _ := (fun _ => 1 / 10, 0, ())
  fin _ _ _ := ()
  split _ _ _ := (fun _ => 1, ())

/-- The ice is inexhaustible, the stores hold 5. -/
def phys : Phys ℚ where
  cont := fun c => if c = contId (.unitBrick 0 1) .ice ∨ c = contId (.unitBrick 1 1) .ice then ⟨0, 0, 0, 0, none, true, false⟩
    else ⟨5, 0, 0, 0, none, false, false⟩
  amt := fun _ => 0
  snap := fun _ => 0
  exch := fun _ => 0

/-- The initial state. -/
def start : Sys ℚ Unit := ⟨phys, fun _ => none, ()⟩

theorem fresh : Spec.Fresh inp ext model start.ph where
  still x _ := by
    simp only [start, phys]
    split <;> rfl
  idle _ _ _ _ := rfl

theorem noInject : NoInject (asm inp model ext) laws := fun _ _ _ _ _ _ => rfl

/-- The system: the snowpacks and covers that exist, the soils, the river; not the ice. -/
theorem system : Spec.system inp ext phys =
    [(.unitBrick 0 0, .water), (.unitBrick 0 1, .water), (.unitBrick 0 2, .snow), (.unitBrick 0 2, .water),
     (.unitBrick 0 3, .snow), (.unitBrick 0 3, .water), (.unitBrick 0 4, .water), (.unitBrick 1 0, .water),
     (.unitBrick 1 2, .snow), (.unitBrick 1 2, .water), (.unitBrick 1 4, .water), (.basinBrick 0, .water)] := by decide +kernel

/-- What a run gives: number of records, discharge, inflow, losses, change of volume, logs. -/
def outcome (sch : Scheme ℚ Unit) (n : ℕ) : Option (ℕ × List ℚ × ℚ × ℚ × ℚ × ℕ) :=
  match runSteps (asm inp model ext) laws sch 1 id n start with
  | .ok (recs, s') => some (recs.length, recs.map (outletDischarge (asm inp model ext)),
      (recs.map (Spec.inflow inp ext model (Spec.system inp ext phys))).sum,
      (recs.map (Spec.losses inp ext model (Spec.system inp ext phys))).sum,
      Spec.volume inp ext (Spec.system inp ext phys) s'.ph - Spec.volume inp ext (Spec.system inp ext phys) start.ph, s'.ph.logs)
  | .error _ => none

/-- Two steps run with either solver; 323/20 come in, 4 · 19/80 leave at the outlet, 4/5 evaporate, 72/5 stay. -/
theorem runs : outcome .euler 2 = some (2, [19 / 160, 19 / 160], 323 / 20, 4 / 5, 72 / 5, 0) ∧
    outcome .rk4 1 = some (1, [19 / 160], 323 / 40, 2 / 5, 36 / 5, 0) := ⟨by decide +kernel, by decide +kernel⟩

/-- The theorem applies to it, for every scheme and any number of steps. -/
example (sch : Scheme ℚ Unit) (n : ℕ) (s' : Sys ℚ Unit) (recs : List (Phys ℚ))
    (h : runSteps (asm inp model ext) laws sch 1 id n start = .ok (recs, s')) (hl : s'.ph.logs = 0) : recs.length = n :=
  (c63_built_model_balance distinct builds forward areas (fun _ => stageable) n fresh h hl).1

/-! ## Where the areas do not fit -/

/-- A snowpack on half of the unit that drains straight to the soil. -/
def leak : Input ℚ :=
  ⟨{}, [⟨{ unitBricks := [⟨"ground", "ground", "", [⟨"rest", "outflow:rest", [{ target := "soil" }]⟩], false⟩,
                          ⟨"snow", "snowpack", "ground", [⟨"melt", "melt:degree_day", [{ target := "soil" }]⟩], false⟩,
                          ⟨"soil", "storage", "", [], false⟩], covers := [0], surfaces := [1] }, 1, []⟩]⟩

/-- Extents of the ground. -/
def half (_ _ : ℕ) : ℚ := 1 / 2

/-- The built model. -/
def leakModel : Wire.Model ℚ := match build leak with | .ok m => m | .error _ => ⟨⟨[], [], [], 0⟩, .empty, []⟩

theorem leak_builds : build leak = .ok leakModel := by
  obtain ⟨m, hm⟩ := WireDemo.isOk (x := build leak) (by decide +kernel)
  unfold leakModel
  rw [hm]

/-- All stores hold 5. -/
def full : Sys ℚ Unit := ⟨{ phys with cont := fun _ => ⟨5, 0, 0, 0, none, false, false⟩ }, fun _ => none, ()⟩

/-- The flux from the snowpack is to be weighted, but its weight is never set: the 1/10 melted from the snow of half a unit
arrives as 1/10 over the whole unit.  Everything else holds: the structure is accepted, water goes forward, nothing enters or
leaves, no error is logged, and yet the volume grows by 1/20 in every step. -/
theorem c63_surface_weight_lost : Spec.Distinct leak ∧ Spec.Forward leak ∧ Spec.Fresh leak half leakModel full.ph ∧
    (match runSteps (asm leak leakModel half) laws .euler 1 id 1 full with
      | .ok (recs, s') => decide (s'.ph.logs = 0 ∧
          recs.map (Spec.inflow leak half leakModel (Spec.system leak half full.ph)) = [0] ∧
          recs.map (Spec.losses leak half leakModel (Spec.system leak half full.ph)) = [0] ∧
          recs.map (outletDischarge (asm leak leakModel half)) = [0] ∧
          Spec.volume leak half (Spec.system leak half full.ph) s'.ph
            - Spec.volume leak half (Spec.system leak half full.ph) full.ph = 1 / 20)
      | .error _ => false) = true := by
  refine ⟨?_, forward_of (by decide +kernel) (by decide +kernel), ⟨fun x _ => rfl, fun _ _ _ _ => rfl⟩, by decide +kernel⟩
  unfold Spec.Distinct Spec.DistinctUnit Spec.Indexed
  decide +kernel

end AsmDemo

end HB
