import Verif.Model.PredefinedGr
import Verif.Model.Gr4jDays
import Mathlib.Data.List.Nodup

/-!
# The built GR4J

`ModelBuilder` on the discrete GR4J or GR6J without snow and with one land cover, worked out: seven fluxes per unit, in this order:
interception, throughfall, production, evapotranspiration, discharge, rain to the distributor, rain to the ground.
-/

set_option linter.unusedSectionVars false

namespace HB.Wire

open HB.Names

variable {K : Type}

/-- The structure written for the model, for a land cover of this name and type. -/
def grStruct (six : Bool) (name type : String) : Struct where
  unitBricks :=
    [⟨name, type, "", [⟨"interception", "interception:gr4j", []⟩,
      ⟨"throughfall", "outflow:rest", [⟨"production_store", .water, true, true⟩]⟩], false⟩,
     ⟨"production_store", "storage", "", [⟨"production", "production:gr4j", [⟨"uh_input", .water, false, false⟩]⟩, ⟨"et", "et:gr4j", []⟩], true⟩,
     ⟨"uh_input", "storage", "", [⟨"routing", if six then "routing:gr6j" else "routing:gr4j", [⟨"outlet", .water, false, false⟩]⟩], true⟩]
  covers := [0]
  unitSplits := [⟨"rain", "rain", [⟨"rain_splitter", .water, false, false⟩]⟩, ⟨"rain_splitter", "multi_fluxes", [⟨name, .water, false, false⟩]⟩]

/-- The type of land cover written. -/
def grType (c : PyCover) : String := (PyCover.toCover false c).type

theorem gr_complete {o : GrOpts} (hd : o.discrete = true) (hm : o.melt = none) (c : PyCover) :
    Spec.complete ⟨grArgs o [c], grItems o c.name⟩ = grStruct o.six c.name (grType c) := by
  unfold Spec.complete Spec.base grArgs grItems grRouting grStruct grType
  cases o.six <;> simp [hd, hm, Spec.fill, Spec.listedFor, Spec.itemsAt, Spec.storageOf, Spec.procOf, Spec.outsOfItem, Spec.coverBrick, Spec.canopies,
    PyCover.toCover, Spec.rainSplitter, Spec.rainEntry, Spec.belowCanopy, Spec.viaSnowpack]

/-! ## Creation -/

/-- The components of a unit. -/
def grBuilt (six : Bool) (name : String) : BuiltUnit where
  bricks :=
    [(0, ⟨name, .genericLandCover, [.interceptionGR4J, .outflowRest]⟩),
     (1, ⟨"production_store", .storage, [.productionGR4J, .etGR4J]⟩),
     (2, ⟨"uh_input", .storage, [if six then .routingGR6J else .routingGR4J]⟩)]
  splits := ["rain", "rain_splitter"]

theorem createAll_map {α β : Type} {f : α → Except Wire.Err β} {g : α → β} : ∀ {l : List α}, (∀ x ∈ l, f x = .ok (g x)) → createAll f l = .ok (l.map g) := by
  intro l
  induction l with
  | nil => intro _; rfl
  | cons a l ih =>
    intro h
    unfold createAll
    rw [h a (List.mem_cons_self ..), ih fun x hx => h x (List.mem_cons_of_mem _ hx)]
    rfl

theorem gr_class {c : PyCover} (hk : c.kind ≠ "glacier") (hc : c.kind ∈ ["open", "ground", "generic", "generic_land_cover", "forest", "lake", "glacier"]) :
    buildBrick (grType c) = .ok .genericLandCover := by
  unfold grType PyCover.toCover
  dsimp only
  simp only [List.mem_cons, List.not_mem_nil, or_false] at hc
  rcases hc with h | h | h | h | h | h | h
  all_goals first
    | exact absurd h hk
    | (rw [h]; decide)

theorem gr_createUnit {six : Bool} {name type : String} (ht : buildBrick type = .ok .genericLandCover) (un : UnitIn K)
    (hs : un.str = grStruct six name type) : createUnit un = .ok (grBuilt six name) := by
  have hord : creationOrder (grStruct six name type) = [0, 1, 2] := rfl
  unfold createUnit
  rw [hs, hord]
  have hb0 : createBrick ⟨name, type, "", [⟨"interception", "interception:gr4j", []⟩,
      ⟨"throughfall", "outflow:rest", [⟨"production_store", .water, true, true⟩]⟩], false⟩ =
      .ok ⟨name, .genericLandCover, [.interceptionGR4J, .outflowRest]⟩ := by
    unfold createBrick
    rw [ht]
    rfl
  have hb2 : createBrick ⟨"uh_input", "storage", "", [⟨"routing", if six then "routing:gr6j" else "routing:gr4j", [⟨"outlet", .water, false, false⟩]⟩], true⟩ =
      .ok ⟨"uh_input", .storage, [if six then .routingGR6J else .routingGR4J]⟩ := by
    cases six <;> rfl
  simp only [createAll, grStruct, List.getElem?_cons_zero, List.getElem?_cons_succ, hb0, hb2]
  rfl

/-! ## Fluxes -/

section
variable [Field K]

/-- The fluxes of unit `u`, a share `q` of the basin. -/
def grFluxes (q : K) (u : ℕ) : List (Flux K) :=
  [⟨.unitBrick u 0, 0, .atmosphere, .water, false, false, false, 1, 1⟩,
   ⟨.unitBrick u 0, 1, .comp (.unitBrick u 1), .water, true, true, true, 1, 1⟩,
   ⟨.unitBrick u 1, 0, .comp (.unitBrick u 2), .water, false, false, false, 1, 1⟩,
   ⟨.unitBrick u 1, 1, .atmosphere, .water, false, false, false, 1, 1⟩,
   ⟨.unitBrick u 2, 0, .outlet, .water, false, true, false, q, 1⟩,
   ⟨.unitSplit u 0, 0, .comp (.unitSplit u 1), .water, false, true, false, 1, 1⟩,
   ⟨.unitSplit u 1, 0, .comp (.unitBrick u 0), .water, false, true, false, 1, 1⟩]

/-- Usable names. -/
structure GrName (name : String) : Prop where
  store : name ≠ "production_store"
  uh : name ≠ "uh_input"
  outlet : name ≠ "outlet"
  lateral : name ≠ "lateral"
  splitter : name ≠ "rain_splitter"

theorem grName {c : PyCover} (h : Spec.GoodCovers [c]) : GrName c.name := by
  have := name_reserved h (List.mem_singleton_self c)
  constructor <;> (intro e; rw [e] at this; revert this; decide)

/-- The basin as created: only units. -/
def grBase (six : Bool) (name : String) (n : ℕ) (area : K) : Built K := ⟨[], [], List.replicate n (grBuilt six name), area⟩

theorem gr_wireUnit {six : Bool} {name type : String} (hn : GrName name) {un : UnitIn K} (hs : un.str = grStruct six name type) {n u : ℕ} (hu : u < n)
    (area : K) : ∃ d, wireUnit (grBase six name n area) u un = .ok ([], d) ∧ d.outs = grFluxes (un.area / area) u := by
  have hg : (grBase six name n area).units[u]? = some (grBuilt six name) := by
    unfold grBase
    rw [List.getElem?_replicate, if_pos hu]
  have hgf : ∀ k, (grBuilt six name).find k = lookupLast k [(name, 0), ("production_store", 1), ("uh_input", 2)] := fun _ => rfl
  have f0 : (grBuilt six name).find name = some 0 := by
    rw [hgf]
    simp [lookupLast, Ne.symm hn.store, Ne.symm hn.uh]
  have f1 : (grBuilt six name).find "production_store" = some 1 := by
    rw [hgf]
    simp [lookupLast]
  have f2 : (grBuilt six name).find "uh_input" = some 2 := by
    rw [hgf]
    simp [lookupLast]
  have f3 : (grBuilt six name).find "rain_splitter" = none := by
    rw [hgf]
    simp [lookupLast, hn.splitter]
  have g0 : (grBuilt six name).get 0 = some ⟨name, .genericLandCover, [.interceptionGR4J, .outflowRest]⟩ := rfl
  have g1 : (grBuilt six name).get 1 = some ⟨"production_store", .storage, [.productionGR4J, .etGR4J]⟩ := rfl
  have g2 : (grBuilt six name).get 2 = some ⟨"uh_input", .storage, [if six then .routingGR6J else .routingGR4J]⟩ := rfl
  have b3 : (grBase six name n area).find "rain_splitter" = none := rfl
  have s1 : (grBuilt six name).findSplit "rain_splitter" = some 1 := rfl
  have hlink : linkUnit (grBase six name n area) u un (grBuilt six name) = .ok [] := by
    unfold linkUnit
    rw [hs]
    simp only [grStruct, createAll, f0, f1, f2, g0, g1, g2]
    cases six <;> rfl
  have hsix : toAtmosphere (if six then ProcClass.routingGR6J else .routingGR4J) = false := by cases six <;> rfl
  unfold wireUnit
  rw [hg]
  dsimp only
  rw [hlink]
  simp only [bind, Except.bind, wireUnitBricks, wireUnitSplits]
  rw [hs]
  simp only [grStruct, concatM, f0, f1, f2, g0, g1, g2, List.zipIdx_cons, List.zipIdx_nil, wireUnitProc, List.getElem?_cons_zero,
    List.getElem?_cons_succ, hsix, toAtmosphere, if_true, bind, Except.bind, Bool.false_eq_true, if_false, Nat.zero_add, wireUnitOut,
    wireUnitSplitOut, brickTarget, splitTarget, f3, b3, s1, hn.outlet, toBrick, toSplitter, toOutlet, attach, Option.map_some,
    unitFraction, canHaveFraction, Nat.reduceAdd, String.reduceEq, decide_true, beq_self_eq_true, Net.append, Net.empty]
  cases six <;> exact ⟨_, rfl, by simp [grFluxes, grBase]⟩

theorem gr_build {six : Bool} {name type : String} (hn : GrName name) (ht : buildBrick type = .ok .genericLandCover) {inp : Input K}
    (hb : inp.basin = grStruct six name type) (hu : ∀ un ∈ inp.units, un.str = grStruct six name type) :
    ∃ m, build inp = .ok m ∧ m.net.outs = inp.units.zipIdx.flatMap fun uu => grFluxes (uu.1.area / Spec.basinArea inp) uu.2 := by
  have hcr : create inp = .ok (grBase six name inp.units.length (Spec.basinArea inp)) := by
    unfold create
    rw [hb]
    have : createAll createUnit inp.units = .ok (List.replicate inp.units.length (grBuilt six name)) := by
      rw [createAll_map (g := fun _ => grBuilt six name) fun un hun => gr_createUnit ht un (hu un hun)]
      rw [List.map_const']
    simp only [grStruct, createAll, this]
    rfl
  have hex : ∀ uu : UnitIn K × ℕ, ∃ d, uu ∈ inp.units.zipIdx → wireUnit (grBase six name inp.units.length (Spec.basinArea inp)) uu.2 uu.1 = .ok ([], d) ∧
      d.outs = grFluxes (uu.1.area / Spec.basinArea inp) uu.2 := by
    intro uu
    by_cases huu : uu ∈ inp.units.zipIdx
    · have h1 := List.mem_zipIdx_iff_getElem?.1 huu
      obtain ⟨d, h⟩ := gr_wireUnit hn (hu _ (List.mem_of_getElem? h1)) (List.getElem?_eq_some_iff.1 h1).1 (Spec.basinArea inp)
      exact ⟨d, fun _ => h⟩
    · exact ⟨.empty, fun h => absurd h huu⟩
  choose g hg using hex
  have hall := createAll_map (f := fun ui : UnitIn K × ℕ => wireUnit (grBase six name inp.units.length (Spec.basinArea inp)) ui.2 ui.1)
    (g := fun uu => ([], g uu)) (l := inp.units.zipIdx) fun uu h => (hg uu h).1
  have hbuild : build inp = .ok ⟨grBase six name inp.units.length (Spec.basinArea inp),
      (Net.empty.append .empty).append ((inp.units.zipIdx.map fun uu => (([] : List Link), g uu)).foldr (fun x r => x.2.append r) .empty),
      [] ++ ((inp.units.zipIdx.map fun uu => (([] : List Link), g uu)).map (·.1)).flatten⟩ := by
    unfold build
    rw [hcr]
    simp only [bind, Except.bind]
    have h1 : linkBasin inp (grBase six name inp.units.length (Spec.basinArea inp)) = .ok [] := by
      unfold linkBasin; rw [hb]; rfl
    have h2 : wireBasinBricks inp (grBase six name inp.units.length (Spec.basinArea inp)) = .ok .empty := by
      unfold wireBasinBricks; rw [hb]; rfl
    have h3 : wireBasinSplits inp (grBase six name inp.units.length (Spec.basinArea inp)) = .ok .empty := by
      unfold wireBasinSplits; rw [hb]; rfl
    rw [h1, h2, h3, hall]
  have hfold : ∀ l : List (UnitIn K × ℕ), (∀ x ∈ l, x ∈ inp.units.zipIdx) →
      (List.foldr (fun x r => Net.append x.2 r) Net.empty (l.map fun uu => (([] : List Link), g uu))).outs =
        l.flatMap fun uu => grFluxes (uu.1.area / Spec.basinArea inp) uu.2 := by
    intro l
    induction l with
    | nil => intro _; rfl
    | cons a l ih =>
      intro h
      rw [List.map_cons, List.foldr_cons, List.flatMap_cons, ← ih fun x hx => h x (List.mem_cons_of_mem _ hx), ← (hg a (h a (List.mem_cons_self ..))).2]
      rfl
  refine ⟨_, hbuild, ?_⟩
  exact hfold _ fun x hx => hx

end

end HB.Wire
