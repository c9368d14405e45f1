import Verif.Model.PrecipSplit
import Verif.Model.PredefinedGood
import Verif.Model.PredefinedHbv2
import Verif.Model.PredefinedGr

/-!
# C67: the water balance closes with the precipitation
-/

set_option linter.unusedSectionVars false

namespace HB

open HB.Names HB.Wire

variable {K σ : Type} [Field K] [LinearOrder K] [IsStrictOrderedRing K]

/-! ## Any laws -/

/-- **C67 (Socont).**  Over every run of a Socont model, with any process laws, forcings, solver and time step: the change of the
volume stored = precipitation - basin area × reported discharge - evapotranspiration + supply of inexhaustible stores + groundwater
exchange, up to 1e-8 per unit of area and time step. -/
theorem c67_socont_closes {cs : List PyCover} (h : Spec.GoodCovers cs) {o : SocontOpts} (ho : Spec.GoodSnow o.snow)
    (hsoil : ∃ c ∈ cs, c.kind ≠ "glacier") (hice : Spec.IceMelts o.snow.melt cs) (hr : o.snow.redistribution = none) {inp : Input K}
    (hm : Spec.FromModel (socont o cs) inp) {m : Wire.Model K} (hb : build inp = .ok m) {ext : ℕ → ℕ → K} (ha : Spec.AreasGiven inp ext)
    (hcov : Spec.Covered inp ext) {laws : Laws K σ} {sch : Scheme K σ} {dt : K} {tick : σ → σ}
    {time : σ → ℕ} {P : ℕ → ℕ → K} (hw : Spec.SplittersWork inp m laws time P) (hc : Spec.Clocked laws sch tick time) :
    Spec.Closes inp m ext laws sch dt tick time P := by
  obtain ⟨hg, hx⟩ := socont_good h ho hsoil hice
  exact model_closes hg hm (fun v hv => by rw [(hx v hv).2, hr]) socont_separates hb ha hcov hw hc

/-- **C67 (HBV-96).** -/
theorem c67_hbv_closes {cs : List PyCover} (h : Spec.GoodCovers cs) {o : HbvOpts} (ho : Spec.GoodSnow o.snow)
    (hsoil : ∃ c ∈ cs, c.kind ≠ "lake" ∧ c.kind ≠ "glacier") (hice : Spec.IceMelts o.snow.melt cs) (hr : o.snow.redistribution = none)
    {inp : Input K} (hm : Spec.FromModel (hbv96 o cs) inp) {m : Wire.Model K} (hb : build inp = .ok m) {ext : ℕ → ℕ → K}
    (ha : Spec.AreasGiven inp ext) (hcov : Spec.Covered inp ext) {laws : Laws K σ}
    {sch : Scheme K σ} {dt : K} {tick : σ → σ} {time : σ → ℕ} {P : ℕ → ℕ → K} (hw : Spec.SplittersWork inp m laws time P)
    (hc : Spec.Clocked laws sch tick time) : Spec.Closes inp m ext laws sch dt tick time P := by
  obtain ⟨hg, hx⟩ := hbv_good h ho hsoil hice
  exact model_closes hg hm (fun v hv => by rw [(hx v hv).2, hr]) hbv_separates hb ha hcov hw hc

/-- **C67 (GR4J and GR6J).**  In the discrete and in the solver version. -/
theorem c67_gr_closes {cs : List PyCover} (h : Spec.GoodCovers cs) {o : GrOpts} (ho : Spec.GoodGr o)
    (hs : o.snowRain ≠ some "multi_fluxes") (hr : o.redistribution = none) {inp : Input K} (hm : Spec.FromModel (gr o cs) inp)
    {m : Wire.Model K} (hb : build inp = .ok m) {ext : ℕ → ℕ → K} (ha : Spec.AreasGiven inp ext) (hcov : Spec.Covered inp ext)
    {laws : Laws K σ} {sch : Scheme K σ} {dt : K} {tick : σ → σ} {time : σ → ℕ} {P : ℕ → ℕ → K}
    (hw : Spec.SplittersWork inp m laws time P) (hc : Spec.Clocked laws sch tick time) : Spec.Closes inp m ext laws sch dt tick time P := by
  obtain ⟨hg, hx⟩ := gr_good h ho
  exact model_closes hg hm (fun v hv => by rw [(hx v hv).1, hr]) (gr_separates hs) hb ha hcov hw hc

/-- Without inexhaustible stores nothing is supplied. -/
theorem c67_no_supply {inp : Input K} {ext : ℕ → ℕ → K} {m : Wire.Model K} {s0 : Phys K}
    (h : ∀ x ∈ Spec.stores inp ext, (s0.cont (Asm.contId x.1 x.2)).infinite = false) (ph : Phys K) :
    Spec.supplied inp ext m (Spec.endless inp ext s0) ph = 0 := by
  have : Spec.endless inp ext s0 = [] := by
    unfold Spec.endless
    rw [List.filter_eq_nil_iff]
    intro x hx
    rw [h x hx]
    simp
  have hin : ∀ x, Spec.inside ([] : List (Comp × Store)) x = false := by intro x; cases x <;> simp [Spec.inside]
  rw [this]
  unfold Spec.supplied Spec.volumeOf
  simp only [hin]
  simp

/-! ## The actual splitters -/

/-- Only the units of the model count. -/
theorem closes_congr {inp : Input K} {m : Wire.Model K} {ext : ℕ → ℕ → K} {laws : Laws K σ} {sch : Scheme K σ} {dt : K} {tick : σ → σ}
    {time : σ → ℕ} {P P' : ℕ → ℕ → K} (hp : ∀ u < inp.units.length, ∀ t, P u t = P' u t) (h : Spec.Closes inp m ext laws sch dt tick time P) :
    Spec.Closes inp m ext laws sch dt tick time P' := by
  have e : ∀ t, Spec.precipitation inp P' t = Spec.precipitation inp P t := by
    intro t
    unfold Spec.precipitation
    congr 1
    apply List.map_congr_left
    intro uu hu
    rw [hp uu.2 (List.getElem?_eq_some_iff.1 (List.mem_zipIdx_iff_getElem?.1 hu)).1]
  intro n s s' recs h1 h2 h3
  have := h n s s' recs h1 h2 h3
  simp only [e]
  exact this

/-- **C67 (Socont, actual splitters).**  With the rain/snow separation as it is computed, for every weather: with correction factors
of 1 the precipitation is that of the forcing. -/
theorem c67_socont_weather {cs : List PyCover} (h : Spec.GoodCovers cs) {o : SocontOpts} (ho : Spec.GoodSnow o.snow)
    (hsoil : ∃ c ∈ cs, c.kind ≠ "glacier") (hice : Spec.IceMelts o.snow.melt cs) (hr : o.snow.redistribution = none) {inp : Input ℝ}
    (hm : Spec.FromModel (socont o cs) inp) {m : Wire.Model ℝ} (hb : build inp = .ok m) {ext : ℕ → ℕ → ℝ} (ha : Spec.AreasGiven inp ext)
    (hcov : Spec.Covered inp ext) {laws : Laws ℝ σ} {sch : Scheme ℝ σ} {dt : ℝ} {tick : σ → σ}
    {time : σ → ℕ} (hc : Spec.Clocked laws sch tick time) (weather : ℕ → ℕ → Weather)
    (hf : ∀ u t, (weather u t).rcf = 1 ∧ (weather u t).scf = 1) :
    Spec.Closes inp m ext (withSplitters inp m time (fun ty u t => splitAmounts ty (weather u t)) laws) sch dt tick time
      fun u t => (weather u t).P := by
  obtain ⟨hg, hx⟩ := socont_good h ho hsoil hice
  refine closes_congr (fun u hu t => fallen_eq hm hg hf hu t) (c67_socont_closes h ho hsoil hice hr hm hb ha hcov
    (actual_splitters hg hm (fun ⟨v, hv, hne⟩ => absurd ((hx v hv).2.trans hr) hne) socont_snow hb time weather laws) (withSplitters_clocked hc))

/-- **C67 (HBV-96, actual splitters).** -/
theorem c67_hbv_weather {cs : List PyCover} (h : Spec.GoodCovers cs) {o : HbvOpts} (ho : Spec.GoodSnow o.snow)
    (hsoil : ∃ c ∈ cs, c.kind ≠ "lake" ∧ c.kind ≠ "glacier") (hice : Spec.IceMelts o.snow.melt cs) (hr : o.snow.redistribution = none)
    {inp : Input ℝ} (hm : Spec.FromModel (hbv96 o cs) inp) {m : Wire.Model ℝ} (hb : build inp = .ok m) {ext : ℕ → ℕ → ℝ}
    (ha : Spec.AreasGiven inp ext) (hcov : Spec.Covered inp ext) {laws : Laws ℝ σ}
    {sch : Scheme ℝ σ} {dt : ℝ} {tick : σ → σ} {time : σ → ℕ} (hc : Spec.Clocked laws sch tick time) (weather : ℕ → ℕ → Weather)
    (hf : ∀ u t, (weather u t).rcf = 1 ∧ (weather u t).scf = 1) :
    Spec.Closes inp m ext (withSplitters inp m time (fun ty u t => splitAmounts ty (weather u t)) laws) sch dt tick time
      fun u t => (weather u t).P := by
  obtain ⟨hg, hx⟩ := hbv_good h ho hsoil hice
  refine closes_congr (fun u hu t => fallen_eq hm hg hf hu t) (c67_hbv_closes h ho hsoil hice hr hm hb ha hcov
    (actual_splitters hg hm (fun ⟨v, hv, hne⟩ => absurd ((hx v hv).2.trans hr) hne) hbv_snow hb time weather laws) (withSplitters_clocked hc))

/-- **C67 (GR4J and GR6J, actual splitters).** -/
theorem c67_gr_weather {cs : List PyCover} (h : Spec.GoodCovers cs) {o : GrOpts} (ho : Spec.GoodGr o)
    (hs : ∀ s ∈ o.snowRain, s ∈ ["snow_rain:threshold", "snow_rain:linear", "snow_rain:cemaneige"]) (hr : o.redistribution = none)
    {inp : Input ℝ} (hm : Spec.FromModel (gr o cs) inp) {m : Wire.Model ℝ} (hb : build inp = .ok m) {ext : ℕ → ℕ → ℝ}
    (ha : Spec.AreasGiven inp ext) (hcov : Spec.Covered inp ext) {laws : Laws ℝ σ}
    {sch : Scheme ℝ σ} {dt : ℝ} {tick : σ → σ} {time : σ → ℕ} (hc : Spec.Clocked laws sch tick time) (weather : ℕ → ℕ → Weather)
    (hf : ∀ u t, (weather u t).rcf = 1 ∧ (weather u t).scf = 1) :
    Spec.Closes inp m ext (withSplitters inp m time (fun ty u t => splitAmounts ty (weather u t)) laws) sch dt tick time
      fun u t => (weather u t).P := by
  obtain ⟨hg, hx⟩ := gr_good h ho
  refine closes_congr (fun u hu t => fallen_eq hm hg hf hu t) (c67_gr_closes h ho ?_ hr hm hb ha hcov
    (actual_splitters hg hm (fun ⟨v, hv, hne⟩ => absurd ((hx v hv).1.trans hr) hne) (gr_snow hs) hb time weather laws) (withSplitters_clocked hc))
  intro he
  have := hs "multi_fluxes" (by rw [he]; rfl)
  revert this
  decide

end HB
