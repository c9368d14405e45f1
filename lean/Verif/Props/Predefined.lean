import Verif.Model.PredefinedHbv2
import Verif.Model.PredefinedGr

/-!
# C64: the predefined models build and conserve water, for every list of land covers and every documented option
-/

set_option linter.unusedSectionVars false

namespace HB

open HB.Names HB.Wire

variable {K σ : Type} [Field K] [LinearOrder K]

/-! ## Socont -/

/-- **C64 (Socont, structure).**  For every list of usable land covers with a soil cover and every documented option, Socont
writes its structure variants without an error, they are the described ones, and every model set up from them can be built. -/
theorem c64_socont_builds {cs : List PyCover} (h : Spec.GoodCovers cs) {o : SocontOpts} (ho : Spec.GoodSnow o.snow)
    (hsoil : ∃ c ∈ cs, c.kind ≠ "glacier") (hice : Spec.IceMelts o.snow.melt cs) :
    (∀ v ∈ socont o cs, ∃ a, generateOne v = .ok a ∧ a.str = Spec.complete v) ∧
    ∀ inp : Input K, Spec.FromModel (socont o cs) inp → (o.snow.redistribution ≠ none → Spec.LateralGiven inp) → ∃ m, build inp = .ok m := by
  obtain ⟨hg, hx⟩ := socont_good h ho hsoil hice
  refine ⟨fun v hv => ?_, fun inp hm hl => model_builds hg hm fun ⟨v, hv, hr⟩ => hl (by rw [← (hx v hv).2]; exact hr)⟩
  have hgv := hg.good v hv
  exact generateOne_yields hgv.names hgv.build hgv.plan

/-- **C64 (Socont, conservation).**  Without snow redistribution between units, a Socont model conserves water over every run,
whatever the laws of its processes, the forcings, the solver and the time step. -/
theorem c64_socont_conserves [IsStrictOrderedRing K] {cs : List PyCover} (h : Spec.GoodCovers cs) {o : SocontOpts}
    (ho : Spec.GoodSnow o.snow) (hsoil : ∃ c ∈ cs, c.kind ≠ "glacier") (hice : Spec.IceMelts o.snow.melt cs)
    (hr : o.snow.redistribution = none) {inp : Input K} (hm : Spec.FromModel (socont o cs) inp) {m : Wire.Model K} (hb : build inp = .ok m)
    {ext : ℕ → ℕ → K} (ha : Spec.AreasGiven inp ext) (laws : Laws K σ) (sch : Scheme K σ) (dt : K)
    (tick : σ → σ) : Spec.Conserves inp m ext laws sch dt tick := by
  obtain ⟨hg, hx⟩ := socont_good h ho hsoil hice
  exact model_conserves hg hm (fun v hv => by rw [(hx v hv).2, hr]) hb ha laws sch dt tick

/-! ## HBV-96 -/

/-- **C64 (HBV-96, structure).**  For every list of usable land covers with a soil cover (lakes, forests and glaciers included) and
every documented option, HBV-96 writes its structure variants without an error, they are the described ones, and every model set
up from them can be built. -/
theorem c64_hbv_builds {cs : List PyCover} (h : Spec.GoodCovers cs) {o : HbvOpts} (ho : Spec.GoodSnow o.snow)
    (hsoil : ∃ c ∈ cs, c.kind ≠ "lake" ∧ c.kind ≠ "glacier") (hice : Spec.IceMelts o.snow.melt cs) :
    (∀ v ∈ hbv96 o cs, ∃ a, generateOne v = .ok a ∧ a.str = Spec.complete v) ∧
    ∀ inp : Input K, Spec.FromModel (hbv96 o cs) inp → (o.snow.redistribution ≠ none → Spec.LateralGiven inp) → ∃ m, build inp = .ok m := by
  obtain ⟨hg, hx⟩ := hbv_good h ho hsoil hice
  refine ⟨fun v hv => ?_, fun inp hm hl => model_builds hg hm fun ⟨v, hv, hr⟩ => hl (by rw [← (hx v hv).2]; exact hr)⟩
  have hgv := hg.good v hv
  exact generateOne_yields hgv.names hgv.build hgv.plan

/-- **C64 (HBV-96, conservation).** -/
theorem c64_hbv_conserves [IsStrictOrderedRing K] {cs : List PyCover} (h : Spec.GoodCovers cs) {o : HbvOpts}
    (ho : Spec.GoodSnow o.snow) (hsoil : ∃ c ∈ cs, c.kind ≠ "lake" ∧ c.kind ≠ "glacier") (hice : Spec.IceMelts o.snow.melt cs)
    (hr : o.snow.redistribution = none) {inp : Input K} (hm : Spec.FromModel (hbv96 o cs) inp) {m : Wire.Model K} (hb : build inp = .ok m)
    {ext : ℕ → ℕ → K} (ha : Spec.AreasGiven inp ext) (laws : Laws K σ) (sch : Scheme K σ) (dt : K)
    (tick : σ → σ) : Spec.Conserves inp m ext laws sch dt tick := by
  obtain ⟨hg, hx⟩ := hbv_good h ho hsoil hice
  exact model_conserves hg hm (fun v hv => by rw [(hx v hv).2, hr]) hb ha laws sch dt tick

/-! ## GR4J and GR6J -/

/-- **C64 (GR4J and GR6J, structure).**  In the discrete and in the solver version, with or without snow. -/
theorem c64_gr_builds {cs : List PyCover} (h : Spec.GoodCovers cs) {o : GrOpts} (ho : Spec.GoodGr o) :
    (∀ v ∈ gr o cs, ∃ a, generateOne v = .ok a ∧ a.str = Spec.complete v) ∧
    ∀ inp : Input K, Spec.FromModel (gr o cs) inp → (o.redistribution ≠ none → Spec.LateralGiven inp) → ∃ m, build inp = .ok m := by
  obtain ⟨hg, hx⟩ := gr_good h ho
  refine ⟨fun v hv => ?_, fun inp hm hl => model_builds hg hm fun ⟨v, hv, hr⟩ => hl (by rw [← (hx v hv).1]; exact hr)⟩
  have hgv := hg.good v hv
  exact generateOne_yields hgv.names hgv.build hgv.plan

/-- **C64 (GR4J and GR6J, conservation).**  In the discrete and in the solver version. -/
theorem c64_gr_conserves [IsStrictOrderedRing K] {cs : List PyCover} (h : Spec.GoodCovers cs) {o : GrOpts}
    (ho : Spec.GoodGr o) (hr : o.redistribution = none) {inp : Input K} (hm : Spec.FromModel (gr o cs) inp)
    {m : Wire.Model K} (hb : build inp = .ok m) {ext : ℕ → ℕ → K} (ha : Spec.AreasGiven inp ext) (laws : Laws K σ)
    (sch : Scheme K σ) (dt : K) (tick : σ → σ) : Spec.Conserves inp m ext laws sch dt tick := by
  obtain ⟨hg, hx⟩ := gr_good h ho
  exact model_conserves hg hm (fun v hv => by rw [(hx v hv).1, hr]) hb ha laws sch dt tick

/-! ## Where the options do not do what they say -/

/-- **Finding.**  The documented option `snow_rain_process` of HBV-96 has no effect on the structures: `_set_structure_basics`
(models/model.py:1206-1221) never passes it on. -/
theorem c64_hbv_snow_rain_ignored (o : HbvOpts) (cs : List PyCover) (x : Option String) : hbv96 { o with snowRain := x } cs = hbv96 o cs := rfl


end HB
