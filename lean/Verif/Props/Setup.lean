import Verif.Model.SetupLemmas4
import Verif.Props.Clock
import Verif.Props.Ready

/-!
# C73: setting up a predefined model gives the declared model, ready to run over the declared period
-/

set_option linter.unusedSectionVars false

namespace HB.Setup

open HB.Names HB.Wire HB.Basin

/-! ## The covers of the predefined models -/

theorem suits_of {cs cs' : List PyCover} (h : Spec.GoodCovers cs) (hsub : cs'.Sublist cs) {v : Wire.Variant} (hg : CoversAre v.base cs')
    (hkeys : ∀ it ∈ Spec.itemsAt .unit v.items, it.key ∈ Spec.reserved ∨ ∃ p ∈ cs, ∃ s ∈ Spec.suffixes, s ≠ "" ∧ it.key = p.name ++ s) :
    Suits cs v where
  among c hc := by
    obtain ⟨p, hp, he, -⟩ := covers_mem hg hc
    exact List.mem_map.2 ⟨p, hsub.subset hp, he.symm⟩
  apart c hc hn := by
    have hcn : c.name = c.name ++ "" := by simp
    rw [complete_names, List.mem_append] at hn
    rcases hn with hn | hn
    · obtain ⟨p, hp, s, hs, he⟩ := base_name hg hn
      have hs' : s ∈ Spec.suffixes := by
        have : ∀ s ∈ ["", "_canopy", "_snowpack"], s ∈ Spec.suffixes := by decide
        exact this s hs
      by_cases h0 : s = ""
      · subst h0
        obtain ⟨x, hx, hxn⟩ := mem_covers hg hp
        exact List.mem_map.2 ⟨x, hx, by rw [hxn, he]; simp⟩
      · exact absurd (hcn.symm.trans he) (names_ne h hc (hsub.subset hp) (by decide) hs' (Ne.symm h0))
    · obtain ⟨it, hit, hk⟩ := List.mem_map.1 hn
      rcases hkeys it hit with hr | ⟨p, hp, s, hs, h0, he⟩
      · rw [hk] at hr
        exact absurd hr (name_reserved h hc)
      · exact absurd (hcn.symm.trans (hk.symm.trans he)) (names_ne h hc hp (by decide) hs (Ne.symm h0))

theorem socont_suits {cs : List PyCover} (h : Spec.GoodCovers cs) {o : SocontOpts} (hsoil : ∃ c ∈ cs, c.kind ≠ "glacier") :
    socont o cs ≠ [] ∧ (∀ v ∈ socont o cs, Suits cs v) ∧ ∃ v ∈ socont o cs, ∀ n ∈ cs.map (·.name), n ∈ v.base.covers.map (·.name) := by
  obtain ⟨soil, hs, hsk, he⟩ := soilCover_of hsoil
  rw [socont_variants h o hs hsk he]
  have main : ∀ cs' gl S, cs'.Sublist cs → Suits cs (socontVariant o cs' gl S soil.name) := by
    intro cs' gl S hsub
    refine suits_of h hsub (snowArgs_covers o.snow cs') fun it hit => .inl ?_
    have hu : Spec.itemsAt .unit (socontVariant o cs' gl S soil.name).items = (socontSoil o soil.name).tail := by
      unfold socontVariant
      simp only
      rw [itemsAt_append, socontSoil_units, gsm_units, List.nil_append]
    rw [hu] at hit
    have hk : it.key ∈ ((socontSoil o soil.name).tail).map (·.key) := List.mem_map.2 ⟨it, hit, rfl⟩
    rw [List.map_tail, socontSoil_keys, List.tail_cons] at hk
    revert hk
    generalize it.key = k
    cases o.secondLayer
    · have : ∀ k ∈ "slow_reservoir" :: ((if false = true then ["slow_reservoir_2"] else []) ++ ["surface_runoff"]), k ∈ Spec.reserved := by decide
      exact this k
    · have : ∀ k ∈ "slow_reservoir" :: ((if true = true then ["slow_reservoir_2"] else []) ++ ["surface_runoff"]), k ∈ Spec.reserved := by decide
      exact this k
  have all : ∀ gl S, ∀ n ∈ cs.map (·.name), n ∈ (socontVariant o cs gl S soil.name).base.covers.map (·.name) := by
    intro gl S n hn
    obtain ⟨c, hc, rfl⟩ := List.mem_map.1 hn
    obtain ⟨x, hx, hxn⟩ := mem_covers (snowArgs_covers o.snow cs) hc
    exact List.mem_map.2 ⟨x, hx, hxn⟩
  split
  · refine ⟨by simp, fun v hv => ?_, _, List.mem_singleton.2 rfl, all _ _⟩
    rw [List.mem_singleton] at hv
    subst hv
    exact main _ _ _ (List.Sublist.refl _)
  · refine ⟨by simp, fun v hv => ?_, _, List.mem_cons_of_mem _ (List.mem_singleton.2 rfl), all _ _⟩
    simp only [List.mem_cons, List.not_mem_nil, or_false] at hv
    rcases hv with rfl | rfl
    · exact main _ _ _ List.filter_sublist
    · exact main _ _ _ (List.Sublist.refl _)

theorem hbv_suits {cs : List PyCover} (h : Spec.GoodCovers cs) {o : HbvOpts} (hsoil : ∃ c ∈ cs, c.kind ≠ "lake" ∧ c.kind ≠ "glacier") :
    hbv96 o cs ≠ [] ∧ (∀ v ∈ hbv96 o cs, Suits cs v) ∧
    (∃ v ∈ hbv96 o cs, ∀ c ∈ cs, c.kind ≠ "lake" → c.name ∈ v.base.covers.map (·.name)) ∧
    ((∃ c ∈ cs, c.kind = "lake") → ∃ v ∈ hbv96 o cs, ∀ c ∈ cs, c.kind = "lake" → c.name ∈ v.base.covers.map (·.name)) := by
  obtain ⟨c0, hc0, hk0⟩ := hsoil
  have hsne : soilsOf cs ≠ [] := List.ne_nil_of_mem (soil_mem.2 ⟨hc0, hk0⟩)
  rw [hbv_variants h o hsne]
  have hdry : (dryOf cs).Sublist cs := List.filter_sublist
  have main : ∀ cs' gl S, cs'.Sublist cs → Suits cs (hbvVariant o cs cs' gl S) := by
    intro cs' gl S hsub
    refine suits_of h hsub (snowArgs_covers o.snow cs') fun it hit => ?_
    rw [hbvVariant_units] at hit
    simp only [List.mem_append, hbvResponse, List.mem_cons, List.not_mem_nil, or_false, List.mem_map] at hit
    rcases hit with (rfl | rfl) | ⟨s, hs, rfl⟩ | rfl
    · exact .inl (by dsimp only; decide)
    · exact .inl (by dsimp only; decide)
    · rcases hbvSoils_cases hs with rfl | ⟨c, hc, rfl⟩
      · exact .inl (by unfold hbvSoilStore; dsimp only; decide)
      · exact .inr ⟨c, hc, "_soil_moisture", by decide, by decide, rfl⟩
    · exact .inl (by decide)
  have lake : Suits cs (hbvLakes o (lakesOf cs)) := by
    refine suits_of h (cs' := lakesOf cs) List.filter_sublist ⟨_, rfl⟩ fun it hit => .inr ?_
    rw [lake_units] at hit
    obtain ⟨c, hc, rfl⟩ := List.mem_map.1 hit
    exact ⟨c, (lake_mem.1 hc).1, "_storage", by decide, by decide, rfl⟩
  have dry : ∀ gl S, ∀ c ∈ cs, c.kind ≠ "lake" → c.name ∈ (hbvVariant o cs (dryOf cs) gl S).base.covers.map (·.name) := by
    intro gl S c hc hk
    obtain ⟨x, hx, hxn⟩ := mem_covers (snowArgs_covers o.snow (dryOf cs)) (dry_mem.2 ⟨hc, hk⟩)
    exact List.mem_map.2 ⟨x, hx, hxn⟩
  refine ⟨?_, ?_, ?_, ?_⟩
  · split <;> simp
  · intro v hv
    rcases List.mem_append.1 hv with hv | hv
    · split at hv
      · rw [List.mem_singleton] at hv
        subst hv
        exact main _ _ _ hdry
      · simp only [List.mem_cons, List.not_mem_nil, or_false] at hv
        rcases hv with rfl | rfl
        · exact main _ _ _ (List.filter_sublist.trans hdry)
        · exact main _ _ _ hdry
    · split at hv
      · cases hv
      · rw [List.mem_singleton] at hv
        subst hv
        exact lake
  · split
    · exact ⟨_, List.mem_append_left _ (List.mem_singleton.2 rfl), dry _ _⟩
    · exact ⟨_, List.mem_append_left _ (List.mem_cons_of_mem _ (List.mem_singleton.2 rfl)), dry _ _⟩
  · rintro ⟨l, hl, hlk⟩
    have hne : lakesOf cs ≠ [] := List.ne_nil_of_mem (lake_mem.2 ⟨hl, hlk⟩)
    rw [if_neg hne]
    refine ⟨_, List.mem_append_right _ (List.mem_singleton.2 rfl), fun c hc hk => ?_⟩
    obtain ⟨x, hx, hxn⟩ := mem_covers (g := (hbvLakes o (lakesOf cs)).base) (cs' := lakesOf cs) ⟨_, rfl⟩ (lake_mem.2 ⟨hc, hk⟩)
    exact List.mem_map.2 ⟨x, hx, hxn⟩

theorem gr_suits {c : PyCover} (h : Spec.GoodCovers [c]) {o : GrOpts} :
    gr o [c] ≠ [] ∧ (∀ v ∈ gr o [c], Suits [c] v) ∧ ∃ v ∈ gr o [c], ∀ n ∈ [c].map (·.name), n ∈ v.base.covers.map (·.name) := by
  refine ⟨(by intro h; cases h), fun v hv => ?_, _, List.mem_singleton.2 rfl, fun n hn => ?_⟩
  · change v ∈ [_] at hv
    rw [List.mem_singleton] at hv
    subst hv
    refine suits_of h (cs' := [c]) (List.Sublist.refl _) ⟨_, rfl⟩ fun it hit => ?_
    replace hit : it ∈ Spec.itemsAt .unit (grItems o c.name) := hit
    rw [gr_units] at hit
    simp only [List.mem_append, List.mem_cons, List.not_mem_nil, or_false] at hit
    rcases hit with hit | rfl | rfl
    · split at hit
      · cases hit
      · rw [List.mem_singleton] at hit
        subst hit
        exact .inr ⟨c, List.mem_singleton.2 rfl, "_soil", by decide, by decide, rfl⟩
    · refine .inl ?_
      unfold grStore
      cases o.discrete <;> decide
    · exact .inl (by unfold grRouting; dsimp only; decide)
  · exact hn

end HB.Setup

namespace HB

open HB.Names HB.Wire HB.Basin HB.Setup

variable {K : Type} [Field K] [LinearOrder K] [IsStrictOrderedRing K] [FloorRing K]

/-! ## The period -/

theorem rows_exact {start stop dt : K} {rnd : K → K} (hr : ∀ x, rnd x = x) (hdt : 0 < dt) (hle : start ≤ stop) :
    stepCount rnd start stop dt = ⌊(stop - start) / dt⌋.toNat + 1 := by
  unfold stepCount
  rw [hr, hr, hr, add_comm, Int.floor_add_one]
  have : 0 ≤ ⌊(stop - start) / dt⌋ := Int.floor_nonneg.2 (div_nonneg (sub_nonneg.2 hle) hdt.le)
  omega

theorem rows_iff {start stop dt : K} {rnd : K → K} (hr : ∀ x, rnd x = x) (hdt : 0 < dt) (hle : start ≤ stop) (j : ℕ) :
    j < stepCount rnd start stop dt ↔ start + j * dt ≤ stop := by
  rw [rows_exact hr hdt hle]
  have h0 : 0 ≤ ⌊(stop - start) / dt⌋ := Int.floor_nonneg.2 (div_nonneg (sub_nonneg.2 hle) hdt.le)
  have h1 : (j : ℤ) ≤ ⌊(stop - start) / dt⌋ ↔ start + j * dt ≤ stop := by
    rw [Int.le_floor, le_div_iff₀ hdt]
    push_cast
    constructor <;> intro h <;> linarith
  rw [← h1]
  omega

theorem spin_iff {start stop dt days : K} {rnd : K → K} (hr : ∀ x, rnd x = x) (hdt : 0 < dt) (j : ℕ) :
    j < spinSteps rnd start stop dt days ↔ j < stepCount rnd start stop dt ∧ (j + 1) * dt ≤ days := by
  unfold spinSteps
  rw [lt_min_iff, hr, and_comm]
  refine and_congr_right fun _ => ?_
  have h1 : ((j + 1 : ℕ) : ℤ) ≤ ⌊days / dt⌋ ↔ (j + 1) * dt ≤ days := by
    rw [Int.le_floor, le_div_iff₀ hdt]
    push_cast
    rfl
  rw [← h1]
  push_cast
  omega

/-- The whole, for any predefined model. -/
theorem Setup.set_up_as {vs : List Wire.Variant} {bas : List String} (hgm : GoodModel vs bas) (hne : vs ≠ []) (hw : ∀ v ∈ vs, Whole v)
    {o : Spec.Choices} (hf : ∀ v ∈ vs, Fits o v) {cs : List PyCover} (hcs : Spec.GoodCovers cs) (hsuit : ∀ v ∈ vs, Suits cs v)
    {S : Setup.Settings K} (hv : S.variants = vs) (hB : Spec.GoodBasin cs S.basin)
    (ht : ∀ u ∈ S.basin.units, ∃ v ∈ vs, ∀ c ∈ u.covers, c.fraction ≠ 0 → c.name ∈ v.base.covers.map (·.name))
    (hP : ∀ u ∈ S.basin.units, Spec.PropertiesGiven o u) {loaded : List Var} (hD : Spec.DataGiven o S.basin loaded)
    {a b : CTime} (hT : Spec.PeriodGiven S.timer a b) {sc : SolverClass} (hS : S.solver ∈ Spec.solverNames sc) (rnd : K → K) :
    ∃ M, setup rnd S = .ok M ∧ Spec.SetUpAs rnd vs S a b sc loaded M := by
  obtain ⟨M, x, y, h, hx, hy, hxy, hdt, rfl, rfl, h1, h2, h3, h4, h5, hst, h6, h7⟩ :=
    setup_ok hgm hne hw hf (name_nodup hcs) hsuit hv hB ht hP hD hT hS rnd
  refine ⟨M, h, hx, hy, hxy, ⟨h1, hdt⟩, fun hr j => ?_, h2, fun hr j => ?_, h4, hst, h6, h5, h7⟩
  · rw [h2]; exact rows_iff hr hdt hxy j
  · rw [h2, h3]; exact spin_iff hr hdt j

/-- **C73 (Socont).**  One land cover besides glaciers, documented options, a basin declaring these covers, with the properties and
series asked for, a period and a solver: setting up succeeds and gives the declared model. -/
theorem c73_socont {cs : List PyCover} (h : Spec.GoodCovers cs) {o : SocontOpts} (ho : Spec.GoodSnow o.snow)
    (hr : o.snow.refreezing ≠ none → o.snow.melt = "melt:degree_day") (hone : (cs.filter fun c => c.kind != "glacier").length = 1)
    (hice : Spec.IceMelts o.snow.melt cs) {S : Setup.Settings K} (hv : S.variants = socont o cs) (hB : Spec.GoodBasin cs S.basin)
    (hP : ∀ u ∈ S.basin.units, Spec.PropertiesGiven (Spec.socontChoices o) u) {loaded : List Var}
    (hD : Spec.DataGiven (Spec.socontChoices o) S.basin loaded) {a b : CTime} (hT : Spec.PeriodGiven S.timer a b) {sc : SolverClass}
    (hS : S.solver ∈ Spec.solverNames sc) (rnd : K → K) :
    ∃ M, setup rnd S = .ok M ∧ Spec.SetUpAs rnd (socont o cs) S a b sc loaded M := by
  obtain ⟨soil, hsoil⟩ := List.length_eq_one_iff.1 hone
  have hmem : soil ∈ cs.filter fun c => c.kind != "glacier" := by rw [hsoil]; exact List.mem_cons_self ..
  obtain ⟨h1, h2⟩ := List.mem_filter.1 hmem
  have hex : ∃ c ∈ cs, c.kind ≠ "glacier" := ⟨soil, h1, by simpa using h2⟩
  have hR := socont_ready h ho hr hsoil hice
  obtain ⟨s1, s2, v, hvm, s3⟩ := socont_suits h (o := o) hex
  refine set_up_as (socont_good h ho hex hice).1 s1 (fun v hv => (hR v hv).1) (fun v hv => (hR v hv).2) h s2 hv hB
    (fun u hu => ⟨v, hvm, fun c hc _ => s3 _ ?_⟩) hP hD hT hS rnd
  rw [← hB.covers u hu]
  exact List.mem_map.2 ⟨c, hc, rfl⟩

/-- **C73 (HBV-96).**  At least one soil-bearing cover, any number of further ones, lakes and glaciers, no unit mixing lakes with other
covers. -/
theorem c73_hbv {cs : List PyCover} (h : Spec.GoodCovers cs) {o : HbvOpts} (ho : Spec.GoodSnow o.snow)
    (hr : o.snow.refreezing ≠ none → o.snow.melt = "melt:degree_day") (hsoil : ∃ c ∈ cs, c.kind ≠ "lake" ∧ c.kind ≠ "glacier")
    (hice : Spec.IceMelts o.snow.melt cs) {S : Setup.Settings K} (hv : S.variants = hbv96 o cs) (hB : Spec.GoodBasin cs S.basin)
    (hL : Spec.LakesApart cs S.basin) (hP : ∀ u ∈ S.basin.units, Spec.PropertiesGiven (Spec.hbvChoices o) u) {loaded : List Var}
    (hD : Spec.DataGiven (Spec.hbvChoices o) S.basin loaded) {a b : CTime} (hT : Spec.PeriodGiven S.timer a b) {sc : SolverClass}
    (hS : S.solver ∈ Spec.solverNames sc) (rnd : K → K) :
    ∃ M, setup rnd S = .ok M ∧ Spec.SetUpAs rnd (hbv96 o cs) S a b sc loaded M := by
  have hR := hbv_ready h ho hr hsoil hice
  obtain ⟨s1, s2, ⟨v, hvm, s3⟩, s4⟩ := hbv_suits h (o := o) hsoil
  refine set_up_as (hbv_good h ho hsoil hice).1 s1 (fun v hv => (hR v hv).1) (fun v hv => (hR v hv).2) h s2 hv hB
    (fun u hu => ?_) hP hD hT hS rnd
  have hin : ∀ c ∈ u.covers, ∃ p ∈ cs, p.name = c.name := fun c hc => by
    have : c.name ∈ cs.map (·.name) := by rw [← hB.covers u hu]; exact List.mem_map.2 ⟨c, hc, rfl⟩
    exact List.mem_map.1 this
  by_cases hlk : ∃ c ∈ cs, c.kind = "lake"
  · rcases hL u hu with hl | hl
    · obtain ⟨w, hw, s5⟩ := s4 hlk
      refine ⟨w, hw, fun c hc h0 => ?_⟩
      obtain ⟨p, hp, hpn⟩ := hin c hc
      rw [← hpn]
      exact s5 p hp (hl c hc h0 p hp hpn)
    · refine ⟨v, hvm, fun c hc h0 => ?_⟩
      obtain ⟨p, hp, hpn⟩ := hin c hc
      rw [← hpn]
      exact s3 p hp (hl c hc h0 p hp hpn)
  · refine ⟨v, hvm, fun c hc h0 => ?_⟩
    obtain ⟨p, hp, hpn⟩ := hin c hc
    rw [← hpn]
    exact s3 p hp fun hk => hlk ⟨p, hp, hk⟩

/-- **C73 (GR4J and GR6J).**  One land cover that is no glacier. -/
theorem c73_gr {c : PyCover} (h : Spec.GoodCovers [c]) (hk : c.kind ≠ "glacier") {o : GrOpts} (ho : Spec.GoodGr o)
    (hsr : ∀ s ∈ o.snowRain, s ∈ ["snow_rain:threshold", "snow_rain:linear", "snow_rain:cemaneige"]) {S : Setup.Settings K}
    (hv : S.variants = gr o [c]) (hB : Spec.GoodBasin [c] S.basin) (hP : ∀ u ∈ S.basin.units, Spec.PropertiesGiven (Spec.grChoices o) u)
    {loaded : List Var} (hD : Spec.DataGiven (Spec.grChoices o) S.basin loaded) {a b : CTime} (hT : Spec.PeriodGiven S.timer a b)
    {sc : SolverClass} (hS : S.solver ∈ Spec.solverNames sc) (rnd : K → K) :
    ∃ M, setup rnd S = .ok M ∧ Spec.SetUpAs rnd (gr o [c]) S a b sc loaded M := by
  have hR := gr_ready h hk ho hsr
  obtain ⟨s1, s2, v, hvm, s3⟩ := gr_suits h (o := o)
  refine set_up_as (gr_good h ho).1 s1 (fun v hv => (hR v hv).1) (fun v hv => (hR v hv).2) h s2 hv hB
    (fun u hu => ⟨v, hvm, fun c' hc _ => s3 _ ?_⟩) hP hD hT hS rnd
  rw [← hB.covers u hu]
  exact List.mem_map.2 ⟨c', hc, rfl⟩

/-! ## What a successful set-up means, for any settings -/

theorem Basin.Out.bind_ok {α β : Type} {x : Basin.Out α} {f : α → Basin.Out β} {r : β} (h : x.bind f = .ok r) :
    ∃ a, x = .ok a ∧ f a = .ok r := by
  cases x with
  | ok a => exact ⟨a, rfl, h⟩
  | refused => cases h
  | undef => cases h

theorem Setup.initModel_inv {rnd : K → K} {S : Setup.Settings K} {xi : InputX K} {M : Setup.Model K} (h : initModel rnd S xi = .ok M) :
    settingsValid S = true ∧ M.input = xi ∧ Built M ∧ DateText.initTimer S.timer = some (M.start, M.stop, M.dt) ∧
    timerValid (M.start, M.stop, M.dt) S.timer.timeStep = true ∧ solverFactory S.solver = .ok M.solver ∧
    badTopology xi.base M.model = false ∧ initialise S.basin (xi.base.units.map fun un => groundOf un.str) true = .ok M.grounds ∧
    M.rows = stepCount rnd M.start M.stop M.dt ∧ M.spin = spinSteps rnd M.start M.stop M.dt (S.spinupDays : K) := by
  unfold initModel at h
  split at h
  · rename_i hv
    obtain ⟨mf, hmf, h⟩ := Basin.Out.bind_ok h
    obtain ⟨t, ht, h⟩ := Basin.Out.bind_ok h
    split at h
    · rename_i htv
      split at h
      · rename_i sc hsc
        split at h
        · cases h
        · rename_i htop
          obtain ⟨gs, hgs, h⟩ := Basin.Out.bind_ok h
          cases h
          have hp : prepare xi = .ok mf := by
            cases hx : prepare xi with
            | ok r => rw [hx] at hmf; cases hmf; rfl
            | error e => rw [hx] at hmf; cases e <;> cases hmf
          have ht' : DateText.initTimer S.timer = some t := by
            cases hx : DateText.initTimer (K := K) S.timer with
            | some r => rw [hx] at ht; cases ht; rfl
            | none => rw [hx] at ht; cases ht
          exact ⟨hv, rfl, hp, ht', htv, hsc, by simpa using htop, hgs, rfl, rfl⟩
      · cases h
    · cases h
  · cases h

theorem Setup.setup_inv {rnd : K → K} {S : Setup.Settings K} {M : Setup.Model K} (h : setup rnd S = .ok M) :
    ∃ ws b first sel, write S.variants = .ok ws ∧ Basin.build S.basin = .ok b ∧ ws.head? = some first ∧
      chooseAll ws S.basin.units b.units = some sel ∧ initModel rnd S (Setup.input first sel) = .ok M := by
  unfold setup at h
  obtain ⟨ws, hws, h⟩ := Basin.Out.bind_ok h
  obtain ⟨b, hb, h⟩ := Basin.Out.bind_ok h
  have hw : write S.variants = .ok ws := by
    cases hx : write S.variants with
    | ok r => rw [hx] at hws; cases hws; rfl
    | error e => rw [hx] at hws; cases e <;> cases hws
  split at h
  · rename_i first sel h1 h2
    exact ⟨ws, b, first, sel, hw, hb, h1, h2, h⟩
  · cases h

theorem Setup.chooseAll_length {ws : List Written} : ∀ {us : List (UnitDecl K)} {bs : List (BUnit K)} {sel : List (Written × BUnit K)},
    chooseAll ws us bs = some sel → us.length = bs.length → sel.length = us.length := by
  intro us
  induction us with
  | nil => intro bs sel hc _; cases bs <;> (cases hc; rfl)
  | cons u us ih =>
    intro bs sel hc hl
    cases bs with
    | nil => cases hl
    | cons b bs =>
      unfold chooseAll at hc
      split at hc
      · rename_i w r hw' hr'
        cases hc
        rw [List.length_cons, List.length_cons, ih hr' (by simpa using hl)]
      · cases hc

theorem Setup.units_built {d : Basin.Decl K} {b : Basin.Basin K} (hb : Basin.build d = .ok b) : b.units.length = d.units.length := by
  unfold Basin.build at hb
  obtain ⟨-, -, h3⟩ := addConns_spec d.laterals (d.units.foldl Basin.addUnit ⟨[], 0⟩)
  obtain ⟨-, a2, -⟩ := h3 b hb
  rw [a2, foldl_addUnit]
  simp

/-- **C73 (what success means).**  Whatever the settings, a model that is set up has a positive step, an end not before its start, at least
one row when arithmetic is exact, at most as many spin-up steps as rows, a known solver, and its network is the one built from its input. -/
theorem c73_guarantees {rnd : K → K} {S : Setup.Settings K} {M : Setup.Model K} (h : setup rnd S = .ok M) :
    0 < M.start ∧ M.start ≤ M.stop ∧ 0 < M.dt ∧ 0 < S.timer.timeStep ∧ M.spin ≤ M.rows ∧ M.rows = stepCount rnd M.start M.stop M.dt ∧
    ((∀ x, rnd x = x) → 0 < M.rows) ∧ S.solver ∈ Spec.solverNames M.solver ∧ Built M ∧ S.basin.units ≠ [] ∧ (∀ u ∈ S.basin.units, 0 < u.area) := by
  obtain ⟨ws, b, first, sel, hw, hb, h1, h2, hi⟩ := setup_inv h
  obtain ⟨hv, hin, hbuilt, hti, htv, hsc, htop, hgs, hrows, hspin⟩ := initModel_inv hi
  unfold timerValid at htv
  simp only [Bool.and_eq_true, decide_eq_true_eq] at htv
  obtain ⟨⟨⟨⟨t1, t2⟩, t3⟩, t4⟩, t5⟩ := htv
  refine ⟨t1, t3, t5, t4, ?_, hrows, fun hr => ?_, ((c52_solvers S.solver).1 _).1 hsc, hbuilt, ?_, ?_⟩
  · rw [hspin, hrows]; exact min_le_right _ _
  · rw [hrows, rows_exact hr t5 t3]; exact Nat.succ_pos _
  all_goals
    have hsl : sel.length = S.basin.units.length := by
      have hbl := units_built hb
      exact chooseAll_length h2 hbl.symm
    have hps : S.basin.units.length = ((Setup.input first sel).base.units.map fun un => partsOf un.str).length := by
      rw [List.length_map, ← hsl]
      exact (List.length_map (f := fun e : Written × BUnit K => unitIn e.1 e.2) (as := sel)).symm
    rw [grounds_fresh] at hgs
    have hacc := c61_accepted S.basin _ hps true
    have hnc : ¬ ∃ (k : ℕ) (u : UnitDecl K) (p : Basin.Parts), S.basin.units[k]? = some u ∧
        ((Setup.input first sel).base.units.map fun un => partsOf un.str)[k]? = some p ∧ NotACover u p := by
      intro hx
      have := hacc.1.2 hx
      rw [this] at hgs
      cases hgs
    obtain ⟨a1, -, a3⟩ := (hacc.2 hnc).1 ⟨_, hgs⟩
  · exact a1
  · intro u hu
    obtain ⟨k, hk⟩ := List.mem_iff_getElem?.1 hu
    have hlt : k < ((Setup.input first sel).base.units.map fun un => partsOf un.str).length := by
      rw [← hps]; exact (List.getElem?_eq_some_iff.1 hk).1
    exact (a3 k u _ hk (List.getElem?_eq_getElem hlt)).2.1

/-! ## The run of a model that is set up -/

/-- **C73 (the run visits the period).**  A run of a model that is set up, with its start, end, step and rows, from a fresh start visits
every step of the period, writes one row per step and stops (exact arithmetic). -/
theorem c73_period {W A P R : Type} {rnd : K → K} (hr : ∀ x, rnd x = x) {S : Setup.Settings K} {M : Setup.Model K} (h : setup rnd S = .ok M)
    (c : RunCfg K W A P R) (h1 : c.start = M.start) (h2 : c.stop = M.stop) (h3 : c.dt = M.dt) (h4 : c.rows = M.rows) (h5 : c.rnd = rnd)
    (s : RunSt K W A P R) (hd : s.date = M.start) (hc : s.cursor = 0) :
    VisitsAll c M.rows s ∧ ∀ j : ℕ, j < M.rows ↔ M.start + j * M.dt ≤ M.stop := by
  obtain ⟨-, g1, g2, -, -, g3, -⟩ := c73_guarantees h
  have hx : M.rows = ⌊(c.stop - c.start) / c.dt⌋.toNat + 1 := by rw [g3, rows_exact hr g2 g1, h1, h2, h3]
  refine ⟨?_, fun j => by rw [g3]; exact rows_iff hr g2 g1 j⟩
  rw [hx]
  exact c39_visits_all c (by rw [h5]; exact hr) (by rw [h3]; exact g2) (by rw [h1, h2]; exact g1) (by rw [h4, h5, h1, h2, h3]; exact g3) s
    (by rw [hd, h1]) hc

/-- **C73 (the run visits the period, with doubles, daily).**  The same with the rounding of doubles when start and end are midnights and the
step is a whole number of days.  Partial: for other steps it is false (`c39_hourly_overruns`, `c39_two_hourly_misses`). -/
theorem c73_period_double_partial {W A P R : Type} {rnd : K → K} (hr : RoundsLikeDouble rnd) {S : Setup.Settings K} {M : Setup.Model K}
    (h : setup rnd S = .ok M) {a b d : ℤ} (ha : M.start = a) (hb : M.stop = b) (hdt : M.dt = d) (hB : b < 2 ^ 50) (hD : d < 2 ^ 50)
    (c : RunCfg K W A P R) (h1 : c.start = M.start) (h2 : c.stop = M.stop) (h3 : c.dt = M.dt) (h4 : c.rows = M.rows) (h5 : c.rnd = rnd)
    (s : RunSt K W A P R) (hd : s.date = M.start) (hc : s.cursor = 0) : VisitsAll c (((b - a) / d).toNat + 1) s := by
  obtain ⟨g0, g1, g2, -, -, g3, -⟩ := c73_guarantees h
  rw [ha] at g0 g1
  rw [hb] at g1
  rw [hdt] at g2
  refine c39_visits_all_double_partial c (by rw [h5]; exact hr) (h1.trans ha) (h2.trans hb) (h3.trans hdt) (by exact_mod_cast g0.le)
    (by exact_mod_cast g1) hB (by exact_mod_cast g2) hD (by rw [h4, h5, h1, h2, h3]; exact g3) s (by rw [hd, h1]) hc

/-! ## What is refused -/

/-- **C73 (refusals).**  No model comes out of: an unknown solver; no structure; no unit; a unit with an area that is not positive; a step
that is not positive; a start or end that cannot be read; an end before the start; a connection between known units with a share outside
(0, 1]. -/
theorem c73_refused (rnd : K → K) (S : Setup.Settings K)
    (h : (∀ sc, S.solver ∉ Spec.solverNames sc) ∨ S.variants = [] ∨ S.basin.units = [] ∨ (∃ u ∈ S.basin.units, u.area ≤ 0) ∨ S.timer.timeStep ≤ 0 ∨
      DateText.parseToMJD (K := K) S.timer.start .guess = none ∨ DateText.parseToMJD (K := K) S.timer.stop .guess = none ∨
      (∃ x y : K, DateText.parseToMJD S.timer.start .guess = some x ∧ DateText.parseToMJD S.timer.stop .guess = some y ∧ y < x) ∨
      ∃ l ∈ S.basin.laterals, Basin.Spec.Known S.basin l.giver ∧ Basin.Spec.Known S.basin l.receiver ∧ ¬ (0 < l.fraction ∧ l.fraction ≤ 1)) :
    ∀ M, setup rnd S ≠ .ok M := by
  intro M hM
  obtain ⟨g0, g1, g2, g3, -, -, -, g4, -, g5, g6⟩ := c73_guarantees hM
  obtain ⟨ws, b, first, sel, hw, hb, h1, h2, hi⟩ := setup_inv hM
  obtain ⟨hv, -, -, hti, -⟩ := initModel_inv hi
  have hread : DateText.parseToMJD S.timer.start .guess = some M.start ∧ DateText.parseToMJD S.timer.stop .guess = some M.stop := by
    unfold DateText.initTimer at hti
    split at hti
    · rename_i x y hx hy
      have key : ∀ z : K, some (x, y, z) = some (M.start, M.stop, M.dt) → x = M.start ∧ y = M.stop := by
        intro z hz
        rw [Option.some.injEq, Prod.mk.injEq, Prod.mk.injEq] at hz
        exact ⟨hz.1, hz.2.1⟩
      have hxy : x = M.start ∧ y = M.stop := by
        split at hti
        · exact key _ hti
        · split at hti
          · exact key _ hti
          · split at hti
            · exact key _ hti
            · cases hti
      rw [hx, hy, hxy.1, hxy.2]
      exact ⟨rfl, rfl⟩
    · cases hti
  rcases h with h | h | h | ⟨u, hu, h⟩ | h | h | h | ⟨x, y, hx, hy, hlt⟩ | ⟨l, hl, k1, k2, hf⟩
  · exact h _ g4
  · unfold settingsValid at hv
    rw [h] at hv
    simp at hv
  · exact g5 h
  · exact absurd (g6 u hu) (not_lt.2 h)
  · exact absurd g3 (not_lt.2 h)
  · rw [hread.1] at h; cases h
  · rw [hread.2] at h; cases h
  · rw [hread.1] at hx; rw [hread.2] at hy
    cases hx; cases hy
    exact absurd g1 (not_le.2 hlt)
  · exact hf ((c61_built S.basin).2.1 ⟨b, hb⟩ l hl k1 k2)

end HB

/-! ## Examples -/

namespace HB.SetupDemo

open HB.Names HB.Wire HB.Basin HB.Setup HB.PreDemo

/-- The properties and covers of a unit. -/
def unit (id : ℤ) (area : ℚ) (fr : List (String × ℚ)) : UnitDecl ℚ :=
  ⟨id, area, 1200, fr.map fun e => ⟨e.1, "", e.2⟩, [⟨"elevation", 1200, "m"⟩, ⟨"slope", 10, "degrees"⟩], [⟨"aspect_class", "N"⟩]⟩

/-- January 2020, daily. -/
def january : DateText.TimerSettings := ⟨"2020-01-01", "2020-01-31", 1, "day"⟩

theorem january_given : Spec.PeriodGiven january ⟨2020, 1, 1, 0, 0, 0⟩ ⟨2020, 1, 31, 0, 0, 0⟩ where
  modernStart := ⟨⟨⟨by decide, by decide, by decide, by decide⟩, by decide, by decide, by decide, by decide, by decide, by decide, by decide, by decide⟩, by decide, by decide⟩
  modernEnd := ⟨⟨⟨by decide, by decide, by decide, by decide⟩, by decide, by decide, by decide, by decide, by decide, by decide, by decide, by decide⟩, by decide, by decide⟩
  ordered := .inr (by unfold Spec.before; decide)
  start := ⟨"%Y-%m-%d", by decide, ⟨fun _ => rfl, fun _ => rfl, fun _ => rfl⟩, by decide +kernel⟩
  stop := ⟨"%Y-%m-%d", by decide, ⟨fun _ => rfl, fun _ => rfl, fun _ => rfl⟩, by decide +kernel⟩
  step := by decide
  unit := by decide

/-- Open land and woods; a lake; open land and a glacier.  The first unit gives snow to the third. -/
def basin : Basin.Decl ℚ := ⟨[unit 1 3 [("open", 3 / 5), ("woods", 2 / 5), ("lake", 0), ("glacier", 0)],
  unit 2 1 [("open", 0), ("woods", 0), ("lake", 1), ("glacier", 0)],
  unit 3 2 [("open", 1 / 2), ("woods", 0), ("lake", 0), ("glacier", 1 / 2)]], [⟨1, 3, 1 / 2, "snow"⟩], none⟩

def settings : Setup.Settings ℚ := ⟨hbv96 {} mixed, "heun_explicit", january, 10, basin⟩

theorem basin_good : Spec.GoodBasin mixed basin := ⟨by decide, by decide, by decide, by decide +kernel, by decide, by decide +kernel, by decide +kernel,
  fun l hl _ _ => (show ∀ l ∈ basin.laterals, 0 < l.fraction ∧ l.fraction ≤ 1 by decide +kernel) l hl⟩

theorem basin_lakes : Spec.LakesApart mixed basin := by unfold Spec.LakesApart; decide +kernel

theorem basin_props (o : Spec.Choices) : ∀ u ∈ basin.units, Spec.PropertiesGiven o u := by
  intro u hu
  have : ∃ id a fr, u = unit id a fr := by
    simp only [basin, List.mem_cons, List.not_mem_nil, or_false] at hu
    rcases hu with rfl | rfl | rfl <;> exact ⟨_, _, _, rfl⟩
  obtain ⟨id, a, fr, rfl⟩ := this
  exact ⟨(show (["elevation", "slope"] ++ ["aspect_class"]).Nodup by decide), fun _ => ⟨⟨"slope", 10, "degrees"⟩, by simp [unit], rfl⟩,
    fun _ _ => ⟨⟨"aspect_class", "N"⟩, by simp [unit], rfl, by decide⟩, fun _ _ => ⟨⟨"elevation", 1200, "m"⟩, by simp [unit], rfl⟩⟩

theorem basin_data (o : Spec.Choices) : Spec.DataGiven o basin ReadyDemo.loaded :=
  ⟨by decide, by decide, fun _ => by decide, fun _ _ => by decide, fun _ _ _ _ _ _ _ _ => by decide⟩

/-- HBV-96 on these units is set up as declared. -/
theorem hbv_set_up : ∃ M, setup id settings = .ok M ∧
    Spec.SetUpAs id (hbv96 {} mixed) settings ⟨2020, 1, 1, 0, 0, 0⟩ ⟨2020, 1, 31, 0, 0, 0⟩ .heunExplicit ReadyDemo.loaded M :=
  c73_hbv mixed_good hbv_snow (fun _ => rfl) ⟨⟨"open", "open"⟩, by decide, by decide, by decide⟩ (fun _ => by decide) rfl basin_good basin_lakes
    (basin_props _) (basin_data _) january_given (by decide) id

/-- Open land with a small lake, of a share above the threshold for being present. -/
def pond : Setup.Settings ℚ := { settings with basin := ⟨[unit 1 3 [("open", 99999 / 100000), ("woods", 0), ("lake", 1 / 100000), ("glacier", 0)]], [], none⟩ }

/-- The names of the covers and the shares of the units of a model. -/
def shares (r : Basin.Out (Setup.Model ℚ)) : Option (List (List (String × ℚ))) :=
  match r with | .ok M => some (M.grounds.map fun g => g.hu.covers.map fun c => (c, g.hu.frac c)) | _ => none

/-- **Finding.**  A unit of HBV-96 that mixes land with a lake has no structure with its covers.  Up to a share of 1e-4 the model is
accepted without a word: the lake is not there and its share is given to the land. -/
theorem c73_pond_lost : shares (setup id pond) = some [[("open", 1), ("woods", 0), ("glacier", 0)]] := by decide +kernel

/-- Above 1e-4 it is refused. -/
theorem c73_lake_refused : shares (setup id { settings with basin := ⟨[unit 1 3 [("open", 9 / 10), ("woods", 0), ("lake", 1 / 10), ("glacier", 0)]], [], none⟩ }) = none := by
  decide +kernel

end HB.SetupDemo
